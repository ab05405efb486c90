{
 "C04": "False of the code: Join drops an invalid tail instead of rejecting it (negation proved); the partial theorem gives the exact result.",
 "C13": "False of the code for ㅞ only (negation proved); partial: all other letters.",
 "C14": "False of the code: the slice returned by SplitMultiElement is the package's own table (negation proved by a concrete history); partial: holds for histories without writes through a returned slice; for every history the exact answer (each element replaced by what was stored last in its place), and Stroke of a syllable stays the sum of its parts.",
 "C17": "False of the code for ㅞ only (negation proved); partial: all other letters.",
 "C19": "False of the code: \"abc\" gets a consonant (negation proved); partial: exact characterisation for every byte string.",
 "C26": "False of the code for invalid UTF-8 (negation proved); partial: untouched exactly when valid UTF-8 without hanja.",
 "C37": "False of the code for characters whose low 16 bits exceed FFE6, e.g. U+FFFD becomes '??' (negation proved); partial: one '?' for all characters up to U+FFE6, and the exact output for every character.",
 "C38": "False of the code: U+1AC00 is written as 가 (negation proved); partial: no wrong character for c <= U+FFFF, and the exact set of affected characters.",
 "C40": "False of the code for streams that end inside a character (negation proved); partial: holds for all streams on which From succeeds, and for any stream the error is the source's and the delivered bytes are From of a beginning whose remainder is empty or cut inside a character; C40_exact_partial: what is decoded are exactly the source reads up to the last one that ended between characters, for every source and any buffers.",
 "C42": "False of the code: the end inside a character is never reported (negation proved, also in general); partial: what is delivered of a truncated stream (exactly: C40_exact_partial) and which error is reported.",
 "C44": "False of the code: an empty first Read, or a source read of 0 bytes, ends the stream for good (negations proved); the same can happen after data has been delivered; partial: harmless while decoded bytes wait, after an error, or when the next source read brings whole characters; and a source read of 0 bytes is treated exactly as the end of file (C44_empty_source_read_exact).",
 "C45": "False of the code: an infinite source can keep Read looping for ever, and a complete character is withheld while a cut one follows (negations proved); partial: finite sources terminate within |D|+3 rounds, a source read that completes the pending input ends the call, and a call still running after n+2 rounds has seen n source reads that all ended inside a character (C45_running_partial).",
 "C47": "False of the code for cuts inside a UTF-8 sequence (negation proved: 가 becomes six '?'); partial: cuts at character boundaries of any bytes, and the exact output for any cuts: cut characters, and only these, become two question marks per byte, so the output is the encoding of the whole iff no character is cut.",
 "C49": "False of the code: nDst may exceed len(dst) with a nil error (negation proved); partial: nSrc is in range, dst keeps its length, and nDst is in range exactly when the conversion fits.",
 "C51": "False of the code: atEOF is ignored, a cut CP949 character is a hard error and a cut UTF-8 character becomes '?' (negation proved); partial: cuts between characters; and exactly: the decoder refuses a piece iff it ends inside a character, the encoder's pieces give the encoding of the whole iff no character is cut, with the exact output otherwise.",
 "C57": "The areas (Spec.KsCode, Spec.ExtCode) are written from the standard, not from the tables.",
 "C58": "Also proved that the extension area is a genuine exception (C58_extension_differs).",
 "C59": "The runs (Spec.rows) are written from the standard, not from the tables.",
 "C60": "False of the code: the 268 compatibility ideographs (U+F900-FA0B) of KS X 1001 are not in the hanja table (negation proved); partial: whatever is left is such a character and was there before, and every other position of the area is converted.",
 "C61": "False of the code: 13 hanja with several readings are filed by KS X 1001 under another reading than the table gives (negation proved); partial: true for all pairs without these 13; and each of the 13 is out of order with some other hanja (C61_exceptions_needed).",
 "C62": "For texts outside the repertoire it does not hold, e.g. U+3400 (C62_needs_repertoire).",
 "C64": "Composition of C46 and C39 for adaptive callers.",
 "C65": "False of the code: for every even buffer size that is not a multiple of 3 (32768 for io.Copy) a Korean stream is damaged (negation proved); partial: buffers with room for the whole decoded stream; and for any buffers, the copy is the stream iff no delivery ends within a character, with the exact damage otherwise.",
 "C66": "False of the code: decoding panics exactly when the text has a character from U+0800 on (every Hangul syllable), encoding panics exactly when To is longer than its argument, e.g. for one invalid byte; valid UTF-8 is encoded as To does. Over an environment model of golang.org/x/text.",
 "C67": "False of the code: a first chunk whose conversion exceeds 4096 bytes (1366 syllables) panics, a chunk that ends inside a character gives ErrCP949UnexpectedStream for ever; partial: chunks of whole characters with at most 4096 converted bytes. Over an environment model of golang.org/x/text.",
 "C68": "False of the code: Write panics exactly when To of the piece exceeds 4096 bytes; partial: pieces at character boundaries below that. Over an environment model of golang.org/x/text.",
 "C69": "Steps are single byte accesses and allocations; memory is sequentially consistent. Other goroutines are assumed not to write a running call's argument (a data race of the caller) and have no reference to its private buffers.",
 "C70": "Steps as in C69. The hypothesis on append holds of Go's run time (example in Props/Cost).",
 "C71": "False of the code: 그 spelled with jamo takes 은. Exact partials: decomposed open syllables are treated as closed unless the vowel is ㅢ, decomposed closed ones get the right form except ㄵ and ㄹ with 으로.",
 "C73": "False of the code: 大 (대) takes 은. Partial: exact choice for the direct call; right after hanja.Convert.",
 "C74": "False of the code: decoding 43 or more syllables panics, a character across a multiple of 128 bytes is refused; encoding 43 to 62 syllables returns damaged text without an error, 63 or more panic (negations proved). Exact partials for all strings. Over an environment model of golang.org/x/text.",
 "C75": "Names from the Unicode Character Database 14.0.0 as shipped with Python's unicodedata; the comments of constant.go are transcribed by tools/gen_unicode.py.",
 "C76": "Normal forms from the Unicode Character Database 14.0.0 (Spec/Unicode); on characters of CP949 normalisation acts character by character.",
 "C77": "False of the code, as of every CP949 codec: U+212B, U+F92C and U+F9B8 normalise to characters that CP949 lacks (negation proved). Exact partials: these three become a question mark, everything else survives.",
 "C78": "False of the code: a count that is too large or negative on a fresh reader panics (negation proved for all such sources). Partials: exactly when a call panics; what is delivered is decoded from what was handed over and not taken back, for all sources.",
 "C80": "False of the code: after each source read that ends inside a character everything received is translated again; n+1 times 가 cut that way costs (n+1)^2 + 2(n+1) bytes of translation (negation proved for all n, and that no factor suffices). Partials: never more than n(n+3)/2 for a stream of n bytes, and at most n if the source hands over whole characters.",
 "C82": "False of the code: a byte from 80 on followed by such a byte is decoded as one U+FFFD (negation proved for all such pairs in any surroundings; the WHATWG decoder would keep the ASCII byte). Exact partials: what is kept are the bytes standing alone; all is kept iff no second byte of a pair is such a byte, in particular in strings of assigned characters.",
 "C84": "False of the code: if each source read ends inside a character, one Read with a buffer of two bytes collects the whole stream before it decodes anything (negation proved for all lengths, and that no factor suffices). Partials: at most twice the stream and the largest buffer together for every source; at most twice the largest buffer if the source hands over whole characters. The decoded bytes kept for later calls (cdata) are not counted.",
 "C85": "Calls are atomic here (interleavings within calls of From and To: C69). Each source and sink has its own state and keeps no reference to the buffers it is handed, as io.Reader and io.Writer demand.",
 "C86": "False of the code for every stream that ends inside a character: ReadAll returns the text of a proper beginning and no error (negation proved for all of them). Partial: all other streams. io.ReadAll is modelled from memory of the published source of Go's standard library.",
 "C87": "False of the code: negation for every buffer of at least 3 bytes. Exact partials: the pieces, and for calls that fit the buffer: right iff no character has bytes on both sides of a multiple of the buffer size. bufio.Writer is modelled from memory of the published source of Go's standard library.",
 "C88": "io.Copy is modelled from memory of the published source of Go's standard library.",
 "C89": "False of the code: negation for every text of Hangul syllables longer than 32768 bytes. Exact partial: right iff no character has bytes on both sides of a multiple of 32768.",
 "C90": "Sequentially consistent memory, which Go guarantees for programs without data races. Reading and writing the fields of a reader or writer is no step of its own, a source is asked in one step and then stores byte by byte, and a sink is handed its bytes in one step.",
 "C91": "False of the code: for every text with such a character there is no error and all is consumed. The documentation of x/text is quoted from memory.",
 "C92": "False of the code for every text with such a character: the wrappers change nothing, as the encoder never reports an error. The loop of the wrappers is modelled from memory of the published source of x/text and has not been compared with it.",
 "C93": "False of the code exactly for sources that end inside a character: refused, with nothing converted. The documentation of x/text is quoted from memory.",
 "C94": "Holds for both ways of splitting. C94_conditions_needed: it fails if leading consonants are split too (각가 and 가까), and with loose letters. C94_prefix says exactly when the letters of one text begin those of another.",
 "C95": "False of the code: SplitMultiElement returns the slice in the package's own table, so a goroutine that stores into its result races with every Stroke or SplitMultiElement of that letter in others (witness with a count that the table never had). Proved: no race and right answers if nobody stores into a result; right answers for the letters nobody stored into; every Stroke returns after at most 16 steps of its own in any case.",
 "C96": "bufio.Scanner and ScanLines are modelled from memory of the published source of Go 1.21 and have not been compared with it. Streams that end inside a character are left out: the reader drops the rest without an error (C42, C86).",
 "C97": "Holds for To and Convert, for every byte string. False of From: the bytes B0 0A are read as one character that ends no line, while the line B0 is refused. Proved to hold exactly for the strings in which no line end (LF, or CR before LF or at the end) is the second byte of a pair, so for every encoded text.",
 "C98": "Prefixes: proved. False of searching and of suffixes, as of any encoding with two-byte characters: 걍가 encoded contains the bytes of 졀, and 걖A ends in those of 갂. Proved: nothing is missed; a match with a whole text before it is genuine; searches for something that begins with ASCII other than letters and '?' are exact.",
 "C101": "False of the code, as of every CP949 codec: 갂 (81 41) made lower-case is 갵 (81 61). Exactly the texts without a letter of the other case as a second byte are treated right, so all EUC-KR texts.",
 "C102": "bufio.Reader and its ReadRune are modelled from memory of the published source of Go 1.21 and have not been compared with it. Streams that end inside a character are left out: the Reader drops the rest without an error (C42).",
 "C103": "False of a file, other than the last, that ends inside a character: the Reader over the MultiReader makes one character of its last byte and the first of the next file. Proved for files that decode, either way round, and for files that end in an error; two files that together decode are read as they are alone if and only if the first does not end inside a character. io.MultiReader is modelled from memory of the published source of Go 1.21.",
 "C104": "io.ReadFull and io.ReadAtLeast are modelled from memory of the published source of Go 1.21 and have not been compared with it. Streams that end inside a character are left out (C42).",
 "C105": "False of cuts inside a character. Proved: the claim holds if and only if the cut is not inside a character; io.LimitReader, modelled from memory of the published source of Go 1.21, delivers the first n bytes and then io.EOF.",
 "C106": "io.Pipe is modelled from memory of the published source of Go 1.21 and has not been compared with it. Each exchange of bytes between the goroutines is one step. It matters that the Writer never passes on an empty piece: an empty write made to the pipe directly would be taken for the end (C44).",
 "C107": "False of a sink that takes something before it fails: Write returns 0, whatever the sink has taken, and so the caller repeats it. Proved: exactly what the sink has taken in the end; it is the encoded text once if and only if the calls that failed had taken nothing.",
 "C108": "False: the Reader keeps the error and never asks the source again (C43). Proved: a new Reader over the same source goes on, if and only if the first part does not end inside a character.",
 "C110": "False: Read ends its deliveries inside characters, and Convert makes U+FFFD of each byte of a cut character; with a buffer of 512 or 32768 bytes even a text without hanja is damaged. Proved: exactly what comes out, and that it is right if and only if no character is cut by the end of a delivery.",
 "C111": "False: the error of From tells only the parity of the last bytes from 0x80, and nothing if the last byte is ASCII. Comparing To(From(b)) with b tells exactly whether b is an encoding; but there are UTF-8 texts of any length that are CP949 encodings of another text too.",
 "C112": "False for code points in general: SplitCompat also gives ㄱ for the 587 code points before the syllables, and an initial for some code points beyond U+10000. Exactly which is proved; for syllables the property holds, and what follows for searching and sorting is proved.",
 "C114": "False for exactly three pairs: A1 A1 (ideographic space), A1 A9 (soft hyphen) and A4 D4 (Hangul filler). Proved: a character that is not seen comes up exactly if one of them stands where a character begins; the direction of To holds apart from them.",
 "C115": "False: 女子 becomes 녀자 (written 여자), 異 becomes 리 (이). Proved: exactly when a text over CP949 is converted to one that breaks the law, by the positions of the first hanja of its words in KS X 1001.",
 "C117": "False: replacing 졀 in the encoding of 걍가, where it does not occur, damages the text. Proved: it holds if every match begins between two characters, and if what is replaced begins with an ASCII character that is neither a letter nor '?'.",
 "C118": "False of the code: a file of 1366 to 2730 syllables gets four bytes too many (the first 4096 bytes end inside a syllable), a first chunk of 2049 bytes that are not UTF-8 panics. Proved: chunks of whole characters are encoded right whatever their sizes; for any chunks that do not become longer than 4096 bytes, exactly what is delivered, and that it is right iff no character is cut. Over an environment model of golang.org/x/text.",
 "C119": "False of the code: a piece that ends inside a character is refused, so of a text written byte by byte only ASCII arrives; writing 1366 syllables at once panics. Proved: the outcome of every Write, and that pieces of whole characters with at most 4096 converted bytes arrive right. Over an environment model of golang.org/x/text.",
 "C120": "False of the code: Err() is never anything but nil (or ErrTooLong) if the source ends with io.EOF, and of a file of at most 4096 bytes that ends inside a character, read at once, no line at all is given. The same with ReadString, which ends with io.EOF. Proved of both: the lines given are always those of From of a beginning of the data, the rest being nothing or a piece that ends inside a character.",
 "C121": "False of the code exactly for words that end in ㄹ and x not empty: hangul.go:99 compares the postposition with == \"으로\", so 서울 gets 으로부터. Proved: the law holds in every other case, for every byte string.",
 "C123": "False of streams that are cut inside a character: io.Copy returns nil, having copied a beginning of the text only; of a file of up to 32768 bytes read at once it copies nothing and returns (0, nil). Proved for all other streams, for every destination. Over an environment model of io.Copy."
}
