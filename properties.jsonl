{"id": "C01", "title": "Split then Join is the identity on syllables", "statement": "For every precomposed Hangul syllable s (U+AC00..U+D7A3), feeding the three results of Split(s), or of SplitCompat(s), back to Join returns s.", "quantifier": "all 11172 syllables", "why_tests_cant": "tests sample a few runes; the claim is about every one of them", "anchors": ["hangul.go:Join", "hangul.go:Split", "hangul.go:SplitCompat"]}
{"id": "C02", "title": "Join then Split is the identity on valid jamo triples", "statement": "For every leading consonant l, vowel m and trailing consonant t (or t = 0 for none), given either as conjoining or as compatibility jamo, Join(l,m,t) is a precomposed syllable, and Split (resp. SplitCompat) of it returns exactly the conjoining (resp. compatibility) forms of l, m, t. Hence Join is injective up to the two spellings of a jamo.", "quantifier": "all valid (lead, medial, optional tail) triples in both spellings", "why_tests_cant": "the space is 19*21*28 triples times spellings; tests use four", "anchors": ["hangul.go:Join", "hangul.go:Split", "jamo.go:Lead", "jamo.go:Medial", "jamo.go:Tail"]}
{"id": "C03", "title": "Join is total and returns a syllable or U+FFFD", "statement": "For every three runes whatsoever (any int32, negative and out-of-range included) Join returns either a precomposed syllable or U+FFFD, never anything else; it returns U+FFFD exactly when the first rune is not a leading consonant or the second is not a vowel.", "quantifier": "all triples of 32-bit runes", "why_tests_cant": "2^96 inputs", "anchors": ["hangul.go:Join", "jamo.go:leadIdx", "jamo.go:medialIdx", "jamo.go:tailIdx"]}
{"id": "C04", "title": "Join rejects a third rune that is not a trailing consonant", "statement": "For every l, m and every t that is neither 0 nor a trailing consonant (in either spelling), Join(l,m,t) is U+FFFD rather than a syllable that silently drops t.", "quantifier": "all triples of 32-bit runes with an invalid third component", "why_tests_cant": "2^96 inputs", "anchors": ["hangul.go:Join", "jamo.go:Tail", "jamo.go:tailIdx"]}
{"id": "C05", "title": "Split agrees with the Unicode canonical decomposition", "statement": "For every syllable s, Split(s) = (0x1100 + S/588, 0x1161 + (S mod 588)/28, 0x11A7 + S mod 28 or 0 if that remainder is 0), S = s - 0xAC00 (Unicode 3.12); the parts satisfy IsLead, IsMedial and (IsTail or 0), and distinct syllables have distinct decompositions.", "quantifier": "all syllables and all pairs of syllables", "why_tests_cant": "needs every syllable and every pair", "anchors": ["hangul.go:Split"]}
{"id": "C06", "title": "Split and Join recognise exactly the syllables", "statement": "For every rune c (any int32), Join(Split(c)) = c holds exactly when c is a precomposed syllable or the replacement rune U+FFFD itself; a caller can therefore detect that Split was given a non-syllable by joining back.", "quantifier": "all 32-bit runes, including negatives where the subtraction in Split wraps", "why_tests_cant": "2^32 inputs and a wrap-around corner", "anchors": ["hangul.go:Split", "hangul.go:Join"]}
{"id": "C07", "title": "SplitCompat returns the compatibility letters of the syllable", "statement": "For every syllable s, SplitCompat(s) returns a compatibility consonant, a compatibility vowel and a compatibility consonant or 0; converting them with Lead, Medial, Tail gives Split(s); the third is 0 exactly when s is an open syllable.", "quantifier": "all syllables", "why_tests_cant": "tests sample a few runes; the claim is about every one of them", "anchors": ["hangul.go:SplitCompat", "jamo.go:CompatJamo"]}
{"id": "C08", "title": "Conjoining jamo survive a trip through compatibility jamo", "statement": "For every leading consonant r, Lead(CompatJamo(r)) = r; for every vowel r, Medial(CompatJamo(r)) = r; for every trailing consonant r, Tail(CompatJamo(r)) = r.", "quantifier": "all conjoining jamo of each kind", "why_tests_cant": "three hand-written tables must be mutually inverse at every entry", "anchors": ["jamo.go:CompatJamo", "jamo.go:toCompatJamo", "jamo.go:toLead", "jamo.go:toTail"]}
{"id": "C09", "title": "Compatibility jamo survive a trip through conjoining jamo", "statement": "For every rune r for which Lead(r) (resp. Medial(r), Tail(r)) is not 0, CompatJamo of the result equals CompatJamo(r), which is r itself when r is a compatibility jamo. All four conversions are idempotent on every rune and map 0 to 0.", "quantifier": "all 32-bit runes", "why_tests_cant": "2^32 inputs", "anchors": ["jamo.go:Lead", "jamo.go:Medial", "jamo.go:Tail", "jamo.go:CompatJamo"]}
{"id": "C10", "title": "The classifiers describe exactly the documented ranges", "statement": "For every rune: IsHangul holds exactly on U+AC00..D7A3, U+3131..3163, U+1100..1112, U+1161..1175, U+11A8..11C2; no rune is both IsJaeum and IsMoeum; a syllable is neither; IsHangul is the disjoint union of syllables, IsJaeum and IsMoeum.", "quantifier": "all 32-bit runes", "why_tests_cant": "2^32 inputs", "anchors": ["hangul.go:IsHangul", "jamo.go:IsJaeum", "jamo.go:IsMoeum", "jamo.go:IsLead", "jamo.go:IsMedial", "jamo.go:IsTail"]}
{"id": "C11", "title": "Conversions and classifiers agree", "statement": "For every rune r: CompatJamo(r) != 0 exactly when r is a consonant or vowel letter (IsJaeum or IsMoeum), and then it is a compatibility letter of the same class; Lead(r) is 0 or satisfies IsLead, Medial(r) is 0 or IsMedial, Tail(r) is 0 or IsTail; and Lead(r) or Tail(r) non-zero implies IsJaeum(r), Medial(r) != 0 exactly when IsMoeum(r).", "quantifier": "all 32-bit runes", "why_tests_cant": "2^32 inputs", "anchors": ["jamo.go:CompatJamo", "jamo.go:Lead", "jamo.go:Medial", "jamo.go:Tail"]}
{"id": "C12", "title": "SplitMultiElement reports exactly the composite letters", "statement": "For every rune r, SplitMultiElement(r) succeeds exactly when r is, in any spelling, one of the 16 double consonants or 11 compound vowels; it then returns at least two compatibility letters, all consonants for a consonant and all vowels for a vowel, and the answer is the same for the conjoining and compatibility spelling of a letter.", "quantifier": "all 32-bit runes", "why_tests_cant": "2^32 inputs", "anchors": ["jamo.go:SplitMultiElement", "jamo.go:multiElements"]}
{"id": "C13", "title": "SplitMultiElement splits down to basic letters", "statement": "For every rune r that SplitMultiElement splits, no returned element can be split again.", "quantifier": "all 32-bit runes", "why_tests_cant": "the table has 27 rows and tests look at one", "anchors": ["jamo.go:SplitMultiElement", "jamo.go:multiElements"]}
{"id": "C14", "title": "Results do not depend on what callers do with earlier results", "statement": "Whatever calls were made before, and whatever a caller did to the slices it was handed, SplitMultiElement(r) and Stroke(r) return the same answer for the same r.", "quantifier": "all histories of calls and of writes to returned slices", "why_tests_cant": "unbounded histories and aliasing", "anchors": ["jamo.go:SplitMultiElement", "stroke.go:Stroke", "jamo.go:multiElements"]}
{"id": "C15", "title": "Stroke counts are compositional over syllables and spelling-independent", "statement": "For every syllable s, Stroke(s) is the sum of Stroke over the parts returned by Split(s), equally by SplitCompat(s); for every jamo r, Stroke(r) = Stroke(CompatJamo(r)).", "quantifier": "all syllables, all 32-bit runes", "why_tests_cant": "tests sample a few runes; the claim is about every one of them", "anchors": ["stroke.go:Stroke", "stroke.go:strokes"]}
{"id": "C16", "title": "Stroke is positive exactly on Hangul", "statement": "For every rune r, Stroke(r) = 0 exactly when IsHangul(r) is false, and Stroke(r) is never negative and never exceeds 8 for a letter or 20 for a syllable.", "quantifier": "all 32-bit runes", "why_tests_cant": "2^32 inputs", "anchors": ["stroke.go:Stroke", "hangul.go:IsHangul"]}
{"id": "C17", "title": "The stroke count of a composite letter is the sum over its elements", "statement": "For every rune r that SplitMultiElement splits, Stroke(r) is the sum of Stroke over the elements returned.", "quantifier": "all 32-bit runes", "why_tests_cant": "the table has 27 rows; tests look at three", "anchors": ["stroke.go:Stroke", "jamo.go:SplitMultiElement"]}
{"id": "C18", "title": "LastConsonant looks only at the final syllable", "statement": "For every byte string w (valid UTF-8 or not) and every syllable s, LastConsonant(w + s) is the tail of s as given by Split(s), and 0 if s has none; LastConsonant(\"\") = 0.", "quantifier": "all byte strings and all syllables", "why_tests_cant": "unbounded strings", "anchors": ["hangul.go:LastConsonant"]}
{"id": "C19", "title": "LastConsonant is 0 when there is no final consonant", "statement": "For every word that does not end in a Hangul syllable (empty, Latin, digits, punctuation, ...), LastConsonant returns 0 and EndsWithConsonant returns false.", "quantifier": "all strings", "why_tests_cant": "unbounded strings, every possible last rune", "anchors": ["hangul.go:LastConsonant", "hangul.go:EndsWithConsonant"]}
{"id": "C20", "title": "EndsWithConsonant tells whether the final syllable is closed", "statement": "For every byte string w and syllable s, EndsWithConsonant(w + s) is true exactly when s has a trailing consonant; in general it is true exactly when LastConsonant is not 0.", "quantifier": "all byte strings and all syllables", "why_tests_cant": "unbounded strings", "anchors": ["hangul.go:EndsWithConsonant"]}
{"id": "C21", "title": "AppendPostposition appends exactly one of the two forms", "statement": "For all word, with, without: the result is word followed by with or word followed by without and nothing else; if word ends in a closed syllable it is with, if it ends in an open syllable or is empty it is without, except that for with = \"으로\" a word ending in the consonant ㄹ takes without.", "quantifier": "all triples of byte strings", "why_tests_cant": "unbounded strings", "anchors": ["hangul.go:AppendPostposition"]}
{"id": "C22", "title": "IsHanja is true exactly on the tabulated ideographs", "statement": "For every rune c, IsHanja(c) holds exactly for U+3400..4DB5, U+4E00..9FA5 and the twelve unified ideographs of the compatibility block (FA0E, FA0F, FA11, FA13, FA14, FA1F, FA21, FA23, FA24, FA27, FA28, FA29).", "quantifier": "all 32-bit runes", "why_tests_cant": "27496 table entries against 2^32 inputs", "anchors": ["hanja/hanja.go:IsHanja", "hanja/table.go:table"]}
{"id": "C23", "title": "Every hanja reading is a Hangul syllable", "statement": "For every rune c with IsHanja(c), converting the one-rune string c gives a single precomposed Hangul syllable, so IsHangul holds of it and IsHanja does not.", "quantifier": "all 32-bit runes", "why_tests_cant": "27496 table entries", "anchors": ["hanja/hanja.go:Convert", "hanja/table.go:table"]}
{"id": "C24", "title": "Convert works rune by rune and keeps length", "statement": "For every byte string h, the runes of Convert(h) are the runes of h with each hanja replaced by its one-syllable reading and every other rune kept in place; so the number of runes is unchanged, and for valid UTF-8 so is the number of bytes.", "quantifier": "all byte strings", "why_tests_cant": "unbounded strings", "anchors": ["hanja/hanja.go:Convert"]}
{"id": "C25", "title": "Convert is idempotent and leaves no hanja", "statement": "For every byte string h, Convert(h) is valid UTF-8, contains no rune for which IsHanja holds, and Convert(Convert(h)) = Convert(h).", "quantifier": "all byte strings", "why_tests_cant": "unbounded strings", "anchors": ["hanja/hanja.go:Convert"]}
{"id": "C26", "title": "Convert leaves hanja-free text untouched", "statement": "For every string h that contains no hanja, Convert(h) = h, byte for byte.", "quantifier": "all byte strings", "why_tests_cant": "unbounded strings; invalid UTF-8 is the corner", "anchors": ["hanja/hanja.go:Convert"]}
{"id": "C27", "title": "Convert distributes over concatenation", "statement": "For all strings a, b with a valid UTF-8, Convert(a + b) = Convert(a) + Convert(b); so text may be converted piecewise at any rune boundary.", "quantifier": "all pairs of byte strings", "why_tests_cant": "unbounded strings", "anchors": ["hanja/hanja.go:Convert"]}
{"id": "C28", "title": "CP949 round trip from Unicode", "statement": "For every string s of ASCII characters and characters in the CP949 repertoire, To(s) succeeds and From(To(s)) = s.", "quantifier": "all strings over the repertoire", "why_tests_cant": "unbounded strings, 17048+128 characters", "anchors": ["encoding/cp949/public.go:From", "encoding/cp949/public.go:To", "encoding/cp949/lookup_from.go", "encoding/cp949/lookup_to.go"]}
{"id": "C29", "title": "CP949 round trip from CP949", "statement": "For every well-formed CP949 byte string b (each unit an ASCII byte or an assigned two-byte code), From(b) succeeds and To(From(b)) = b.", "quantifier": "all well-formed byte strings", "why_tests_cant": "unbounded strings", "anchors": ["encoding/cp949/public.go:From", "encoding/cp949/public.go:To"]}
{"id": "C30", "title": "From fails exactly on a truncated final character", "statement": "For every byte string b, From(b) returns an error exactly when, reading b left to right with bytes below 0x80 taking one byte and others two, a lone byte >= 0x80 is left at the end; the error is ErrCP949UnexpectedStream and no data is returned.", "quantifier": "all byte strings", "why_tests_cant": "unbounded strings", "anchors": ["encoding/cp949/cp949.go:translateFromCp949.Translate", "encoding/cp949/err.go"]}
{"id": "C31", "title": "From output is valid UTF-8 with one character per unit", "statement": "For every byte string b on which From succeeds, the output is valid UTF-8; its runes are, in order, each ASCII byte itself, for each assigned two-byte code its Unicode character, and U+FFFD for each unassigned pair.", "quantifier": "all byte strings", "why_tests_cant": "unbounded strings, all 2^15 pairs", "anchors": ["encoding/cp949/cp949.go:translateFromCp949.Translate", "encoding/cp949/cp949.go:appendRune"]}
{"id": "C32", "title": "From distributes over concatenation", "statement": "For all byte strings a, b such that From(a) succeeds: From(a + b) succeeds exactly when From(b) does, and is then From(a) + From(b).", "quantifier": "all pairs of byte strings", "why_tests_cant": "unbounded strings", "anchors": ["encoding/cp949/cp949.go:translateFromCp949.Translate"]}
{"id": "C33", "title": "To distributes over concatenation", "statement": "For all byte strings a, b with a valid UTF-8, To(a + b) = To(a) + To(b).", "quantifier": "all pairs of byte strings", "why_tests_cant": "unbounded strings", "anchors": ["encoding/cp949/cp949.go:translateToCp949.Translate"]}
{"id": "C34", "title": "ASCII is transparent in both directions", "statement": "For every string of bytes below 0x80, From and To return it unchanged; and inside any other string each such character is carried over unchanged.", "quantifier": "all ASCII strings, all positions in other strings", "why_tests_cant": "unbounded strings", "anchors": ["encoding/cp949/cp949.go"]}
{"id": "C35", "title": "The two CP949 tables are mutually inverse and complete for Hangul", "statement": "For every pair of a code and a character, the From direction maps the code to the character exactly when the To direction maps the character to the code; every two-byte code has lead byte in 0x81..0xFD and trail byte in 41..5A, 61..7A or 81..FE; and every one of the 11172 syllables is in the repertoire.", "quantifier": "all 2^16 codes and all BMP characters", "why_tests_cant": "17048 entries in each of two independently sorted tables; a sortedness test does not show inverse", "anchors": ["encoding/cp949/lookup_from.go:fromTable", "encoding/cp949/lookup_to.go:toTable"]}
{"id": "C36", "title": "To never fails and always emits well-formed CP949", "statement": "For every byte string s (even invalid UTF-8), To(s) succeeds and its output is well-formed CP949: From accepts it and it contains no unassigned code.", "quantifier": "all byte strings", "why_tests_cant": "unbounded strings", "anchors": ["encoding/cp949/cp949.go:translateToCp949.Translate"]}
{"id": "C37", "title": "An unrepresentable character becomes exactly one '?'", "statement": "For every valid string s, To(s) contains exactly one '?' for each character outside the CP949 repertoire, so the number of characters is preserved.", "quantifier": "all strings", "why_tests_cant": "needs every character, including above U+FFE6", "anchors": ["encoding/cp949/cp949.go:translateToCp949.Translate"]}
{"id": "C38", "title": "To never substitutes a different character", "statement": "For every character c outside the CP949 repertoire, To(c) is not the encoding of some other Korean or symbol character; the only substitute is '?'.", "quantifier": "all Unicode characters", "why_tests_cant": "1.1 million characters; the failure needs one above U+FFFF", "anchors": ["encoding/cp949/cp949.go:translateToCp949.Translate"]}
{"id": "C39", "title": "Reader delivers exactly the decoded stream", "statement": "For every CP949 byte stream on which From succeeds, every way the underlying reader splits it into chunks, and every sequence of non-empty buffers passed to Read, the concatenation of what NewReader's Read returns is From(stream), after which Read returns 0 and the underlying reader's final error.", "quantifier": "all streams, all chunkings of the source, all sequences of buffer sizes", "why_tests_cant": "unbounded histories; chunk borders can fall inside a character", "anchors": ["encoding/cp949/public.go:cp949Reader.Read"]}
{"id": "C40", "title": "Reader output does not depend on chunking", "statement": "For every byte stream, truncated ones included, the bytes delivered and the error reported by Read do not depend on how the source splits the stream or on buffer sizes.", "quantifier": "all streams, chunkings and buffer sizes", "why_tests_cant": "unbounded histories", "anchors": ["encoding/cp949/public.go:cp949Reader.Read"]}
{"id": "C41", "title": "Reader never delivers anything but a decoded prefix", "statement": "For every byte stream, chunking and sequence of buffer sizes, what Read has returned so far is a prefix of From(p) for some prefix p of the stream on which From succeeds; nothing is ever duplicated, reordered or invented.", "quantifier": "all streams, chunkings, buffer sizes and stopping points", "why_tests_cant": "unbounded histories", "anchors": ["encoding/cp949/public.go:cp949Reader.Read"]}
{"id": "C42", "title": "Reader reports a truncated stream", "statement": "For every stream that ends in the middle of a character, reading it through NewReader ends with an error telling so (as From does) rather than a clean end of file.", "quantifier": "all truncated streams and chunkings", "why_tests_cant": "unbounded histories", "anchors": ["encoding/cp949/public.go:cp949Reader.Read", "encoding/cp949/err.go"]}
{"id": "C43", "title": "Reader honours the io.Reader contract", "statement": "Each Read(buf) returns 0 <= n <= len(buf), never touches bytes past n, never returns n = 0 without an error for a non-empty buf, and once it has returned an error it keeps returning 0 and the same error without calling the source again.", "quantifier": "all states reachable by any history of calls", "why_tests_cant": "unbounded histories", "anchors": ["encoding/cp949/public.go:cp949Reader.Read"]}
{"id": "C44", "title": "A zero-length Read or an empty source read loses nothing", "statement": "Calling Read with an empty buffer, or a source that once returns 0 bytes and no error, does not change what later calls deliver.", "quantifier": "all histories", "why_tests_cant": "unbounded histories", "anchors": ["encoding/cp949/public.go:cp949Reader.Read"]}
{"id": "C45", "title": "Read terminates and delivers as soon as it can", "statement": "For every source that keeps supplying data (finite or not), each Read returns after finitely many source reads, as soon as at least one complete character has been received.", "quantifier": "all sources, including infinite ones", "why_tests_cant": "non-termination cannot be observed by a test", "anchors": ["encoding/cp949/public.go:cp949Reader.Read"]}
{"id": "C46", "title": "Writer forwards exactly the encoded text", "statement": "For every sequence of Write calls whose arguments are each valid UTF-8, with a sink that accepts everything, the sink receives To of the concatenation, each call returns its argument's length and no error, and nothing is held back after any call.", "quantifier": "all sequences of writes", "why_tests_cant": "unbounded histories", "anchors": ["encoding/cp949/public.go:cp949Writer.Write"]}
{"id": "C47", "title": "Writer output does not depend on how the text is split", "statement": "For every text and every way of splitting it into Write calls, also inside a UTF-8 sequence, the sink receives the same bytes.", "quantifier": "all texts and splittings", "why_tests_cant": "unbounded histories; the border must fall inside a character", "anchors": ["encoding/cp949/public.go:cp949Writer.Write"]}
{"id": "C48", "title": "Writer reports sink errors and short writes", "statement": "For every history and every sink behaviour: if the sink fails a call, that Write returns 0 and the sink's error; if it returns no error, Write returns the full length. Each non-empty Write results in exactly one call to the sink.", "quantifier": "all histories and sink behaviours", "why_tests_cant": "unbounded histories", "anchors": ["encoding/cp949/public.go:cp949Writer.Write"]}
{"id": "C49", "title": "Transform respects the destination buffer", "statement": "For every dst, src and atEOF, the decoder's and encoder's Transform return nDst <= len(dst) and nSrc <= len(src), and report a short destination instead of claiming bytes they did not write.", "quantifier": "all buffers and sources", "why_tests_cant": "all pairs of sizes", "anchors": ["encoding/cp949/encoding.go:cp949Decoder.Transform", "encoding/cp949/encoding.go:cp949Encoder.Transform"]}
{"id": "C50", "title": "Transform converts the whole source when it fits", "statement": "For every dst, src with dst at least as long as the conversion of src, Transform succeeds exactly when From (resp. To) does, writes that conversion at the start of dst, leaves the rest of dst alone, and reports nDst = its length and nSrc = len(src). A dst of 3*len(src) bytes always suffices for decoding, 2*len(src) for encoding.", "quantifier": "all buffers and sources", "why_tests_cant": "unbounded sizes", "anchors": ["encoding/cp949/encoding.go"]}
{"id": "C51", "title": "Transform may be fed a source in pieces", "statement": "For every source split at any point, feeding the pieces to Transform with atEOF = false for all but the last gives the same result as one call, a character cut by the split being requested again rather than failing.", "quantifier": "all sources and splits", "why_tests_cant": "unbounded sizes; the border must fall inside a character", "anchors": ["encoding/cp949/encoding.go"]}
{"id": "C52", "title": "Output growth is bounded and buffers grow safely", "statement": "For every input, From's output is at most 3/2 times (for two-byte units; never more than 3/2 of the input length) and To's at most twice the input length; appending to the scratch buffer always preserves what is already there, whatever its length and capacity, and always terminates.", "quantifier": "all inputs, all buffer lengths and capacities", "why_tests_cant": "unbounded sizes", "anchors": ["encoding/cp949/cp949.go:ensureCap", "encoding/cp949/cp949.go:appendRune"]}
{"id": "C53", "title": "From and To leave all other memory alone", "statement": "For every state of memory and every slice passed to From or To: the call does not change the slice, any earlier result, or any other slice of the caller; the result is the conversion of the bytes that were in the slice at the call, and it shares no byte (not even of spare capacity) with any slice that existed before, so changing the one never changes the other.", "quantifier": "all memory states, all slices (overlapping or not), all growth policies of append", "why_tests_cant": "aliasing depends on capacities and offsets, unbounded", "anchors": ["encoding/cp949/public.go:From", "encoding/cp949/public.go:To", "encoding/cp949/cp949.go"]}
{"id": "C54", "title": "Reusing its buffers does not let a Reader corrupt data", "statement": "For every source (also one that uses the space behind the bytes it reports as scratch space, as io.Reader allows), every sequence of Read calls and everything the caller does to its own memory between them, the Reader with its reused scratch buffer returns exactly what it would with fresh copies everywhere; of the caller's memory, only bytes of the buffer passed to the call change.", "quantifier": "all sources, call sequences, memory states and buffer growth", "why_tests_cant": "unbounded histories; aliasing depends on capacities", "anchors": ["encoding/cp949/public.go:cp949Reader.Read", "encoding/cp949/cp949.go:ensureCap"]}
{"id": "C55", "title": "Reusing its buffers does not let a Writer corrupt data", "statement": "For every sink and every sequence of Write calls, the Writer with its reused scratch buffer hands the sink exactly what it would with fresh copies everywhere, never panics, and changes neither the data passed to it nor any other memory of the caller; the caller may reuse the data slice as soon as Write returns.", "quantifier": "all sinks, call sequences, memory states", "why_tests_cant": "unbounded histories; aliasing depends on capacities", "anchors": ["encoding/cp949/public.go:cp949Writer.Write", "encoding/cp949/cp949.go:ensureCap"]}
{"id": "C56", "title": "Transform works with overlapping buffers", "statement": "For every dst and src, also overlapping ones or one and the same slice, Transform writes to dst what it would if they were apart, and changes no memory outside dst.", "quantifier": "all pairs of slices and memory states", "why_tests_cant": "all overlaps of all sizes", "anchors": ["encoding/cp949/encoding.go"]}
{"id": "C57", "title": "Hangul lies where the standard puts it", "statement": "For every pair of bytes with a lead byte of at least 0x80, From decodes the pair to a Hangul syllable exactly when the pair lies in the KS X 1001 Hangul area or in the Unified Hangul Code extension area; To writes every syllable into one of these areas, and within each area the codes are in the order of the syllables.", "quantifier": "all byte pairs and all 11172 syllables", "why_tests_cant": "the claim is about the layout of two 17048-entry tables as a whole", "anchors": ["encoding/cp949/lookup_from.go", "encoding/cp949/lookup_to.go", "encoding/cp949/public.go"]}
{"id": "C58", "title": "Encoding keeps the dictionary order", "statement": "For all texts made of ASCII characters and syllables of KS X 1001, the CP949 strings compare byte by byte exactly as the texts compare character by character, so sorting before or after To gives the same order.", "quantifier": "all pairs of texts of any length", "why_tests_cant": "unbounded texts", "anchors": ["encoding/cp949/public.go:To", "encoding/cp949/lookup_to.go"]}
{"id": "C59", "title": "Letters and signs lie where the standard puts them", "statement": "For every run of KS X 1001 listed in the specification (fullwidth forms, Hangul letters, roman numerals, Greek, circled and parenthesised letters, kana, Cyrillic), the i-th code of the run is decoded to the i-th character and that character is encoded as this code.", "quantifier": "all positions of all listed runs", "why_tests_cant": "the claim is about the layout of the tables as a whole", "anchors": ["encoding/cp949/lookup_from.go", "encoding/cp949/lookup_to.go"]}
{"id": "C60", "title": "No hanja is left after decoding CP949 and converting", "statement": "For every CP949 string that From decodes, after hanja.Convert of the result no character of the hanja area of KS X 1001 is left.", "quantifier": "all CP949 strings of any length", "why_tests_cant": "4888 positions of the area in unbounded strings; two packages with separate tables", "anchors": ["encoding/cp949/public.go:From", "hanja/hanja.go:Convert", "hanja/table.go"]}
{"id": "C61", "title": "Hanja readings follow the order of KS X 1001", "statement": "KS X 1001 arranges its hanja by reading. For all hanja c, c' of that area: if To(c) precedes To(c'), then the reading Convert gives for c does not come after the reading for c'.", "quantifier": "all pairs of hanja of the area", "why_tests_cant": "millions of pairs; an error in one of 27496 table entries shows only against the standard", "anchors": ["hanja/table.go", "hanja/hanja.go:Convert", "encoding/cp949/lookup_to.go"]}
{"id": "C62", "title": "Converting hanja keeps a text in CP949 and keeps its length there", "statement": "For every text whose characters CP949 can represent, Convert gives a text CP949 can represent, which takes exactly as many CP949 bytes as before and survives To followed by From.", "quantifier": "all texts over the repertoire, of any length", "why_tests_cant": "unbounded texts over 17176 characters; two packages with separate tables", "anchors": ["hanja/hanja.go:Convert", "hanja/table.go", "encoding/cp949/public.go:To"]}
{"id": "C63", "title": "Converting hanja keeps EUC-KR text in EUC-KR", "statement": "For every text of EUC-KR (ASCII and characters whose two bytes are both in A1..FE), Convert gives a text of EUC-KR again: no reading needs the extension area that programs which know only EUC-KR cannot read. All bytes To writes for it are ASCII or at least A1.", "quantifier": "all texts over EUC-KR, of any length", "why_tests_cant": "unbounded texts; some readings in the table do lie outside EUC-KR", "anchors": ["hanja/hanja.go:Convert", "hanja/table.go", "encoding/cp949/lookup_to.go"]}
{"id": "C64", "title": "What a Writer wrote a Reader reads", "statement": "For every text whose characters CP949 can represent, written through NewWriter in any number of pieces at character boundaries, and every source that hands over the bytes the sink received in any chunks: any caller that reads through NewReader until an error, choosing its buffers as it likes, gets exactly the text.", "quantifier": "all texts, splittings, sinks, chunkings and callers", "why_tests_cant": "unbounded histories on both sides", "anchors": ["encoding/cp949/public.go:cp949Reader.Read", "encoding/cp949/public.go:cp949Writer.Write"]}
{"id": "C65", "title": "Copying a Reader into a Writer reproduces the stream", "statement": "For every CP949 stream made of assigned characters, copying NewReader(source) to NewWriter(sink) with buffers of any size, as io.Copy does, hands the sink the bytes of the stream.", "quantifier": "all streams, chunkings and buffer sizes", "why_tests_cant": "depends on where buffer borders fall in streams longer than the buffer (32 KiB for io.Copy)", "anchors": ["encoding/cp949/public.go:cp949Reader.Read", "encoding/cp949/public.go:cp949Writer.Write"]}
{"id": "C66", "title": "The x/text Bytes methods convert as From and To do", "statement": "NewCP949Encoding().NewDecoder().Bytes(b) returns what From(b) returns, and NewEncoder().Bytes(s) what To(s) returns, for every b and s, without panicking.", "quantifier": "all byte strings", "why_tests_cant": "unbounded strings; whether the buffer x/text offers is large enough depends on the content", "anchors": ["encoding/cp949/encoding.go:NewDecoder", "encoding/cp949/encoding.go:NewEncoder", "encoding/cp949/encoding.go:cp949Decoder.Transform", "encoding/cp949/encoding.go:cp949Encoder.Transform"]}
{"id": "C67", "title": "The x/text Reader delivers the decoded stream", "statement": "Reading through NewCP949Encoding().NewDecoder().Reader(source) delivers From of the stream and then the source's error, whatever chunks the source hands over and whatever buffers the caller reads with.", "quantifier": "all streams, chunkings and buffers", "why_tests_cant": "depends on where chunk borders and the 4096-byte buffers of x/text fall", "anchors": ["encoding/cp949/encoding.go:NewDecoder", "encoding/cp949/encoding.go:cp949Decoder.Transform"]}
{"id": "C68", "title": "The x/text Writer hands on the encoded text", "statement": "Writing a text in pieces through NewCP949Encoding().NewEncoder().Writer(sink) hands the sink To of the text, and each Write returns the length of its argument.", "quantifier": "all texts, splittings and sinks", "why_tests_cant": "depends on the sizes of the pieces relative to the 4096-byte buffer of x/text", "anchors": ["encoding/cp949/encoding.go:NewEncoder", "encoding/cp949/encoding.go:cp949Encoder.Transform"]}
{"id": "C69", "title": "From and To may be called from any number of goroutines", "statement": "However the single steps of any number of concurrent calls of From and To are interleaved with each other and with other activity of the program, and even if their arguments share memory: each call returns what it would return alone on the bytes its argument held when it was called, none panics, none waits for another, each returns after a number of its own steps bounded in terms of its argument, none changes memory other than its own new buffers, and no two touch the same memory while one writes it.", "quantifier": "all numbers of calls, arguments, memories, growth policies of append and interleavings", "why_tests_cant": "the number of interleavings is unbounded; the race detector sees only the schedules that happen", "anchors": ["encoding/cp949/public.go:From", "encoding/cp949/public.go:To", "encoding/cp949/cp949.go:Translate", "encoding/cp949/cp949.go:ensureCap"]}
{"id": "C70", "title": "A conversion takes linear time", "statement": "From and To on n bytes take at most 46n+37 steps (a step treats a character, allocates, or copies or stores one byte), although the output buffer starts empty and is copied whenever it grows, provided append makes a full buffer at least a quarter larger. For each character at most 15 of the 17048 table entries are looked at.", "quantifier": "all inputs of any length, all growth policies of append with that property, all codes", "why_tests_cant": "asymptotic cost over unbounded inputs; benchmarks see single sizes", "anchors": ["encoding/cp949/cp949.go:ensureCap", "encoding/cp949/cp949.go:appendRune", "encoding/cp949/cp949.go:Translate"]}
{"id": "C71", "title": "Composed and decomposed spellings of a word take the same postposition", "statement": "Unicode has two equivalent spellings of a syllable: one character (NFC) or two to three conjoining jamo (NFD, as in file names on macOS). For every word and every final syllable, AppendPostposition appends the same form to both spellings.", "quantifier": "all words, syllables and postpositions", "why_tests_cant": "399 open and 10773 closed syllables times unbounded prefixes; the existing tests use composed text only", "anchors": ["hangul.go:AppendPostposition", "hangul.go:LastConsonant", "hangul.go:Split"]}
{"id": "C72", "title": "Syllables sort as their jamo do", "statement": "For all syllables s, s': s precedes s' as a number exactly if the triple Split(s) precedes Split(s') in lexicographic order (no trailing consonant first); likewise the letters SplitCompat gives compare as the jamo of Split do. So sorting by code point is dictionary order.", "quantifier": "all pairs of syllables", "why_tests_cant": "125 million pairs", "anchors": ["hangul.go:Split", "hangul.go:SplitCompat", "jamo.go:CompatJamo"]}
{"id": "C73", "title": "A word that ends in a hanja takes the postposition of its reading", "statement": "For every word that ends in a hanja, AppendPostposition appends the form that the reading of the hanja takes; in particular after Convert.", "quantifier": "all words ending in one of 27496 hanja, all postpositions", "why_tests_cant": "unbounded words; two packages", "anchors": ["hangul.go:AppendPostposition", "hanja/hanja.go:Convert", "hanja/table.go"]}
{"id": "C74", "title": "The x/text String methods convert as From and To do", "statement": "NewCP949Encoding().NewDecoder().String(b) returns what From(b) returns, and NewEncoder().String(s) what To(s) returns, for every b and s, without panicking.", "quantifier": "all strings", "why_tests_cant": "x/text works in chunks of 128 bytes and grows its buffer only when asked; what happens depends on where characters fall in strings longer than that", "anchors": ["encoding/cp949/encoding.go:NewDecoder", "encoding/cp949/encoding.go:NewEncoder", "encoding/cp949/encoding.go:cp949Decoder.Transform", "encoding/cp949/encoding.go:cp949Encoder.Transform"]}
{"id": "C75", "title": "Constants and conversions agree with the Unicode names of the jamo", "statement": "Every letter and jamo constant has the code point whose Unicode name its comment states. CompatJamo, Lead, Medial and Tail give the character of the same name in the block they convert to, and 0 exactly if there is none. SplitMultiElement takes a compatibility consonant apart exactly as its name says (RIEUL-KIYEOK, SSANGKIYEOK).", "quantifier": "all runes and all constants", "why_tests_cant": "needs an authority other than the code's own tables: the names in the Unicode Character Database", "anchors": ["constant.go", "jamo.go:CompatJamo", "jamo.go:Lead", "jamo.go:Medial", "jamo.go:Tail", "jamo.go:SplitMultiElement"]}
{"id": "C76", "title": "After Unicode normalisation, Convert leaves no hanja of a decoded text", "statement": "If From(b) succeeds, Convert of the NFC form of the text replaces every character from the hanja area of KS X 1001 by one syllable and leaves every other character in its normal form; no hanja of the area is left. (Without normalisation 268 of them stay, C60.)", "quantifier": "all CP949 byte strings", "why_tests_cant": "unbounded texts; 4888 hanja of which 268 behave differently without normalisation", "anchors": ["encoding/cp949/public.go:From", "hanja/hanja.go:Convert", "hanja/hanja.go:IsHanja", "hanja/table.go"]}
{"id": "C77", "title": "A decoded text in Unicode normal form can be encoded again", "statement": "If From(b) succeeds, the NFC form of the text survives To followed by From unchanged. (Many libraries and operating systems normalise text in passing.)", "quantifier": "all CP949 byte strings", "why_tests_cant": "unbounded texts; depends on single entries among 17048", "anchors": ["encoding/cp949/public.go:From", "encoding/cp949/public.go:To", "encoding/cp949/lookup_to.go"]}
{"id": "C78", "title": "Read survives sources that break the io.Reader contract", "statement": "Whatever counts the source returns (negative, or larger than its buffer) and whatever it leaves in the buffer, Read does not panic, and what it delivers is decoded from bytes the source has handed over.", "quantifier": "all sources of any behaviour, all sequences of calls", "why_tests_cant": "the code says it guards against non-compliant readers; their behaviours cannot be enumerated", "anchors": ["encoding/cp949/public.go:cp949Reader.Read"]}
{"id": "C79", "title": "Input that is not valid UTF-8 is read byte by byte, with U+FFFD for each stray byte", "statement": "Every byte string reads in exactly one way as encoded characters and stray bytes (bytes at which no encoded character begins). To writes two question marks for each stray byte and Convert writes U+FFFD, and both treat every character as they treat it alone; LastConsonant, EndsWithConsonant and AppendPostposition choose as for the text with U+FFFD in place of the stray bytes, and AppendPostposition keeps the bytes of the word.", "quantifier": "all byte strings", "why_tests_cant": "invalid inputs cannot be enumerated; the damage must not spread to neighbouring characters", "anchors": ["encoding/cp949/cp949.go:translateToCp949.Translate", "hanja/hanja.go:Convert", "hangul.go:LastConsonant", "hangul.go:EndsWithConsonant", "hangul.go:AppendPostposition"]}
{"id": "C80", "title": "Reading a stream takes time proportional to its length", "statement": "There is a constant c such that for every stream of n bytes, however the source cuts it and whatever buffers the caller uses, reading it through NewReader hands the translator at most c*(n+1) bytes.", "quantifier": "all streams, all sources with finite data, all non-empty buffers", "why_tests_cant": "asymptotic claim over all streams and all chunkings; a benchmark shows one chunking", "anchors": ["encoding/cp949/public.go:cp949Reader.Read", "encoding/cp949/cp949.go:translateFromCp949.Translate"]}
{"id": "C81", "title": "Encoding and converting neither make up nor lose quotes, brackets, slashes or line ends", "statement": "For every byte string s, valid UTF-8 or not: the ASCII bytes of To(s) that are neither letters nor '?' are those of s, in the same order; the ASCII bytes of Convert(s) are those of s, in the same order. So escaping done before the conversion still holds after it.", "quantifier": "all byte strings", "why_tests_cant": "injection through a second byte that looks like ASCII needs one bad entry among 17048, or one invalid sequence among infinitely many", "anchors": ["encoding/cp949/public.go:To", "encoding/cp949/lookup_to.go", "hanja/hanja.go:Convert"]}
{"id": "C82", "title": "Decoding does not swallow quotes, brackets, slashes or line ends", "statement": "If From(b) succeeds, the ASCII bytes of b that are not letters appear in the text, in the same order.", "quantifier": "all CP949 byte strings, malformed ones included", "why_tests_cant": "a swallowed quote is a known way around filters; malformed inputs cannot be enumerated", "anchors": ["encoding/cp949/public.go:From", "encoding/cp949/cp949.go:translateFromCp949.Translate"]}
{"id": "C83", "title": "Damage in CP949 text does not spread past two ASCII bytes", "statement": "For all byte strings a and b, damaged or not, and all ASCII bytes x, y (a line end CR LF, say): From(a+x+y+b) succeeds exactly if From(b) does, and its text then ends in y followed by From(b); what stands before depends on a and x only. One ASCII byte is not enough.", "quantifier": "all byte strings, all pairs of ASCII bytes", "why_tests_cant": "damage before the two bytes cannot be enumerated", "anchors": ["encoding/cp949/public.go:From", "encoding/cp949/cp949.go:translateFromCp949.Translate"]}
{"id": "C84", "title": "A Reader holds memory bounded by the caller's buffers, not by the stream", "statement": "There is a constant c such that whatever the stream, however the source cuts it: after any calls of Read with non-empty buffers of at most L bytes, the reader's buffer of undecoded bytes has a capacity of at most c*(L+1).", "quantifier": "all streams, all sources, all sequences of calls", "why_tests_cant": "claim over streams of any length and all chunkings; a test shows one chunking", "anchors": ["encoding/cp949/public.go:cp949Reader.Read", "encoding/cp949/cp949.go:ensureCap"]}
{"id": "C85", "title": "Readers, writers and conversions can be used side by side", "statement": "In every program that uses any number of Readers and Writers together with From, To and the two Transform methods, in any order, on slices of its own that may overlap and that it may change and reslice at any time: each Reader and each Writer behaves as if it were alone and worked on copies, each other call returns what it returns for the contents of its arguments, none panics because of another, and no call changes memory the program can see apart from the visible part of the buffer passed to Read or Transform. In particular each Reader over a well-formed stream delivers that stream decoded.", "quantifier": "all programs, all numbers of readers and writers, all initial memories, growth policies of append, sources and sinks", "why_tests_cant": "the scratch buffers are reused and handed out between translator, reader and writer; sharing shows only in particular histories", "anchors": ["encoding/cp949/public.go", "encoding/cp949/cp949.go", "encoding/cp949/encoding.go"]}
{"id": "C86", "title": "Reading everything with io.ReadAll gives From of the stream, or an error where From gives one", "statement": "For every source that delivers the bytes D in whatever pieces and then ends: io.ReadAll(cp949.NewReader(src)) returns From(D) and no error if From(D) succeeds, and a non-nil error if From(D) fails. If the source ends with an error of its own, ReadAll returns that.", "quantifier": "all byte strings, all chunkings, all ways in which the result's memory may grow", "why_tests_cant": "unbounded streams and chunkings; the buffers of io.ReadAll depend on what has been read", "anchors": ["encoding/cp949/public.go:cp949Reader.Read", "encoding/cp949/encoding_test.go:15"]}
{"id": "C87", "title": "A bufio.Writer in front of a Writer changes nothing", "statement": "Whatever text is written to a bufio.Writer over NewWriter(sink), in whatever calls, after Flush the sink has received To of the text, as it does without the buffer.", "quantifier": "all texts, all ways to write them, all buffer sizes", "why_tests_cant": "depends on where the multiples of the buffer size fall in the text", "anchors": ["encoding/cp949/public.go:cp949Writer.Write"]}
{"id": "C88", "title": "io.Copy out of a Reader hands on the decoded stream", "statement": "For every source that delivers a complete CP949 stream D (From(D) succeeds) in whatever pieces, and every destination that takes what it is given: io.Copy(dst, cp949.NewReader(src)) returns the length of From(D) and the source's own error (none at the end of the stream), and dst has received exactly From(D).", "quantifier": "all complete streams, all chunkings, all destinations that take what they are given", "why_tests_cant": "unbounded streams and chunkings", "anchors": ["encoding/cp949/public.go:cp949Reader.Read"]}
{"id": "C89", "title": "io.Copy of a file into a Writer encodes the file", "statement": "For every file with a text in UTF-8: after io.Copy(cp949.NewWriter(sink), file) the sink has received To of the text.", "quantifier": "all texts, all sinks", "why_tests_cant": "shows only in texts longer than 32768 bytes", "anchors": ["encoding/cp949/public.go:cp949Writer.Write"]}
{"id": "C90", "title": "Goroutines may use different Readers and Writers, Transform, From and To at the same time", "statement": "In every program of any number of goroutines in which no Reader or Writer is used by two goroutines at once and nobody touches the arguments of running calls: whatever the order in which single memory accesses happen, every call of Read, Write, Transform, From and To that returns has returned what it returns when it runs alone (Transform also when others are using the same decoder or encoder, and when dst and src overlap), sources and sinks are used as they are then, no call panics because of another, no call waits for another (it ends after a number of its own steps that does not depend on what the others do), and there is no data race (what one call writes, no other call reads or writes).", "quantifier": "all interleavings of single steps, all numbers of readers, writers and calls, all sources and sinks", "why_tests_cant": "interleavings cannot be enumerated, and the scratch buffers are reused between calls; the race detector sees only the runs it is shown", "anchors": ["encoding/cp949/public.go:cp949Reader.Read", "encoding/cp949/public.go:cp949Writer.Write", "encoding/cp949/encoding.go:cp949Decoder.Transform", "encoding/cp949/encoding.go:cp949Encoder.Transform", "encoding/cp949/public.go:From", "encoding/cp949/public.go:To"]}
{"id": "C91", "title": "The x/text Encoder reports a character that CP949 lacks", "statement": "As golang.org/x/text documents of every encoding.Encoder (wording from memory): for a text with a character that CP949 lacks, the encoder's Transform returns an error and consumes the text up to, not including, that character; for other texts it returns the encoding and no error.", "quantifier": "all texts, all destinations", "why_tests_cant": "claim over all texts and positions of a character; the documented contract is that of another package", "anchors": ["encoding/cp949/encoding.go:cp949Encoder.Transform"]}
{"id": "C92", "title": "Wrapped by encoding.HTMLEscapeUnsupported or encoding.ReplaceUnsupported the encoder replaces characters that CP949 lacks", "statement": "For every text and a destination with room, the wrapped encoder gives the CP949 encoding with an HTML character reference, or the byte 1A, in the place of each character that CP949 lacks.", "quantifier": "all texts, all destinations with room", "why_tests_cant": "claim over all texts; depends on how two packages work together", "anchors": ["encoding/cp949/encoding.go:cp949Encoder.Transform", "encoding/cp949/encoding.go:NewEncoder"]}
{"id": "C93", "title": "The x/text Decoder replaces malformed bytes and does not refuse them", "statement": "As golang.org/x/text documents of every encoding.Decoder (wording from memory): for every source the decoder's Transform, with a destination that has room, returns no error, with U+FFFD for what cannot be decoded.", "quantifier": "all byte strings, all destinations with room", "why_tests_cant": "malformed inputs cannot be enumerated", "anchors": ["encoding/cp949/encoding.go:cp949Decoder.Transform"]}
{"id": "C94", "title": "The letters a text is spelt with determine the text", "statement": "For texts of syllables and other characters but no loose letters: if every syllable is replaced by the letters that SplitCompat returns for it (leaving out the 0 for a missing trailing consonant), two different texts never give the same letters; nor if the vowel and the trailing consonant are split further by SplitMultiElement. While a text is typed letter by letter, what has been typed agrees with the text searched for in all characters but the last.", "quantifier": "all pairs of texts of any length", "why_tests_cant": "claim over pairs of texts of every length; an ambiguity could hide in any sequence of letters", "anchors": ["hangul.go:SplitCompat", "jamo.go:SplitMultiElement"]}
{"id": "C95", "title": "SplitMultiElement and Stroke may be called from any number of goroutines", "statement": "Any number of goroutines may call SplitMultiElement and Stroke at the same time and use what was returned to them as they like: there is no data race, every call of Stroke returns the stroke count of its rune, and every element seen in a result is the one the letter has.", "quantifier": "all programs with any number of goroutines, all interleavings", "why_tests_cant": "races show only under some schedules; interleavings cannot be enumerated", "anchors": ["jamo.go:SplitMultiElement", "stroke.go:Stroke"]}
{"id": "C96", "title": "A bufio.Scanner over a Reader gives the lines of the text", "statement": "For every source that delivers the bytes D in whatever pieces and then ends: if From(D) succeeds and no line of it is as long as the scanner's limit, then calling Scan until it returns false on bufio.NewScanner(cp949.NewReader(src)) gives the lines of From(D), without their line ends LF or CR LF, and Err() is nil. If the source ends with an error of its own, the lines are the same and Err() is that error.", "quantifier": "all byte strings, all chunkings, all initial buffers and limits of the scanner", "why_tests_cant": "unbounded streams and chunkings; depends on where pieces and buffers end within lines and characters", "anchors": ["encoding/cp949/public.go:NewReader", "encoding/cp949/public.go:cp949Reader.Read"]}
{"id": "C97", "title": "A text can be converted line by line", "statement": "The lines of To(s), of Convert(s) and of From(s), where it succeeds, are the lines of s converted one by one (line ends are LF and CR LF).", "quantifier": "all byte strings", "why_tests_cant": "claim over all texts; one second byte that is a line end, among all pairs, breaks it", "anchors": ["encoding/cp949/public.go:From", "encoding/cp949/public.go:To", "hanja/hanja.go:Convert"]}
{"id": "C98", "title": "Encoded texts can be searched", "statement": "For texts t and p that CP949 can represent: bytes.HasPrefix, bytes.Contains and bytes.HasSuffix of To(t) and To(p) answer as strings.HasPrefix, strings.Contains and strings.HasSuffix of t and p.", "quantifier": "all pairs of texts over the characters of CP949", "why_tests_cant": "claim over pairs of texts; false matches need particular pairs of neighbouring characters", "anchors": ["encoding/cp949/public.go:To"]}
{"id": "C99", "title": "An encoded text can be cut to a field width", "statement": "For every text that CP949 can represent, To has one byte for each ASCII character and two for each other. Cut after any number of bytes it decodes to the characters that fit, or it ends in half a character: then From returns an error, and without the last byte it decodes to the characters that fit. (Fixed-width records.)", "quantifier": "all texts over the characters of CP949, all widths", "why_tests_cant": "claim over all texts and widths", "anchors": ["encoding/cp949/public.go:From", "encoding/cp949/public.go:To"]}
{"id": "C100", "title": "Programs that take a text apart at punctuation find the same parts in the encoded text", "statement": "For every program that goes through a text byte by byte and, though it may keep a state, treats letters, '?' and non-ASCII bytes all alike (readers of CSV, HTML, configuration files): in To(t) it finds the encodings of the parts that it finds in t, in the same order and with the same ends; in Convert(t) those parts converted. The parts that it finds in an encoded text all decode, to the parts that it finds in the decoded text.", "quantifier": "all such programs, all valid UTF-8 texts (for decoding: all texts over the characters of CP949)", "why_tests_cant": "claim over all programs and texts; one second byte that is punctuation breaks it", "anchors": ["encoding/cp949/public.go:From", "encoding/cp949/public.go:To", "hanja/hanja.go:Convert"]}
{"id": "C101", "title": "The case of ASCII letters can be changed byte by byte in an encoded text", "statement": "For every text t that CP949 can represent: changing the ASCII letters among the bytes of To(t) to lower or upper case gives To of t with its ASCII letters changed.", "quantifier": "all texts over the characters of CP949", "why_tests_cant": "claim over all texts; shows only for some of the 17048 characters", "anchors": ["encoding/cp949/public.go:To", "encoding/cp949/public.go:From"]}
{"id": "C102", "title": "A bufio.Reader over a Reader gives the characters of the text", "statement": "For every source that delivers CP949 for the text t in whatever pieces and then ends: calling ReadRune again and again on bufio.NewReader(cp949.NewReader(src)) gives the characters of t one after the other, each with the length of its encoding, and then io.EOF (or the source's own error). No character is cut, whatever the pieces and the size of the buffer.", "quantifier": "all byte strings that decode, all chunkings, all buffer sizes", "why_tests_cant": "unbounded streams and chunkings; depends on where pieces and buffers end within characters", "anchors": ["encoding/cp949/public.go:NewReader", "encoding/cp949/public.go:cp949Reader.Read"]}
{"id": "C103", "title": "Several files can be read as one with io.MultiReader", "statement": "For all files that are delivered in whatever pieces: a Reader over io.MultiReader(f1, f2, ...) delivers the texts of the files one after the other, and so does io.MultiReader over a Reader for each file; then comes io.EOF. A file that ends in another error ends the stream with that error.", "quantifier": "all lists of files, all chunkings, all buffers", "why_tests_cant": "unbounded lists of files and chunkings; shows only when a file ends inside a character", "anchors": ["encoding/cp949/public.go:NewReader", "encoding/cp949/public.go:cp949Reader.Read"]}
{"id": "C104", "title": "io.ReadFull cuts the decoded text into blocks", "statement": "For every source that delivers the bytes D in whatever pieces and then ends: if From(D) succeeds, calls of io.ReadFull on the Reader fill the buffers, of any sizes, one after the other with From(D). The buffer in which the text ends gets what is left and io.ErrUnexpectedEOF (or the source's own error), later ones nothing and io.EOF. Bytes that are not filled keep their contents.", "quantifier": "all byte strings that decode, all chunkings, all sequences of buffers, empty ones included", "why_tests_cant": "unbounded streams, chunkings and sequences of buffers", "anchors": ["encoding/cp949/public.go:NewReader", "encoding/cp949/public.go:cp949Reader.Read"]}
{"id": "C105", "title": "A stream can be decoded in sections", "statement": "If a CP949 stream D, on which From succeeds, is cut anywhere and each part is read through a Reader of its own (the first through io.LimitReader, say), the two Readers together deliver From(D).", "quantifier": "all byte strings that decode, all places to cut, all chunkings, all buffers", "why_tests_cant": "claim over all streams and places; shows only for cuts inside a character", "anchors": ["encoding/cp949/public.go:NewReader", "encoding/cp949/public.go:cp949Reader.Read"]}
{"id": "C106", "title": "A Writer and a Reader can be joined by an io.Pipe", "statement": "One goroutine writes pieces through a Writer to one end of io.Pipe() and closes it, another reads from the other end through a Reader until it gets an error. However they take turns, and whatever the sizes of pieces and buffers: they never block each other for good, both end, every Write succeeds, and what is read is what was written (if the pieces are texts that CP949 can represent), followed by the error the pipe was closed with. If the reading goroutine stops early and closes its end, the writing goroutine gets io.ErrClosedPipe (or has already ended).", "quantifier": "all pieces, all buffers chosen in whatever way, all interleavings", "why_tests_cant": "all interleavings of two goroutines; unbounded numbers of pieces", "anchors": ["encoding/cp949/public.go:NewReader", "encoding/cp949/public.go:cp949Reader.Read", "encoding/cp949/public.go:NewWriter", "encoding/cp949/public.go:cp949Writer.Write"]}
{"id": "C107", "title": "A Write that failed can be continued", "statement": "If the sink fails for a while (a time-out, no room), having taken some or none of the bytes, then a caller that goes on as io.Writer lets it, with what is left of its data after the count that Write returned, until Write succeeds, has written the encoded text exactly once.", "quantifier": "all data, all sinks that fail any number of times", "why_tests_cant": "any number of failures, each after any number of bytes", "anchors": ["encoding/cp949/public.go:cp949Writer.Write"]}
{"id": "C108", "title": "Reading goes on after a temporary error of the source", "statement": "If the source delivers D, then once an error (a time-out, say), and when it is asked again D', then the caller can go on reading after the error, and gets From(D + D') in all.", "quantifier": "all streams, all places of the error, all chunkings, all buffers", "why_tests_cant": "claim over all streams and places; shows only when a source recovers", "anchors": ["encoding/cp949/public.go:NewReader", "encoding/cp949/public.go:cp949Reader.Read"]}
{"id": "C109", "title": "A CP949 file can be entered in the middle", "statement": "Where a character of a CP949 string begins can be told from the bytes directly before the place: after an even number of bytes from 0x80 a character begins, after an odd number one is open. So From accepts a string exactly if an even number of bytes from 0x80 stand after its last ASCII byte; what stands before and after any ASCII byte can be decoded separately; the last character of an encoded text can be deleted by looking at its end. No fixed number of bytes is enough to look at.", "quantifier": "all byte strings, all places; all encoded texts", "why_tests_cant": "strings of any length; the bytes to look at are not bounded", "anchors": ["encoding/cp949/public.go:From", "encoding/cp949/cp949.go:translateFromCp949.Translate"]}
{"id": "C110", "title": "The deliveries of a Reader can be converted with hanja.Convert one by one", "statement": "A program that reads a CP949 stream through a Reader and passes what each Read has delivered through hanja.Convert gets the conversion of the whole text.", "quantifier": "all encoded texts, all chunkings, all buffers", "why_tests_cant": "claim over all streams and sizes of buffers; shows only where the end of a buffer falls inside a character", "anchors": ["encoding/cp949/public.go:cp949Reader.Read", "hanja/hanja.go:Convert"]}
{"id": "C111", "title": "A program can tell by trying whether bytes are CP949", "statement": "If From(b) reports no error, then b is CP949 text, not UTF-8 or something else; at least if To(From(b)) gives b back.", "quantifier": "all byte strings", "why_tests_cant": "claim over all byte strings", "anchors": ["encoding/cp949/public.go:From", "encoding/cp949/public.go:To"]}
{"id": "C112", "title": "Syllables can be looked up by their initial consonants", "statement": "SplitCompat(r) gives the initial consonant i exactly for the 588 syllables that begin with it. So a search by initials finds, among words of syllables, exactly those in whose places stand syllables of the letters typed; and in a sorted list the words with one initial stand together.", "quantifier": "all code points, all words and search strings", "why_tests_cant": "1114112 code points, words of any length", "anchors": ["hangul.go:SplitCompat", "hangul.go:Split", "jamo.go:CompatJamo"]}
{"id": "C113", "title": "Blanks can be taken off the ends of an encoded text", "statement": "For every set of ASCII bytes without letters and '?': taking such bytes off the beginning, the end or both ends of a text and then encoding gives the same as encoding and then taking them off. Off an encoded text, decoding and taking them off can be done in either order.", "quantifier": "all byte strings, all such sets; for decoding all texts over the characters of CP949", "why_tests_cant": "claim over all texts and sets; one second byte in the set breaks it", "anchors": ["encoding/cp949/public.go:To", "encoding/cp949/public.go:From"]}
{"id": "C114", "title": "Decoding brings up no invisible characters", "statement": "The characters beyond ASCII that From makes out of byte pairs can all be seen: no controls, blanks, zero-width or format characters, direction marks, combining marks, fillers, surrogates, private-use characters or noncharacters. Nor does To write such characters of a text up to U+FFFF: it puts question marks for them.", "quantifier": "all byte strings that decode, all characters up to U+FFFF", "why_tests_cant": "claim over all byte strings; one of 17048 pairs breaks it", "anchors": ["encoding/cp949/public.go:From", "encoding/cp949/public.go:To", "encoding/cp949/lookup_from.go:fromTable"]}
{"id": "C115", "title": "Converted words begin as Korean words do", "statement": "Convert writes hanja words as Korean spelling does: no word of the result begins with an initial ㄹ, or with ㄴ before ㅣ or a vowel that begins with it (the initial-sound law), unless a word of the text already did.", "quantifier": "all texts over the characters of CP949", "why_tests_cant": "claim over all texts and 4620 hanja; shows only for some hanja at the beginning of a word", "anchors": ["hanja/hanja.go:Convert", "hanja/table.go"]}
{"id": "C116", "title": "Lines of any length can be read with bufio.Reader.ReadString", "statement": "For every source that delivers the bytes D in whatever pieces and then ends: if From(D) succeeds, calling ReadString(delim) on bufio.NewReader(cp949.NewReader(src)) until it returns an error gives the text cut after each delim, whatever the lengths of the parts and the size of the buffer; the last part, which has no delim and may be empty, comes with io.EOF (or the source's own error, if that is not bufio.ErrBufferFull).", "quantifier": "all byte strings that decode, all chunkings, all delimiters, all sizes of the buffer", "why_tests_cant": "unbounded streams, lines and chunkings", "anchors": ["encoding/cp949/public.go:NewReader", "encoding/cp949/public.go:cp949Reader.Read"]}
{"id": "C117", "title": "Encoded texts can be edited by search and replace", "statement": "For texts t, old and new that CP949 can represent, old not empty: bytes.ReplaceAll(To(t), To(old), To(new)) is To(strings.ReplaceAll(t, old, new)).", "quantifier": "all texts over the characters of CP949", "why_tests_cant": "claim over all texts; shows only where the second byte of a character and the first of the next look like another character", "anchors": ["encoding/cp949/public.go:To"]}
{"id": "C118", "title": "A text can be encoded while it is read", "statement": "Reading through transform.NewReader(source, NewCP949Encoding().NewEncoder()) delivers To of the UTF-8 text and then the source's error, whatever chunks the source hands over and whatever buffers the caller reads with.", "quantifier": "all texts, chunkings and buffers", "why_tests_cant": "depends on where the borders of chunks of 4096 bytes fall in the text", "anchors": ["encoding/cp949/encoding.go:NewEncoder", "encoding/cp949/encoding.go:cp949Encoder.Transform"]}
{"id": "C119", "title": "A text can be decoded while it is written", "statement": "Writing CP949 bytes in pieces through transform.NewWriter(sink, NewCP949Encoding().NewDecoder()) hands the sink From of the whole, and each Write returns the length of its argument.", "quantifier": "all byte strings that decode, all splittings and sinks", "why_tests_cant": "depends on where the borders of pieces fall and on their sizes relative to the 4096-byte buffer of x/text", "anchors": ["encoding/cp949/encoding.go:NewDecoder", "encoding/cp949/encoding.go:cp949Decoder.Transform"]}
{"id": "C120", "title": "A program that reads line by line notices that a text is cut off", "statement": "For every source that delivers bytes D which end inside a character, in whatever pieces, and then ends: a bufio.Scanner over cp949.NewReader(src) gives the complete lines of D, and its Err() is not nil afterwards; bufio.Reader.ReadString over it gives them too, and ends with an error other than io.EOF.", "quantifier": "all byte strings that end inside a character, all chunkings", "why_tests_cant": "what is lost depends on how much of the stream is in the reader's buffers when it ends", "anchors": ["encoding/cp949/public.go:NewReader", "encoding/cp949/public.go:cp949Reader.Read"]}
{"id": "C121", "title": "Postpositions that begin with 으로 are chosen as 으로 is", "statement": "For every word and every further part x (부터, 서, 써, …): AppendPostposition(word, \"으로\"+x, \"로\"+x) = AppendPostposition(word, \"으로\", \"로\") + x. After 서울 both take 로: 서울로, 서울로부터.", "quantifier": "all words and all x (byte strings)", "why_tests_cant": "all words and all postpositions; shows only for words that end in ㄹ", "anchors": ["hangul.go:AppendPostposition"]}
{"id": "C122", "title": "A vowel typed after a closed syllable can take the last consonant with it", "statement": "Let (l, m, t) = SplitCompat(s) for a syllable s with last consonant t, and v a vowel letter. If Lead(t) is not 0, Join(l, m, 0) and Join(t, v, 0) are syllables. Otherwise SplitMultiElement(t) gives two letters a, b that together are t, and Join(l, m, a) and Join(b, v, 0) are syllables. SplitCompat gives just these letters back, so no letter is lost or changed: 닭 and ㅣ become 달기, 깎 and ㅏ become 까까.", "quantifier": "all closed syllables and all vowels", "why_tests_cant": "10773 closed syllables times 21 vowels, through four functions", "anchors": ["hangul.go:Join", "hangul.go:SplitCompat", "jamo.go:SplitMultiElement", "jamo.go:Lead"]}
{"id": "C123", "title": "What io.Copy out of a Reader reports is so", "statement": "For every source that delivers bytes D in whatever pieces and every destination, also one that takes only part of what it is given: io.Copy(dst, cp949.NewReader(src)) returns (n, err) such that the destination has been given just the first n bytes of From(D); err = nil means that this is the whole text and that the source has ended with io.EOF; otherwise err is the error of the source or of the destination (io.ErrShortWrite if that reports none).", "quantifier": "all byte strings D, all chunkings, all destinations", "why_tests_cant": "unbounded streams; faults of the destination at any point; what is lost of a cut stream depends on the chunks", "anchors": ["encoding/cp949/public.go:NewReader", "encoding/cp949/public.go:cp949Reader.Read"]}
