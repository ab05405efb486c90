-- Generated by tools/gen_tables.py; do not edit.
namespace Hanja

/-- hanja/table.go:9-264 -/
def rawTable0 : List (Nat × Nat) := [
  (0x4906, 0xaddc), (0x6d89, 0xc12d), (0x920c, 0xacb0), (0x3c93, 0xc218), (0x6116, 0xc2ec),
  (0x8599, 0xce58), (0x54a3, 0xad49), (0x7926, 0xad11), (0x9da9, 0xbaa9), (0x4830, 0xad8c),
  (0x6cb3, 0xd558), (0x9136, 0xd68c), (0x3bbd, 0xbc18), (0x6040, 0xce58), (0x84c3, 0xc218),
  (0x53cd, 0xbc18), (0x7850, 0xb3d9), (0x9cd3, 0xb975), (0x475a, 0xb2c8), (0x6bdd, 0xc0bc),
  (0x9060, 0xc6d0), (0x3ae7, 0xd3ec), (0x5f6a, 0xd45c), (0x83ed, 0xd0dc), (0x52f7, 0xc591),
  (0x777a, 0xd6c4), (0x9bfd, 0xc989), (0x4684, 0xb85d), (0x700b, 0xc2ec), (0x8f8a, 0xace4),
  (0x3f15, 0xb2f9), (0x5e94, 0xc751), (0x881b, 0xba78), (0x5725, 0xb85d), (0x76a4, 0xd30c),
  (0x45ae, 0xd5a5), (0x6f35, 0xc11c), (0x8eb4, 0xb791), (0x3e3f, 0xb3c5), (0x5dbe, 0xc740),
  (0x8745, 0xc7a0), (0x564f, 0xd761), (0x75ce, 0xd574), (0x9f55, 0xd758), (0x44d8, 0xace0),
  (0x6e5f, 0xd669), (0x8dde, 0xb825), (0x3d69, 0xc608), (0x5ce8, 0xc544), (0x866f, 0xaddc),
  (0x5579, 0xac70), (0x74f8, 0xbc31), (0x9e7f, 0xb85d), (0x8d08, 0xc99d), (0x4e0a, 0xc0c1),
  (0x728d, 0xac74), (0x378f, 0xce69), (0x661a, 0xc2e0), (0x8a9d, 0xc554), (0x4f9f, 0xcc9c),
  (0x7e2a, 0xd544), (0x432c, 0xc911), (0x67af, 0xace0), (0x963a, 0xc800), (0x5b3c, 0xb958),
  (0x7fbf, 0xc608), (0x40c1, 0xc544), (0x734c, 0xb9cc), (0x97cf, 0xad8c), (0x344e, 0xb1cc),
  (0x58d1, 0xd559), (0x8b5c, 0xbcf4), (0x4c5e, 0xb0b4), (0x70e1, 0xad11), (0x35e3, 0xc81c),
  (0x646e, 0xc624), (0x88f1, 0xd45c), (0x7c7e, 0xc778), (0x4180, 0xb9e4), (0x6b07, 0xc12d),
  (0x948e, 0xcc9c), (0x5990, 0xc885), (0x8317, 0xba85), (0x4419, 0xaca9), (0x71a0, 0xc2b5),
  (0x9b27, 0xb8cc), (0x5c29, 0xc655), (0x89b0, 0xcc98), (0x4ab2, 0xc62c), (0x7439, 0xae08),
  (0x393b, 0xb860), (0x62c2, 0xbd88), (0x8c49, 0xc2dc), (0x514b, 0xadf9), (0x7ad2, 0xae30),
  (0x3fd4, 0xb8b0), (0x695b, 0xace0), (0x92e2, 0xb82c), (0x57e4, 0xbe44), (0x816b, 0xc885),
  (0x426d, 0xb835), (0x6ff4, 0xc601), (0x997b, 0xc758), (0x5a7d, 0xac00), (0x6381, 0xc7c1),
  (0x8404, 0xb3c4), (0x570e, 0xc6d0), (0x7b91, 0xc0bd), (0x9c14, 0xd568), (0x4a9b, 0xbc88),
  (0x6f1e, 0xba71), (0x93a1, 0xc790), (0x3e28, 0xad6c), (0x62ab, 0xd53c), (0x872e, 0xc5ed),
  (0x5638, 0xbb34), (0x7abb, 0xcc3d), (0x9f3e, 0xd55c), (0x45c5, 0xc7a5), (0x6e48, 0xb9e4),
  (0x92cb, 0xc5f0), (0x3952, 0xcc44), (0x5dd5, 0xc5bc), (0x8658, 0xcc28), (0x5162, 0xae0d),
  (0x75e5, 0xd0c8), (0x9e68, 0xb958), (0x44ef, 0xb3c5), (0x6972, 0xc704), (0x8df5, 0xcc9c),
  (0x387c, 0xc608), (0x5cff, 0xc5b4), (0x6603, 0xce21), (0x8182, 0xb824), (0x508c, 0xb9c8),
  (0x7e13, 0xc804), (0x9992, 0xb9cc), (0x491d, 0xad81), (0x689c, 0xd611), (0x9623, 0xac1c),
  (0x3ba6, 0xc0c9), (0x612d, 0xae30), (0x80ac, 0xc6b0), (0x53b6, 0xc0ac), (0x793d, 0xc789),
  (0x98bc, 0xc218), (0x4847, 0xc6d4), (0x6bc6, 0xad6c), (0x914d, 0xbc30), (0x3ad0, 0xc694),
  (0x6057, 0xacfc), (0x83d6, 0xcc3d), (0x52e0, 0xb959), (0x7867, 0xc6a9), (0x9be6, 0xad6c),
  (0x4b71, 0xbcc4), (0x6af0, 0xd68c), (0x9077, 0xcc9c), (0x35fa, 0xbe44), (0x8300, 0xbd88),
  (0x4002, 0xc548), (0x6485, 0xada4), (0x9b10, 0xae30), (0x5812, 0xace4), (0x7c95, 0xbc15),
  (0x4197, 0xc694), (0x7022, 0xc720), (0x94a5, 0xc6d4), (0x3524, 0xc2ec), (0x59a7, 0xc644),
  (0x8832, 0xacac), (0x4d34, 0xcca9), (0x71b7, 0xc99d), (0x36b9, 0xbb18), (0x6544, 0xbb34),
  (0x89c7, 0xc810), (0x4ec9, 0xc7a5), (0x7d54, 0xbc31), (0x4256, 0xb839), (0x66d9, 0xc11c),
  (0x9564, 0xbc15), (0x5a66, 0xbd80), (0x7ee9, 0xc801), (0x43eb, 0xd734), (0x7276, 0xad8c),
  (0x96f9, 0xbc15), (0x3778, 0xbcc0), (0x5bfb, 0xc2ec), (0x8a86, 0xad11), (0x4f88, 0xce58),
  (0x750f, 0xd33d), (0x3a11, 0xc885), (0x6798, 0xc608), (0x8d1f, 0xbd80), (0x5221, 0xbbfc),
  (0x7fa8, 0xc120), (0x3caa, 0xb4f1), (0x6a31, 0xc575), (0x97b8, 0xd544), (0x54ba, 0xd6e4),
  (0x8241, 0xc870), (0x4743, 0xc811), (0x6cca, 0xbc15), (0x9a51, 0xb958), (0x5f53, 0xb2f9),
  (0x84da, 0xc218), (0x49dc, 0xb2f9), (0x7763, 0xb3c5), (0x3465, 0xc774), (0x9cea, 0xbcf5),
  (0x61ec, 0xad11), (0x8f73, 0xb85c), (0x4c75, 0xc639), (0x79fc, 0xc8fc), (0x3efe, 0xc639),
  (0x4d06, 0xbcf5), (0x6989, 0xac70), (0x960c, 0xbb38), (0x3893, 0xc7a5), (0x6516, 0xc601),
  (0x8199, 0xac15), (0x3420, 0xc728), (0x50a3, 0xd0dc), (0x7d26, 0xd30c), (0x99a9, 0xbd84),
  (0x4c30, 0xc720), (0x68b3, 0xc18c), (0x9536, 0xc1a1), (0x3fbd, 0xcd94), (0x6440, 0xc624),
  (0x80c3, 0xc704), (0x57cd, 0xd604), (0x7c50, 0xb4f1), (0x98d3, 0xad6c), (0x435a, 0xb791),
  (0x6fdd, 0xae30), (0x9460, 0xc0ad), (0x3ee7, 0xd0c0), (0x5b6a, 0xc0b0), (0x87ed, 0xcd08),
  (0x56f7, 0xade0), (0x737a, 0xb2ec), (0x4284, 0xacf5), (0x740b, 0xd76c), (0x8b8a, 0xbcc0),
  (0x3b15, 0xc591), (0x5a94, 0xba74), (0x8c1b, 0xccb4), (0x5325, 0xbcc0), (0x72a4, 0xd53c),
  (0x41ae, 0xce68), (0x6b35, 0xad00), (0x8ab4, 0xc885), (0x3a3f, 0xac70), (0x59be, 0xcca9),
  (0x8345, 0xb2f5)]

/-- hanja/table.go:265-520 -/
def rawTable1 : List (Nat × Nat) := [
  (0x524f, 0xcc3d), (0x71ce, 0xb8cc), (0x9b55, 0xae30), (0x40d8, 0xac31), (0x6a5f, 0xae30),
  (0x89de, 0xc0c1), (0x3969, 0xd0c0), (0x58e8, 0xb8b0), (0x826f, 0xb7c9), (0x5179, 0xc790),
  (0x70f8, 0xd68c), (0x9a7f, 0xc5ed), (0x8908, 0xc911), (0x4a0a, 0xc5f0), (0x768d, 0xc989),
  (0x621a, 0xcc99), (0x8e9d, 0xb780), (0x4b9f, 0xc218), (0x7a2a, 0xbcf5), (0x472c, 0xc218),
  (0x63af, 0xae0d), (0x923a, 0xc625), (0x5f3c, 0xd544), (0x7bbf, 0xc0bd), (0x44c1, 0xb4f1),
  (0x774c, 0xb9cc), (0x93cf, 0xc608), (0x5cd1, 0xc804), (0x8f5c, 0xc774), (0x485e, 0xad6d),
  (0x74e1, 0xc9d1), (0x606e, 0xc804), (0x8cf1, 0xc6b4), (0x49f3, 0xc790), (0x787e, 0xcd94),
  (0x4580, 0xd6a8), (0x6f07, 0xc0ac), (0x908e, 0xc720), (0x5d90, 0xb96d), (0x8717, 0xc640),
  (0x4019, 0xccb4), (0x75a0, 0xb824), (0x36a2, 0xb178), (0x9f27, 0xd0c0), (0x5829, 0xae0d),
  (0x8db0, 0xc774), (0x4eb2, 0xce5c), (0x7039, 0xc57d), (0x3d3b, 0xc8fc), (0x66c2, 0xd669),
  (0x8849, 0xac1d), (0x554b, 0xad50), (0x7ed2, 0xc735), (0x3bd4, 0xcde8), (0x6d5b, 0xd568),
  (0x96e2, 0xb9ac), (0x53e4, 0xace0), (0x856b, 0xb3d9), (0x466d, 0xac74), (0x6bf4, 0xbe44),
  (0x34f6, 0xacb0), (0x9d7b, 0xcd94), (0x5e7d, 0xc720), (0x6781, 0xac81), (0x8004, 0xbaa8),
  (0x368b, 0xc870), (0x530e, 0xc555), (0x7f91, 0xc720), (0x9814, 0xc801), (0x4e9b, 0xc0ac),
  (0x6b1e, 0xb839), (0x97a1, 0xb78d), (0x3a28, 0xcd94), (0x66ab, 0xc7a0), (0x832e, 0xcd08),
  (0x5238, 0xad8c), (0x7ebb, 0xc800), (0x9b3e, 0xae30), (0x41c5, 0xbc8c), (0x6a48, 0xc694),
  (0x96cb, 0xc900), (0x3d52, 0xbe44), (0x59d5, 0xc790), (0x8258, 0xc18c), (0x5562, 0xb7c9),
  (0x71e5, 0xc870), (0x9a68, 0xd734), (0x40ef, 0xb825), (0x6d72, 0xbd09), (0x89f5, 0xad49),
  (0x3c7c, 0xd574), (0x58ff, 0xc900), (0x6203, 0xb2f9), (0x8582, 0xaca9), (0x350d, 0xcd2c),
  (0x548c, 0xd654), (0x7a13, 0xc791), (0x9d92, 0xce59), (0x4d1d, 0xcd5c), (0x6c9c, 0xbc18),
  (0x9223, 0xac1c), (0x3fa6, 0xbc30), (0x652d, 0xb77c), (0x84ac, 0xc6d0), (0x3437, 0xb9c8),
  (0x57b6, 0xc131), (0x7d3d, 0xd0c0), (0x9cbc, 0xbd84), (0x4c47, 0xc120), (0x6fc6, 0xbd84),
  (0x954d, 0xc5bc), (0x3ed0, 0xc900), (0x6457, 0xc218), (0x87d6, 0xc0ac), (0x3761, 0xcd5c),
  (0x56e0, 0xc778), (0x7c67, 0xac70), (0x4f71, 0xbc95), (0x6ef0, 0xacbd), (0x9477, 0xc12d),
  (0x8700, 0xcd09), (0x4402, 0xb85d), (0x6085, 0xc5f4), (0x9f10, 0xb0b4), (0x5c12, 0xc774),
  (0x7895, 0xae30), (0x4597, 0xc554), (0x7422, 0xd0c1), (0x90a5, 0xc2ec), (0x5da7, 0xc5ed),
  (0x8c32, 0xd73c), (0x4934, 0xd568), (0x75b7, 0xc800), (0x6144, 0xb960), (0x8dc7, 0xc608),
  (0x4ac9, 0xbaa8), (0x7954, 0xbd80), (0x4656, 0xbd95), (0x62d9, 0xc878), (0x9164, 0xace0),
  (0x5e66, 0xba71), (0x7ae9, 0xc758), (0x47eb, 0xc7c1), (0x7676, 0xbc1c), (0x92f9, 0xcc3d),
  (0x5ffb, 0xd754), (0x8e86, 0xac70), (0x4b88, 0xce58), (0x710f, 0xae30), (0x3e11, 0xcc2c),
  (0x6398, 0xad74), (0x891f, 0xb2f5), (0x5621, 0xb2f9), (0x7ba8, 0xd0c1), (0x38aa, 0xc624),
  (0x6e31, 0xd64d), (0x93b8, 0xc804), (0x50ba, 0xc81c), (0x8641, 0xae30), (0x4343, 0xc694),
  (0x68ca, 0xae30), (0x35cc, 0xc9c8), (0x9e51, 0xc21c), (0x5b53, 0xad90), (0x80da, 0xbc30),
  (0x7363, 0xc218), (0x98ea, 0xc784), (0x65ec, 0xc21c), (0x8b73, 0xb204), (0x4875, 0xc218),
  (0x7dfc, 0xc628), (0x3afe, 0xc0c1), (0x4106, 0xd65c), (0x6589, 0xc81c), (0x9a0c, 0xc885),
  (0x3493, 0xb2ec), (0x6916, 0xbd95), (0x8d99, 0xc870), (0x3820, 0xb824), (0x5ca3, 0xad6c),
  (0x7126, 0xcd08), (0x95a9, 0xbbfc), (0x4030, 0xace1), (0x64b3, 0xd760), (0x9936, 0xace8),
  (0x6840, 0xac78), (0x8cc3, 0xc784), (0x5bcd, 0xb155), (0x7050, 0xd615), (0x94d3, 0xb9dd),
  (0x4f5a, 0xc77c), (0x63dd, 0xc7a0), (0x9860, 0xd45c), (0x576a, 0xd3c9), (0x8bed, 0xc5b4),
  (0x5af7, 0xd0c0), (0x7f7a, 0xc870), (0x93fd, 0xc218), (0x4e84, 0xc758), (0x780b, 0xc9c0),
  (0x878a, 0xb834), (0x3715, 0xb828), (0x5694, 0xccb4), (0x801b, 0xce58), (0x5f25, 0xbbf8),
  (0x7ea4, 0xc12c), (0x4dae, 0xc5c4), (0x6735, 0xd0c0), (0x86b4, 0xc720), (0x363f, 0xb148),
  (0x55be, 0xace1), (0x8f45, 0xc6d0), (0x5e4f, 0xac00), (0x7dce, 0xc5ed), (0x9755, 0xc9c4),
  (0x4cd8, 0xc544), (0x665f, 0xc131), (0x85de, 0xc57d), (0x3569, 0xbc29), (0x54e8, 0xcd08),
  (0x8e6f, 0xbc88), (0x5d79, 0xac15), (0x7cf8, 0xba71), (0x967f, 0xd611), (0x8508, 0xd45c),
  (0x460a, 0xba78), (0x7a8d, 0xaddc), (0x3f8f, 0xc560), (0x6e1a, 0xc800), (0x829d, 0xc9c0),
  (0x479f, 0xbc31), (0x762a, 0xbcc4), (0x4b2c, 0xc559), (0x6faf, 0xcc2c), (0x9e3a, 0xd734),
  (0x533c, 0xc554), (0x77bf, 0xad6c), (0x48c1, 0xc6b0), (0x7b4c, 0xc804), (0x3c4e, 0xace4),
  (0x50d1, 0xad50), (0x835c, 0xd544), (0x445e, 0xc21c), (0x78e1, 0xac10), (0x3de3, 0xc131),
  (0x6c6e, 0xade0), (0x80f1, 0xad11), (0x45f3, 0xb4f1), (0x747e, 0xadfc), (0x4980, 0xc6b0),
  (0x6307, 0xc9c0), (0x9c8e, 0xd6c4), (0x5190, 0xbaa8), (0x8b17, 0xbc29), (0x4c19, 0xc758),
  (0x79a0, 0xc0ac)]

/-- hanja/table.go:521-776 -/
def rawTable2 : List (Nat × Nat) := [
  (0x3aa2, 0xc18c), (0x9327, 0xad00), (0x5429, 0xbd84), (0x81b0, 0xbc88), (0x42b2, 0xc0b0),
  (0x7c39, 0xb2f9), (0x6ac2, 0xb3c4), (0x8449, 0xc5fd), (0x594b, 0xac15), (0x72d2, 0xbe44),
  (0x37d4, 0xd568), (0x615b, 0xcd5c), (0x9ae2, 0xccb4), (0x5fe4, 0xc624), (0x896b, 0xc11d),
  (0x4a6d, 0xae30), (0x67f4, 0xc2dc), (0x38f6, 0xb2e8), (0x917b, 0xcde8), (0x527d, 0xd45c),
  (0x6b81, 0xbab0), (0x8c04, 0xcca8), (0x3a8b, 0xd55c), (0x5f0e, 0xc0bc), (0x7391, 0xae30),
  (0x9414, 0xc2ec), (0x429b, 0xc0b4), (0x671e, 0xae30), (0x9ba1, 0xc870), (0x3628, 0xad34),
  (0x6aab, 0xcc30), (0x8f2e, 0xc720), (0x5e38, 0xc0c1), (0x72bb, 0xd328), (0x973e, 0xb9e4),
  (0x6648, 0xad50), (0x9acb, 0xad00), (0x55d5, 0xc695), (0x8e58, 0xb8cc), (0x5962, 0xc0ac),
  (0x7de5, 0xbcf4), (0x9668, 0xc6b4), (0x4cef, 0xc911), (0x6172, 0xb9cc), (0x85f5, 0xbcf4),
  (0x54ff, 0xac00), (0x6e03, 0xc57d), (0x8982, 0xbd09), (0x390d, 0xad50), (0x588c, 0xcc99),
  (0x7613, 0xd0c4), (0x9192, 0xc131), (0x411d, 0xcc3d), (0x609c, 0xc815), (0x9e23, 0xba85),
  (0x692d, 0xd0c0), (0x88ac, 0xc721), (0x3837, 0xac11), (0x5bb6, 0xac00), (0x713d, 0xba85),
  (0x90bc, 0xad11), (0x4047, 0xbc00), (0x63c6, 0xaddc), (0x994d, 0xc120), (0x6857, 0xd0c0),
  (0x8bd6, 0xad18), (0x3b61, 0xc2e0), (0x5ae0, 0xb9ac), (0x7067, 0xc5fc), (0x93e6, 0xcd1d),
  (0x4371, 0xc11c), (0x62f0, 0xb2d8), (0x9877, 0xacbd), (0x3dfa, 0xc5fc), (0x8b00, 0xbaa8),
  (0x4802, 0xcd08), (0x6c85, 0xc6d0), (0x9310, 0xcd94), (0x5012, 0xb3c4), (0x7495, 0xc2ec),
  (0x4997, 0xd601), (0x7822, 0xb77c), (0x9ca5, 0xc2dc), (0x3d24, 0xc8fc), (0x51a7, 0xb9bc),
  (0x8032, 0xd68c), (0x4534, 0xcd5c), (0x79b7, 0xb958), (0x3eb9, 0xbcc0), (0x6d44, 0xc815),
  (0x81c7, 0xc804), (0x46c9, 0xba74), (0x7554, 0xbc18), (0x4a56, 0xc0ac), (0x6ed9, 0xd68c),
  (0x9d64, 0xac01), (0x5266, 0xc5c4), (0x76e9, 0xc8fc), (0x4beb, 0xd638), (0x7a76, 0xad6c),
  (0x9ef9, 0xce58), (0x3f78, 0xc2ec), (0x53fb, 0xb825), (0x8286, 0xcc28), (0x4788, 0xadc0),
  (0x7d0f, 0xb450), (0x6f98, 0xc0b0), (0x851f, 0xc8fc), (0x5a21, 0xc9c0), (0x77a8, 0xbc15),
  (0x34aa, 0xc11d), (0x6231, 0xd76c), (0x5cba, 0xb839), (0x8a41, 0xace0), (0x4f43, 0xc804),
  (0x64ca, 0xaca9), (0x39cc, 0xbaa8), (0x9251, 0xbc15), (0x5753, 0xd615), (0x8cda, 0xb8b0),
  (0x41dc, 0xac80), (0x7f63, 0xad18), (0x3c65, 0xb989), (0x94ea, 0xd611), (0x69ec, 0xd654),
  (0x8773, 0xb3c5), (0x4475, 0xbaa9), (0x71fc, 0xc2e0), (0x36fe, 0xd568), (0x4506, 0xb9ac),
  (0x6189, 0xd33d), (0x9e0c, 0xd655), (0x6d16, 0xc624), (0x8999, 0xb77c), (0x3c20, 0xd56d),
  (0x58a3, 0xbcf5), (0x7526, 0xc18c), (0x91a9, 0xc870), (0x4430, 0xc218), (0x60b3, 0xb355),
  (0x9d36, 0xc54c), (0x37bd, 0xc6d4), (0x6c40, 0xc815), (0x88c3, 0xb871), (0x5fcd, 0xc778),
  (0x7450, 0xc804), (0x90d3, 0xc6b4), (0x4b5a, 0xb2f9), (0x67dd, 0xd0c1), (0x9c60, 0xd68c),
  (0x36e7, 0xb9d8), (0x536a, 0xc808), (0x8fed, 0xc9c8), (0x5ef7, 0xc815), (0x7b7a, 0xad11),
  (0x97fd, 0xc554), (0x4a84, 0xd669), (0x7c0b, 0xada4), (0x838a, 0xc7a5), (0x5294, 0xac80),
  (0x841b, 0xad6c), (0x5b25, 0xc870), (0x7aa4, 0xad00), (0x49ae, 0xcd98), (0x6335, 0xb871),
  (0x82b4, 0xd640), (0x51be, 0xd611), (0x8b45, 0xc0bd), (0x5a4f, 0xbc18), (0x79ce, 0xbd84),
  (0x9355, 0xad70), (0x48d8, 0xb2f9), (0x625f, 0xc2e0), (0x81de, 0xad6c), (0x50e8, 0xbd84),
  (0x8a6f, 0xd68c), (0x5979, 0xc800), (0x78f8, 0xc815), (0x927f, 0xd611), (0x8108, 0xb9e5),
  (0x420a, 0xb989), (0x7e8d, 0xb958), (0x3b8f, 0xb0b4), (0x6a1a, 0xb85d), (0x869d, 0xc790),
  (0x439f, 0xc774), (0x722a, 0xc870), (0x4f2c, 0xd0dd), (0x6baf, 0xbe48), (0x9a3a, 0xce58),
  (0x573c, 0xb148), (0x73bf, 0xc18c), (0x4cc1, 0xbc1c), (0x7f4c, 0xc575), (0x9bcf, 0xb9ac),
  (0x384e, 0xc0bc), (0x54d1, 0xc544), (0x875c, 0xbd80), (0x405e, 0xc131), (0x7ce1, 0xac15),
  (0x39e3, 0xc8fc), (0x686e, 0xbc30), (0x84f1, 0xd3c9), (0x41f3, 0xc804), (0x707e, 0xc7ac),
  (0x4d80, 0xb2f5), (0x6707, 0xbe44), (0x988e, 0xacbd), (0x5590, 0xc6b1), (0x8f17, 0xc608),
  (0x4819, 0xbc29), (0x7da0, 0xb85d), (0x3ea2, 0xd655), (0x9727, 0xbb34), (0x5029, 0xcc9c),
  (0x85b0, 0xd6c8), (0x46b2, 0xc0b0), (0x7839, 0xc560), (0x353b, 0xbe44), (0x6ec2, 0xbc29),
  (0x8049, 0xc648), (0x5d4b, 0xbbf8), (0x76d2, 0xd569), (0x655b, 0xb834), (0x9ee2, 0xcd9c),
  (0x5be4, 0xc624), (0x8d6b, 0xd601), (0x4e6d, 0xb3cc), (0x63f4, 0xc6d0), (0x3cf6, 0xc720),
  (0x957b, 0xc808), (0x567d, 0xbe44), (0x6f81, 0xc0bd), (0x8804, 0xae08), (0x3e8b, 0xc639),
  (0x5b0e, 0xbc18), (0x7791, 0xba85), (0x9014, 0xb3c4), (0x469b, 0xace1), (0x631e, 0xb2ec),
  (0x9fa1, 0xcde8), (0x6eab, 0xc628), (0x8b2e, 0xcc45), (0x5a38, 0xae30), (0x76bb, 0xc0ac),
  (0x933e, 0xcc38), (0x49c5, 0xc774), (0x6248, 0xd638), (0x9ecb, 0xad11), (0x3552, 0xc758),
  (0x51d5, 0xba85), (0x8a58, 0xad74), (0x5d62, 0xcc3d), (0x79e5, 0xc810), (0x9268, 0xb2c8),
  (0x48ef, 0xcd94)]

/-- hanja/table.go:777-1032 -/
def rawTable3 : List (Nat × Nat) := [
  (0x6572, 0xace0), (0x81f5, 0xaca9), (0x347c, 0xb7b5), (0x50ff, 0xc0ac), (0x6a03, 0xb791),
  (0x8d82, 0xc9c4), (0x3d0d, 0xc2b9), (0x5c8c, 0xae09), (0x7213, 0xc12c), (0x9592, 0xd55c),
  (0x451d, 0xc790), (0x649c, 0xc99d), (0x9a23, 0xc885), (0x37a6, 0xada4), (0x6d2d, 0xad11),
  (0x8cac, 0xcc45), (0x3c37, 0xc790), (0x5fb6, 0xbcc4), (0x753d, 0xacac), (0x94bc, 0xbaa9),
  (0x4447, 0xc9c8), (0x67c6, 0xb78d), (0x9d4d, 0xd658), (0x36d0, 0xc218), (0x6c57, 0xd55c),
  (0x8fd6, 0xccb4), (0x3f61, 0xbe44), (0x5ee0, 0xcc3d), (0x7467, 0xc9c4), (0x97e6, 0xc704),
  (0x4771, 0xd611), (0x66f0, 0xc648), (0x9c77, 0xc545), (0x39fa, 0xb2f5), (0x8f00, 0xc774),
  (0x4c02, 0xcc44), (0x6885, 0xb9e4), (0x9710, 0xd64d), (0x5412, 0xd0c0), (0x7095, 0xd56d),
  (0x4d97, 0xac00), (0x7c22, 0xbbfc), (0x98a5, 0xc720), (0x3924, 0xc608), (0x55a7, 0xd6e4),
  (0x8432, 0xd6e4), (0x4134, 0xc6d4), (0x7db7, 0xcd5c), (0x3ab9, 0xb8e8), (0x6944, 0xd3b8),
  (0x85c7, 0xc11c), (0x42c9, 0xd608), (0x7154, 0xc810), (0x4e56, 0xad34), (0x6ad9, 0xc6b0),
  (0x9964, 0xc815), (0x5666, 0xd670), (0x72e9, 0xc218), (0x4feb, 0xb798), (0x7e76, 0xc5b5),
  (0x9af9, 0xd734), (0x3b78, 0xb3c4), (0x57fb, 0xc900), (0x8686, 0xd30c), (0x4388, 0xc608),
  (0x790f, 0xae09), (0x3611, 0xb840), (0x6b98, 0xc794), (0x811f, 0xb82c), (0x5e21, 0xbcd1),
  (0x73a8, 0xac01), (0x6631, 0xc6b1), (0x9bb8, 0xba74), (0x58ba, 0xc624), (0x8e41, 0xd3b8),
  (0x4b43, 0xc784), (0x60ca, 0xb7c9), (0x3dcc, 0xbd80), (0x9651, 0xc774), (0x5353, 0xd0c1),
  (0x88da, 0xc81c), (0x45dc, 0xb958), (0x7b63, 0xb9ac), (0x3865, 0xc740), (0x90ea, 0xcc98),
  (0x6dec, 0xc26c), (0x8373, 0xb450), (0x4075, 0xd658), (0x75fc, 0xace0), (0x3483, 0xc774),
  (0x5906, 0xbd09), (0x7d89, 0xc218), (0x820c, 0xc124), (0x7116, 0xbbfc), (0x9599, 0xb1e8),
  (0x44a3, 0xc5fc), (0x6926, 0xad8c), (0x8da9, 0xce59), (0x5830, 0xc5b8), (0x7cb3, 0xac31),
  (0x8136, 0xb77c), (0x7040, 0xc0c1), (0x94c3, 0xb839), (0x3f4a, 0xc12d), (0x43cd, 0xc6d0),
  (0x6850, 0xb3d9), (0x8cd3, 0xbe48), (0x575a, 0xacac), (0x7bdd, 0xad6c), (0x8060, 0xbcd1),
  (0x4f6a, 0xd68c), (0x93ed, 0xc2e4), (0x3e74, 0xac31), (0x42f7, 0xbb34), (0x677a, 0xc2ec),
  (0x8bfd, 0xbe44), (0x3705, 0xcd95), (0x5684, 0xd68d), (0x600b, 0xbbfc), (0x9f8a, 0xcc29),
  (0x4e94, 0xc624), (0x981b, 0xb8b0), (0x3d9e, 0xb0ad), (0x4725, 0xb2e8), (0x66a4, 0xd638),
  (0x362f, 0xc7a5), (0x55ae, 0xb2e8), (0x7f35, 0xcc2c), (0x9eb4, 0xad6d), (0x9745, 0xbe44),
  (0x3cc8, 0xd328), (0x464f, 0xbc15), (0x65ce, 0xb2c8), (0x8f55, 0xac08), (0x3559, 0xc900),
  (0x54d8, 0xd589), (0x7e5f, 0xcc9c), (0x9dde, 0xc0c1), (0x4ce8, 0xd669), (0x966f, 0xb95c),
  (0x3bf2, 0xae08), (0x4579, 0xc7a1), (0x64f8, 0xb835), (0x8e7f, 0xcc2c), (0x9d08, 0xc548),
  (0x5e0a, 0xd30c), (0x628d, 0xc2b9), (0x761a, 0xad90), (0x9a9d, 0xb958), (0x3b1c, 0xc9c4),
  (0x5f9f, 0xc8fc), (0x6e2a, 0xc720), (0x532c, 0xc720), (0x77af, 0xac04), (0x38b1, 0xba70),
  (0x863a, 0xb9ac), (0x4b3c, 0xc5f0), (0x6fbf, 0xae08), (0x50c1, 0xc124), (0x634c, 0xd314),
  (0x87cf, 0xc18c), (0x48d1, 0xc804), (0x9b5c, 0xc778), (0x5c5e, 0xc18d), (0x60e1, 0xc545),
  (0x746e, 0xb960), (0x98f1, 0xc190), (0x3970, 0xc18c), (0x5df3, 0xc0ac), (0x6c7e, 0xbd84),
  (0x5180, 0xae30), (0x7b07, 0xc0b0), (0x3c09, 0xc9c4), (0x848e, 0xd30c), (0x4990, 0xc815),
  (0x9317, 0xcd94), (0x5419, 0xd654), (0x61a0, 0xad90), (0x8b27, 0xb9ac), (0x4c29, 0xcc28),
  (0x99b0, 0xc801), (0x5ab2, 0xbe44), (0x6439, 0xaca9), (0x72c2, 0xad11), (0x37c4, 0xc0c1),
  (0x9c49, 0xbcc4), (0x414b, 0xb9cc), (0x6ad2, 0xcc30), (0x795b, 0xac70), (0x3a5d, 0xd638),
  (0x82e2, 0xc774), (0x47e4, 0xbcc4), (0x916b, 0xcca0), (0x526d, 0xc625), (0x7ff4, 0xb828),
  (0x897b, 0xbc18), (0x4a7d, 0xc6b0), (0x7381, 0xd5d8), (0x9404, 0xd6a1), (0x470e, 0xb85c),
  (0x6b91, 0xae0d), (0x8c14, 0xc545), (0x3618, 0xbe44), (0x5a9b, 0xc6d0), (0x7f1e, 0xcd5c),
  (0x83a1, 0xcc29), (0x72ab, 0xc8fc), (0x972e, 0xb2f4), (0x3db5, 0xc784), (0x4638, 0xc561),
  (0x6abb, 0xd568), (0x8f3e, 0xc804), (0x55c5, 0xd6c4), (0x7e48, 0xac15), (0x82cb, 0xd604),
  (0x9658, 0xd615), (0x3cdf, 0xacf5), (0x4162, 0xcd94), (0x65e5, 0xc77c), (0x8e68, 0xc5f0),
  (0x54ef, 0xd604), (0x7972, 0xce68), (0x9df5, 0xb3c4), (0x4cff, 0xc5f0), (0x7603, 0xcd09),
  (0x9182, 0xb9bc), (0x408c, 0xcda9), (0x6e13, 0xbd80), (0x8992, 0xbaa8), (0x591d, 0xccad),
  (0x789c, 0xcc38), (0x8623, 0xd22c), (0x712d, 0xacbd), (0x90ac, 0xad50), (0x43b6, 0xc774),
  (0x693d, 0xc5f0), (0x88bc, 0xac01), (0x5847, 0xc120), (0x7bc6, 0xc804), (0x814d, 0xc784),
  (0x7057, 0xc120), (0x93d6, 0xc624), (0x42e0, 0xbcf4), (0x6867, 0xd68c), (0x8be6, 0xc0c1),
  (0x5b71, 0xc794), (0x7af0, 0xb9ac), (0x8077, 0xc9c1), (0x9300, 0xb95c), (0x5002, 0xbcd1),
  (0x7485, 0xc18c), (0x3987, 0xb85d), (0x8b10, 0xbc00), (0x4812, 0xd638), (0x6c95, 0xbb3c),
  (0x5197, 0xc6a9)]

/-- hanja/table.go:1033-1288 -/
def rawTable4 : List (Nat × Nat) := [
  (0x6022, 0xb3cc), (0x84a5, 0xb958), (0x49a7, 0xd608), (0x9832, 0xc815), (0x5d34, 0xc678),
  (0x61b7, 0xcd08), (0x7544, 0xb958), (0x99c7, 0xbb38), (0x3a46, 0xcd94), (0x5ec9, 0xb834),
  (0x6d54, 0xc2ec), (0x5256, 0xbd80), (0x76d9, 0xbcf4), (0x3bdb, 0xd638), (0x8564, 0xc720),
  (0x4a66, 0xc870), (0x6ee9, 0xd0c4), (0x53eb, 0xaddc), (0x6276, 0xbd80), (0x86f9, 0xc6a9),
  (0x4bfb, 0xace0), (0x9a86, 0xb77d), (0x5f88, 0xd754), (0x650f, 0xb871), (0x7798, 0xad6c),
  (0x349a, 0xc740), (0x9d1f, 0xce58), (0x4221, 0xcd1d), (0x6fa8, 0xc11c), (0x7a31, 0xce6d),
  (0x3f33, 0xc131), (0x87b8, 0xc720), (0x44ba, 0xadfc), (0x9241, 0xc9c4), (0x5743, 0xd6c8),
  (0x7cca, 0xd638), (0x8a51, 0xc774), (0x4f53, 0xccb4), (0x94da, 0xc9c8), (0x59dc, 0xac15),
  (0x6763, 0xc0b0), (0x8cea, 0xc9c8), (0x71ec, 0xd6fc), (0x36ee, 0xc218), (0x9f73, 0xc6b4),
  (0x5c75, 0xc54c), (0x69fc, 0xaddc), (0x5d06, 0xacf5), (0x7989, 0xc720), (0x860c, 0xc5b4),
  (0x7516, 0xc575), (0x9199, 0xc218), (0x40a3, 0xc790), (0x6d26, 0xbc31), (0x89a9, 0xb3c4),
  (0x37ad, 0xb300), (0x5c30, 0xc885), (0x78b3, 0xd0c4), (0x8536, 0xcc45), (0x7440, 0xc6b0),
  (0x90c3, 0xd569), (0x3b4a, 0xc11d), (0x47cd, 0xbcc0), (0x6c50, 0xc11d), (0x88d3, 0xadf9),
  (0x36d7, 0xc88c), (0x535a, 0xbc15), (0x7fdd, 0xad49), (0x8460, 0xc0bc), (0x4b6a, 0xb7c9),
  (0x97ed, 0xad6c), (0x3a74, 0xad6d), (0x46f7, 0xc6d0), (0x637a, 0xb0a0), (0x8ffd, 0xcd94),
  (0x5284, 0xcc28), (0x640b, 0xccb4), (0x9b8a, 0xbc31), (0x4a94, 0xbd80), (0x9c1b, 0xc628),
  (0x399e, 0xc8fc), (0x4325, 0xc740), (0x62a4, 0xd638), (0x51ae, 0xac15), (0x7b35, 0xbc94),
  (0x9ab4, 0xc790), (0x49be, 0xc6b0), (0x9345, 0xbc95), (0x38c8, 0xc2dc), (0x424f, 0xd574),
  (0x61ce, 0xc0c9), (0x8b55, 0xbb34), (0x50d8, 0xcc3d), (0x7a5f, 0xc218), (0x99de, 0xd0c0),
  (0x48e8, 0xc21c), (0x926f, 0xc774), (0x3ff2, 0xc758), (0x4179, 0xb8e8), (0x60f8, 0xacbd),
  (0x8a7f, 0xad18), (0x9908, 0xc790), (0x5a0a, 0xd604), (0x668d, 0xac08), (0x721a, 0xc57d),
  (0x9e9d, 0xc0ac), (0x3f1c, 0xc559), (0x5b9f, 0xc2e4), (0x6a2a, 0xd6a1), (0x572c, 0xc624),
  (0x73af, 0xbc30), (0x3cb1, 0xb835), (0x823a, 0xac11), (0x4f3c, 0xc0ac), (0x6bbf, 0xc804),
  (0x54c1, 0xd488), (0x674c, 0xc62c), (0x83cf, 0xd558), (0x4cd1, 0xc720), (0x9f5c, 0xc7ac),
  (0x585e, 0xc0c8), (0x64e1, 0xb300), (0x706e, 0xad11), (0x9cf1, 0xac04), (0x3d70, 0xc11c),
  (0x59f3, 0xba85), (0x687e, 0xad70), (0x5580, 0xac1d), (0x7f07, 0xc81c), (0x3809, 0xb3d9),
  (0x808e, 0xae0d), (0x4d90, 0xc65c), (0x9717, 0xb839), (0x5019, 0xd6c4), (0x65a0, 0xac01),
  (0x8f27, 0xbcd1), (0x4829, 0xada4), (0x352b, 0xc88c), (0x9db0, 0xc6d0), (0x5eb2, 0xb798),
  (0x6039, 0xd0c4), (0x76c2, 0xc6b0), (0x9849, 0xae08), (0x454b, 0xb2f9), (0x6ed2, 0xac00),
  (0x7d5b, 0xc870), (0x3e5d, 0xc2dc), (0x86e2, 0xbcd1), (0x43e4, 0xc0ac), (0x956b, 0xb4f1),
  (0x566d, 0xad50), (0x7bf4, 0xc801), (0x8d7b, 0xc120), (0x4e7d, 0xc798), (0x7781, 0xd601),
  (0x9004, 0xbc29), (0x430e, 0xb7b5), (0x6f91, 0xb958), (0x8814, 0xd638), (0x5e9b, 0xc790),
  (0x7b1e, 0xd0dc), (0x87a1, 0xbb38), (0x76ab, 0xd45c), (0x932e, 0xace0), (0x39b5, 0xc8fc),
  (0x4238, 0xace1), (0x6ebb, 0xd0d1), (0x8b3e, 0xb9cc), (0x3542, 0xc74c), (0x51c5, 0xace0),
  (0x7a48, 0xbbf8), (0x86cb, 0xb2e8), (0x49d5, 0xc5ed), (0x9258, 0xbd88), (0x38df, 0xae38),
  (0x4562, 0xc790), (0x61e5, 0xce58), (0x8a68, 0xd6a8), (0x346c, 0xace0), (0x50ef, 0xb9b0),
  (0x7d72, 0xc0ac), (0x99f5, 0xb958), (0x48ff, 0xc6b0), (0x7203, 0xc601), (0x9582, 0xc0b0),
  (0x448c, 0xba85), (0x6a13, 0xb8e8), (0x8d92, 0xc870), (0x3796, 0xcc28), (0x5d1d, 0xc7c1),
  (0x7c9c, 0xc870), (0x8223, 0xcc28), (0x752d, 0xbd09), (0x94ac, 0xd654), (0x47b6, 0xcc99),
  (0x6d3d, 0xd761), (0x8cbc, 0xcca9), (0x36c0, 0xcd94), (0x5c47, 0xc804), (0x7fc6, 0xcde8),
  (0x854d, 0xc720), (0x7457, 0xc6d0), (0x97d6, 0xc720), (0x46e0, 0xd22c), (0x6c67, 0xacac),
  (0x8fe6, 0xac00), (0x5f71, 0xc601), (0x7ef0, 0xc791), (0x8477, 0xd6c8), (0x9700, 0xc218),
  (0x5402, 0xb9dd), (0x7085, 0xacbd), (0x3d87, 0xd6a1), (0x8f10, 0xc644), (0x4c12, 0xbabd),
  (0x6895, 0xc778), (0x5597, 0xc6b4), (0x6422, 0xc9c4), (0x80a5, 0xbe44), (0x4da7, 0xc694),
  (0x9c32, 0xc624), (0x5934, 0xb450), (0x65b7, 0xb2e8), (0x7144, 0xc885), (0x9dc7, 0xad6c),
  (0x3e46, 0xd718), (0x5ac9, 0xc9c8), (0x6954, 0xc124), (0x5656, 0xc74c), (0x72d9, 0xc800),
  (0x3fdb, 0xb824), (0x8164, 0xc554), (0x4e66, 0xc11c), (0x6ae9, 0xc5fc), (0x57eb, 0xcd1d),
  (0x6676, 0xc815), (0x82f9, 0xd3c9), (0x4ffb, 0xbe44), (0x3601, 0xc5ed), (0x9e86, 0xc870),
  (0x5b88, 0xc218), (0x610f, 0xc758), (0x7398, 0xae30), (0x991f, 0xccb4), (0x4621, 0xbe44),
  (0x6ba8, 0xada4), (0x7e31, 0xc885), (0x3b33, 0xc624), (0x83b8, 0xc720), (0x40ba, 0xc640),
  (0x9641, 0xd0c0), (0x5343, 0xcc9c), (0x78ca, 0xb8b0), (0x8e51, 0xc12d), (0x4b53, 0xc628),
  (0x90da, 0xc624)]

/-- hanja/table.go:1289-1544 -/
def rawTable5 : List (Nat × Nat) := [
  (0x5ddc, 0xad34), (0x6363, 0xb3c4), (0x88ea, 0xb3c4), (0x75ec, 0xc5ed), (0x9b73, 0xc0ac),
  (0x5875, 0xc9c4), (0x6dfc, 0xbb18), (0x3c83, 0xad6c), (0x5106, 0xacbd), (0x7589, 0xcca9),
  (0x8a0c, 0xd64d), (0x7916, 0xc5ec), (0x9d99, 0xc81c), (0x4ca3, 0xc5b4), (0x6126, 0xada4),
  (0x85a9, 0xc0b4), (0x3bad, 0xd568), (0x5030, 0xb989), (0x74b3, 0xc804), (0x8936, 0xc2b5),
  (0x7840, 0xcd9c), (0x9cc3, 0xc0c8), (0x374a, 0xc218), (0x4bcd, 0xb839), (0x6050, 0xacf5),
  (0x84d3, 0xbc30), (0x3ad7, 0xd6c4), (0x5f5a, 0xd718), (0x73dd, 0xd6c4), (0x8860, 0xc21c),
  (0x476a, 0xc18c), (0x9bed, 0xb9f9), (0x3674, 0xcca8), (0x4af7, 0xc545), (0x6f7a, 0xc794),
  (0x83fd, 0xc219), (0x3f05, 0xad11), (0x5e84, 0xc7a5), (0x680b, 0xb3d9), (0x978a, 0xae38),
  (0x4694, 0xbe48), (0x901b, 0xad11), (0x359e, 0xad18), (0x4f25, 0xcc3d), (0x6ea4, 0xb9c8),
  (0x3e2f, 0xacfc), (0x5dae, 0xd5d8), (0x7735, 0xce58), (0x96b4, 0xb871), (0x45be, 0xc644),
  (0x9f45, 0xd6c4), (0x34c8, 0xbe59), (0x4e4f, 0xd54d), (0x6dce, 0xbd09), (0x8755, 0xc2dd),
  (0x3d59, 0xccad), (0x5cd8, 0xd658), (0x765f, 0xbcc4), (0x95de, 0xd568), (0x44e8, 0xbd80),
  (0x9e6f, 0xc804), (0x4d79, 0xc9c0), (0x6cf8, 0xb85c), (0x867f, 0xcc44), (0x9508, 0xc218),
  (0x560a, 0xc560), (0x6a8d, 0xc5b5), (0x7e1a, 0xb3c4), (0x929d, 0xd734), (0x579f, 0xc591),
  (0x662a, 0xbcc0), (0x5b2c, 0xc720), (0x7faf, 0xac08), (0x8e3a, 0xac74), (0x433c, 0xd0dc),
  (0x67bf, 0xc5bc), (0x58c1, 0xbcbd), (0x6b4c, 0xac00), (0x8fcf, 0xccb4), (0x40d1, 0xbc18),
  (0x935c, 0xd558), (0x545e, 0xc2dc), (0x68e1, 0xac15), (0x7c6e, 0xb77c), (0x90f1, 0xbcd1),
  (0x55f3, 0xc560), (0x647e, 0xac15), (0x5980, 0xae30), (0x7307, 0xd6a8), (0x3409, 0xc808),
  (0x8c8e, 0xc608), (0x4190, 0xad6d), (0x9b17, 0xb9cc), (0x5c19, 0xc0c1), (0x69a0, 0xba85),
  (0x8327, 0xcda9), (0x4429, 0xac1c), (0x392b, 0xb355), (0x91b0, 0xb2f4), (0x52b2, 0xacbd),
  (0x6c39, 0xb2f9), (0x7ac2, 0xb8cc), (0x3fc4, 0xc560), (0x9449, 0xd0d1), (0x494b, 0xd33d),
  (0x62d2, 0xac70), (0x715b, 0xacbd), (0x8ae2, 0xc6d0), (0x4fe4, 0xc81c), (0x996b, 0xc5b4),
  (0x5a6d, 0xc544), (0x77f4, 0xc815), (0x817b, 0xb2c8), (0x427d, 0xbc18), (0x7b81, 0xbd80),
  (0x9c04, 0xc704), (0x4f0e, 0xae30), (0x6391, 0xae30), (0x8414, 0xcd08), (0x3e18, 0xb9cc),
  (0x529b, 0xb825), (0x771e, 0xc9c4), (0x8ba1, 0xacc4), (0x7aab, 0xc54c), (0x9f2e, 0xc815),
  (0x35b5, 0xad6c), (0x4e38, 0xd658), (0x62bb, 0xc2e0), (0x873e, 0xacfc), (0x3942, 0xd2b9),
  (0x5dc5, 0xc804), (0x7648, 0xd3d0), (0x8acb, 0xccad), (0x45d5, 0xc6d0), (0x9e58, 0xace8),
  (0x34df, 0xd53c), (0x4962, 0xb96d), (0x6de5, 0xb85d), (0x8668, 0xbc18), (0x386c, 0xae30),
  (0x5cef, 0xbd09), (0x7172, 0xbcf4), (0x95f5, 0xbbfc), (0x44ff, 0xd568), (0x7e03, 0xc11c),
  (0x9982, 0xc900), (0x488c, 0xbc1c), (0x6613, 0xc5ed), (0x8192, 0xad6c), (0x3b96, 0xac08),
  (0x511d, 0xacbd), (0x709c, 0xc704), (0x8e23, 0xbd81), (0x792d, 0xd655), (0x98ac, 0xd558),
  (0x4bb6, 0xc9d1), (0x613d, 0xbc15), (0x80bc, 0xc815), (0x3ac0, 0xc815), (0x5047, 0xac00),
  (0x73c6, 0xc774), (0x894d, 0xc7a1), (0x7857, 0xad50), (0x9bd6, 0xccad), (0x4ae0, 0xbe44),
  (0x6067, 0xb275), (0x83e6, 0xadfc), (0x5371, 0xc704), (0x72f0, 0xc7c1), (0x8877, 0xcda9),
  (0x9b00, 0xccb4), (0x5802, 0xb2f9), (0x7c85, 0xbb3c), (0x8310, 0xcd1d), (0x4012, 0xcc9c),
  (0x6495, 0xc11c), (0x5997, 0xae08), (0x6822, 0xbc31), (0x8ca5, 0xd56d), (0x41a7, 0xc640),
  (0x9032, 0xc9c4), (0x5534, 0xac15), (0x69b7, 0xad50), (0x7d44, 0xc870), (0x91c7, 0xcc44),
  (0x56c9, 0xb77c), (0x6554, 0xc5b4), (0x5a56, 0xcca8), (0x7ed9, 0xae09), (0x8d64, 0xc801),
  (0x4266, 0xcc9c), (0x66e9, 0xb0ad), (0x5beb, 0xc0ac), (0x6a76, 0xadf9), (0x8ef9, 0xc9c0),
  (0x43fb, 0xb2a5), (0x3a01, 0xc9c0), (0x9286, 0xbc31), (0x5788, 0xb300), (0x6d0f, 0xc774),
  (0x7f98, 0xc7a5), (0x3c9a, 0xc0ac), (0x951f, 0xace4), (0x4a21, 0xd568), (0x67a8, 0xc815),
  (0x7231, 0xc560), (0x3733, 0xd68c), (0x8fb8, 0xc789), (0x4cba, 0xac10), (0x9a41, 0xc624),
  (0x5f43, 0xd544), (0x74ca, 0xacbd), (0x8251, 0xd3b8), (0x4753, 0xb835), (0x9cda, 0xc704),
  (0x51dc, 0xb984), (0x6f63, 0xbbfc), (0x84ea, 0xd1b5), (0x79ec, 0xac70), (0x3eee, 0xcc2c),
  (0x9773, 0xadfc), (0x5475, 0xac00), (0x61fc, 0xad6c), (0x3883, 0xb791), (0x5506, 0xc0ac),
  (0x7189, 0xc6b4), (0x8e0c, 0xc8fc), (0x7d16, 0xc9c4), (0x9999, 0xd5a5), (0x48a3, 0xc694),
  (0x6526, 0xb824), (0x81a9, 0xb2c8), (0x3fad, 0xcd94), (0x5430, 0xd6a1), (0x70b3, 0xbcd1),
  (0x8d36, 0xd669), (0x7c40, 0xc8fc), (0x98c3, 0xd45c), (0x4fcd, 0xb7c9), (0x6450, 0xcc3d),
  (0x80d3, 0xd3c9), (0x3ed7, 0xbc30), (0x5b5a, 0xbd80), (0x77dd, 0xae0d), (0x8c60, 0xc800),
  (0x436a, 0xb9d0), (0x4ef7, 0xac1c), (0x6b7a, 0xc54c), (0x87fd, 0xb2ec), (0x3b05, 0xb9cc),
  (0x5a84, 0xbbf8), (0x6c0b, 0xbabd), (0x938a, 0xbc29), (0x4294, 0xc601), (0x941b, 0xc601),
  (0x4b25, 0xc758)]

/-- hanja/table.go:1545-1800 -/
def rawTable6 : List (Nat × Nat) := [
  (0x6aa4, 0xb3c4), (0x3a2f, 0xd655), (0x59ae, 0xb2c8), (0x7335, 0xd3b8), (0x92b4, 0xc138),
  (0x41be, 0xb78c), (0x9b45, 0xb9e4), (0x4a4f, 0xba78), (0x69ce, 0xcc28), (0x8355, 0xadfc),
  (0x3959, 0xcda9), (0x58d8, 0xb8e8), (0x725f, 0xbaa8), (0x91de, 0xce69), (0x40e8, 0xac15),
  (0x9a6f, 0xc21c), (0x37f2, 0xc6d0), (0x4979, 0xc124), (0x68f8, 0xcd94), (0x827f, 0xc789),
  (0x9108, 0xaddc), (0x520a, 0xac04), (0x6e8d, 0xc9c4), (0x7a1a, 0xce58), (0x969d, 0xb3c4),
  (0x371c, 0xc624), (0x539f, 0xc6d0), (0x622a, 0xc808), (0x5f2c, 0xc774), (0x7baf, 0xd3b8),
  (0x34b1, 0xbabd), (0x8a3a, 0xc9c4), (0x473c, 0xbaa9), (0x63bf, 0xb099), (0x5cc1, 0xbb18),
  (0x6f4c, 0xc9c8), (0x8bcf, 0xc870), (0x44d1, 0xd3c9), (0x975c, 0xc815), (0x505e, 0xc5fd),
  (0x6ce1, 0xd3ec), (0x786e, 0xd559), (0x94f1, 0xc758), (0x3570, 0xd559), (0x51f3, 0xb4f1),
  (0x607e, 0xb9dd), (0x5d80, 0xb3c4), (0x7707, 0xbb18), (0x888e, 0xc694), (0x4590, 0xc740),
  (0x9f17, 0xb3c4), (0x5819, 0xc778), (0x6da0, 0xc704), (0x8727, 0xb824), (0x4029, 0xb77d),
  (0x3d2b, 0xad70), (0x95b0, 0xad6d), (0x56b2, 0xd0c0), (0x6839, 0xadfc), (0x7ec2, 0xbd88),
  (0x3bc4, 0xc9c0), (0x9049, 0xc815), (0x4d4b, 0xc720), (0x66d2, 0xad50), (0x755b, 0xc9c4),
  (0x365d, 0xd611), (0x8ee2, 0xc804), (0x4be4, 0xad34), (0x9d6b, 0xd0c1), (0x5e6d, 0xba78),
  (0x73f4, 0xc544), (0x857b, 0xd64d), (0x467d, 0xd608), (0x7f81, 0xae30), (0x9804, 0xaddc),
  (0x4b0e, 0xad35), (0x6791, 0xd638), (0x8014, 0xc790), (0x3a18, 0xc131), (0x569b, 0xd559),
  (0x731e, 0xc0ac), (0x8fa1, 0xbcc0), (0x7eab, 0xc778), (0x9b2e, 0xad6c), (0x4a38, 0xc740),
  (0x66bb, 0xacbd), (0x833e, 0xacac), (0x3d42, 0xc11c), (0x59c5, 0xbc18), (0x7248, 0xd310),
  (0x8ecb, 0xc54c), (0x41d5, 0xc218), (0x9a58, 0xb77c), (0x4d62, 0xb9e4), (0x69e5, 0xd61c),
  (0x8268, 0xbabd), (0x3c6c, 0xc624), (0x58ef, 0xc7a5), (0x7572, 0xc5ec), (0x91f5, 0xcc44),
  (0x40ff, 0xbd80), (0x7a03, 0xbd80), (0x9d82, 0xc5ed), (0x4c8c, 0xad00), (0x6213, 0xac00),
  (0x8592, 0xcc2c), (0x3f96, 0xb9ac), (0x551d, 0xd64d), (0x749c, 0xd669), (0x8a23, 0xacb0),
  (0x7d2d, 0xd6a1), (0x9cac, 0xc6a9), (0x4fb6, 0xb824), (0x653d, 0xbc18), (0x84bc, 0xcc3d),
  (0x3ec0, 0xc720), (0x5447, 0xacc4), (0x77c6, 0xd655), (0x8d4d, 0xc7ac), (0x7c57, 0xacfd),
  (0x4ee0, 0xd55c), (0x6467, 0xcd5c), (0x87e6, 0xbe44), (0x5771, 0xc559), (0x76f0, 0xac04),
  (0x8c77, 0xd76c), (0x9f00, 0xcd95), (0x5c02, 0xbd80), (0x7885, 0xade0), (0x3587, 0xc774),
  (0x8710, 0xac81), (0x4412, 0xcc28), (0x6095, 0xd76c), (0x5d97, 0xb85c), (0x6c22, 0xacbd),
  (0x88a5, 0xd0c1), (0x45a7, 0xb0a0), (0x9432, 0xd0c1), (0x5134, 0xc219), (0x6db7, 0xb3d9),
  (0x7944, 0xac1c), (0x95c7, 0xc554), (0x3646, 0xd64d), (0x52c9, 0xba74), (0x6154, 0xbaa8),
  (0x5e56, 0xd45c), (0x7ad9, 0xcc38), (0x37db, 0xc7a0), (0x8964, 0xb78c), (0x4666, 0xbabd),
  (0x62e9, 0xd0dd), (0x5feb, 0xcf8c), (0x6e76, 0xcc9c), (0x8af9, 0xc591), (0x47fb, 0xb3c4),
  (0x3e01, 0xd55c), (0x9686, 0xb96d), (0x5388, 0xc5c4), (0x690f, 0xc544), (0x7b98, 0xade0),
  (0x389a, 0xb85c), (0x911f, 0xc804), (0x4e21, 0xb7c9), (0x63a8, 0xcd94), (0x7631, 0xc608),
  (0x8bb8, 0xd5c8), (0x48ba, 0xcd9c), (0x9e41, 0xbc1c), (0x5b43, 0xc591), (0x70ca, 0xc591),
  (0x8651, 0xd544), (0x4353, 0xc544), (0x98da, 0xd45c), (0x55dc, 0xae30), (0x6b63, 0xc815),
  (0x80ea, 0xb824), (0x7dec, 0xba74), (0x3aee, 0xc790), (0x9373, 0xac10), (0x5075, 0xc815),
  (0x65fc, 0xbbfc), (0x6906, 0xc8fc), (0x4d89, 0xb958), (0x968f, 0xc218), (0x3810, 0xad50),
  (0x4116, 0xc218), (0x8a1c, 0xbd84), (0x74a3, 0xae30), (0x5926, 0xce68), (0x6830, 0xbc8c),
  (0x4cb3, 0xd56d), (0x95b9, 0xc5c4), (0x373a, 0xcc2c), (0x4040, 0xc808), (0x8946, 0xbcf5),
  (0x73cd, 0xc9c4), (0x5850, 0xc18c), (0x675a, 0xace8), (0x4bdd, 0xc218), (0x94e3, 0xc120),
  (0x3664, 0xd558), (0x7f6a, 0xc8c4), (0x8870, 0xc1e0), (0x72f7, 0xacac), (0x577a, 0xbc1c),
  (0x8101, 0xc870), (0x6684, 0xd6e4), (0x500b, 0xac1c), (0x358e, 0xac2f), (0x9911, 0xbc1c),
  (0x7e94, 0xc7ac), (0x879a, 0xb0b4), (0x7725, 0xc790), (0x56a4, 0xb9c8), (0x802b, 0xcc30),
  (0x65ae, 0xcc29), (0x4f35, 0xd601), (0x34b8, 0xc218), (0x983b, 0xbe48), (0x7dbe, 0xb989),
  (0x86c4, 0xace0), (0x764f, 0xd658), (0x55ce, 0xb9c8), (0x9ed4, 0xac80), (0x64d8, 0xbcbd),
  (0x4e5f, 0xc57c), (0x9765, 0xc5fd), (0x7ce8, 0xac15), (0x85ee, 0xcd08), (0x7579, 0xc6d0),
  (0x54f8, 0xc1e0), (0x9dfe, 0xc758), (0x918b, 0xcd08), (0x6e0a, 0xc5f0), (0x528d, 0xac80),
  (0x8518, 0xc0bc), (0x461a, 0xc878), (0x6f9f, 0xb984), (0x9d28, 0xc555), (0x5e2a, 0xc9c4),
  (0x82ad, 0xd30c), (0x632c, 0xbc1c), (0x47af, 0xbd80), (0x9abd, 0xd1f4), (0x7b3c, 0xb871),
  (0x5fbf, 0xb8e1), (0x3c3e, 0xad50), (0x60c1, 0xc11d), (0x8e4a, 0xd61c), (0x534c, 0xc2ed),
  (0x78d1, 0xc560), (0x3dd3, 0xcd1d), (0x8fdf, 0xc9c0), (0x6c5e, 0xd64d), (0x50e1, 0xd61c),
  (0x836c, 0xb9e4)]

/-- hanja/table.go:1801-2056 -/
def rawTable7 : List (Nat × Nat) := [
  (0x446e, 0xd0c0), (0x6df3, 0xc21c), (0x9b7c, 0xd5c8), (0x5c7e, 0xc2e0), (0x6180, 0xb8cc),
  (0x8605, 0xd615), (0x4b07, 0xc5f0), (0x7990, 0xc6d0), (0x3a92, 0xc608), (0x9e15, 0xb85c),
  (0x6419, 0xb179), (0x8c9e, 0xc815), (0x51a0, 0xad00), (0x7c29, 0xb85c), (0x6ab2, 0xb2e8),
  (0x9337, 0xc54c), (0x5439, 0xcde8), (0x81c0, 0xb454), (0x42c2, 0xd6a8), (0x714b, 0xc131),
  (0x99d0, 0xc8fc), (0x5ad2, 0xc560), (0x8459, 0xc0c1), (0x495b, 0xacb0), (0x77e4, 0xc2e0),
  (0x38e6, 0xc704), (0x9c69, 0xb8b0), (0x626d, 0xb274), (0x8af2, 0xc778), (0x4ff4, 0xcc9c),
  (0x7a7d, 0xc815), (0x3f7f, 0xacfc), (0x4381, 0xd638), (0x8887, 0xb2e8), (0x770e, 0xc2dc),
  (0x5b91, 0xc815), (0x6a9b, 0xacfc), (0x4f1e, 0xc0b0), (0x35a5, 0xad70), (0x9424, 0xc815),
  (0x42ab, 0xcd5c), (0x8bb1, 0xc778), (0x7638, 0xac00), (0x5abb, 0xbc18), (0x65c5, 0xb824),
  (0x4e48, 0xc694), (0x34cf, 0xacbd), (0x974e, 0xc870), (0x7dd5, 0xc790), (0x8adb, 0xc720),
  (0x7162, 0xacbd), (0x55e5, 0xd638), (0x64ef, 0xbe48), (0x4972, 0xad6c), (0x37f9, 0xb8cc),
  (0x9678, 0xb959), (0x7cff, 0xacf5), (0x4603, 0xbb35), (0x8f09, 0xc7ac), (0x708c, 0xac1c),
  (0x5e13, 0xb9d0), (0x691d, 0xaddc), (0x489c, 0xadc0), (0x91a2, 0xd574), (0x3827, 0xbbf8),
  (0x412d, 0xb144), (0x8e33, 0xc900), (0x73b6, 0xd3c9), (0x593d, 0xc6b4), (0x6847, 0xc5ec),
  (0x4bc6, 0xc775), (0x90cc, 0xaddc), (0x3b51, 0xb9e4), (0x4057, 0xac1c), (0x895d, 0xcca8),
  (0x72e0, 0xd55c), (0x5867, 0xc560), (0x3dea, 0xc900), (0x6b71, 0xc885), (0x4af0, 0xb9b0),
  (0x93f6, 0xc9d1), (0x3a7b, 0xae30), (0x8783, 0xbc29), (0x6002, 0xc885), (0x4485, 0xb4f1),
  (0x9f93, 0xb871), (0x7812, 0xbe44), (0x5c95, 0xac1c), (0x3d14, 0xc74d), (0x6197, 0xc740),
  (0x9320, 0xc815), (0x5022, 0xcca9), (0x79a7, 0xd76c), (0x3ea9, 0xc2ac), (0x8cb5, 0xd3b8),
  (0x6d34, 0xbcd1), (0x51b7, 0xb7ad), (0x8042, 0xc12d), (0x4544, 0xc99d), (0x6ec9, 0xd669),
  (0x9852, 0xc639), (0x5d54, 0xc678), (0x81d7, 0xace4), (0x6256, 0xc785), (0x46d9, 0xd735),
  (0x99e7, 0xb3d9), (0x7a66, 0xbe48), (0x5ee9, 0xb984), (0x3f68, 0xcc28), (0x63eb, 0xcd94),
  (0x8d74, 0xbd80), (0x5276, 0xcc9c), (0x7bfb, 0xd45c), (0x38fd, 0xc11c), (0x6f88, 0xcca0),
  (0x900d, 0xc18c), (0x550f, 0xd76c), (0x8296, 0xce58), (0x4798, 0xae00), (0x7221, 0xcca0),
  (0x3723, 0xc5f0), (0x9aa6, 0xc0c1), (0x5fa8, 0xd669), (0x852f, 0xc9c4), (0x4a31, 0xbcf5),
  (0x74ba, 0xbb38), (0x39bc, 0xc0c1), (0x9d3f, 0xd569), (0x6743, 0xad8c), (0x8fc8, 0xb9e4),
  (0x4cca, 0xbc1c), (0x7f53, 0xb9dd), (0x3c55, 0xadc0), (0x69dc, 0xcde8), (0x9261, 0xbc18),
  (0x5763, 0xb2f9), (0x41ec, 0xcd94), (0x6c75, 0xac10), (0x94fa, 0xd3ec), (0x59fc, 0xc81c),
  (0x6d06, 0xc2b9), (0x4989, 0xc0ac), (0x928f, 0xcc45), (0x3c10, 0xd0c0), (0x4516, 0xb989),
  (0x8e1c, 0xb989), (0x70a3, 0xac00), (0x5d26, 0xc5c4), (0x6c30, 0xccad), (0x48b3, 0xae30),
  (0x91b9, 0xc720), (0x4440, 0xbcbd), (0x8d46, 0xc2e0), (0x77cd, 0xd655), (0x5c50, 0xadf9),
  (0x635a, 0xc7ac), (0x4fdd, 0xbcf4), (0x90e3, 0xbc1c), (0x7b6a, 0xac11), (0x8c70, 0xd639),
  (0x76f7, 0xc804), (0x537a, 0xadfc), (0x8501, 0xc7a5), (0x6284, 0xcd08), (0x540b, 0xcd0c),
  (0x9d11, 0xb178), (0x7a94, 0xc694), (0x839a, 0xc5f0), (0x7325, 0xc678), (0x52a4, 0xadfc),
  (0x842b, 0xd5a5), (0x9baa, 0xc720), (0x61ae, 0xbb34), (0x4b35, 0xc560), (0x9c3b, 0xb9cc),
  (0x79be, 0xd654), (0x82c4, 0xbcc0), (0x724f, 0xd22c), (0x51ce, 0xae08), (0x9ad4, 0xccb4),
  (0x60d8, 0xb9dd), (0x4a5f, 0xc774), (0x37e2, 0xae30), (0x9365, 0xacc4), (0x78e8, 0xb9c8),
  (0x81ee, 0xae30), (0x7179, 0xad6c), (0x50f8, 0xae08), (0x99fe, 0xd0dc), (0x958b, 0xac1c),
  (0x6a0a, 0xbc88), (0x568d, 0xc9c4), (0x370c, 0xb204), (0x8118, 0xc644), (0x421a, 0xd0dc),
  (0x6b9f, 0xc628), (0x34a1, 0xc720), (0x9928, 0xad00), (0x5a2a, 0xc624), (0x86ad, 0xb2c8),
  (0x672c, 0xbcf8), (0x43af, 0xd55c), (0x9ebd, 0xb9c8), (0x7f3c, 0xacb0), (0x5bbf, 0xc219),
  (0x383e, 0xc6d0), (0x64c1, 0xc639), (0x8a4a, 0xbc18), (0x574c, 0xbd84), (0x7cd1, 0xb2c9),
  (0x39d3, 0xacfc), (0x8bdf, 0xad6c), (0x685e, 0xc11d), (0x54e1, 0xc6d0), (0x3560, 0xc30d),
  (0x876c, 0xc885), (0x406e, 0xc7a0), (0x69f3, 0xc7a5), (0x9f7c, 0xcd08), (0x587e, 0xc219),
  (0x6580, 0xd0c1), (0x8205, 0xad6c), (0x4f07, 0xc5ed), (0x7d90, 0xd0dc), (0x3e92, 0xad50),
  (0x9a15, 0xc694), (0x6019, 0xd638), (0x889e, 0xace4), (0x55a0, 0xc885), (0x7829, 0xd3d0),
  (0x6eb2, 0xc218), (0x9737, 0xc591), (0x5039, 0xac80), (0x85c0, 0xd615), (0x46c2, 0xc774),
  (0x754b, 0xc804), (0x364d, 0xcca0), (0x9dd0, 0xc2e0), (0x5ed2, 0xc624), (0x8059, 0xc815),
  (0x4d5b, 0xacac), (0x73e4, 0xbcf4), (0x3ce6, 0xacc4), (0x9869, 0xc5c4), (0x666d, 0xc8fc),
  (0x8ef2, 0xace0), (0x4bf4, 0xc7a5), (0x7e7d, 0xbe48), (0x3b7f, 0xc559), (0x4781, 0xc5b8),
  (0x8c87, 0xac04), (0x730e, 0xc791), (0x5f91, 0xacbd), (0x6e9b, 0xc640), (0x4b1e, 0xb3c4),
  (0x9024, 0xc0ac)]

/-- hanja/table.go:2057-2312 -/
def rawTable8 : List (Nat × Nat) := [
  (0x46ab, 0xd601), (0x8fb1, 0xc695), (0x7238, 0xd30c), (0x5ebb, 0xc11c), (0x61c5, 0xac70),
  (0x4a48, 0xd68c), (0x934e, 0xb3cc), (0x79d5, 0xbe44), (0x8edb, 0xc561), (0x7562, 0xd544),
  (0x51e5, 0xac70), (0x60ef, 0xad00), (0x4d72, 0xc870), (0x9278, 0xad50), (0x78ff, 0xb825),
  (0x4203, 0xc18c), (0x8b09, 0xad34), (0x748c, 0xc778), (0x5a13, 0xbbf8), (0x6d1d, 0xc548),
  (0x4c9c, 0xc5c5), (0x95a2, 0xad00), (0x3c27, 0xd574), (0x452d, 0xb155), (0x8a33, 0xc5ed),
  (0x77b6, 0xadc0), (0x5d3d, 0xc7ac), (0x6c47, 0xd718), (0x4fc6, 0xc11c), (0x94cc, 0xb2c8),
  (0x3f51, 0xb2f4), (0x4457, 0xd0d5), (0x8d5d, 0xc548), (0x76e0, 0xb9ac), (0x5c67, 0xc12d),
  (0x39ea, 0xada4), (0x6f71, 0xc5f4), (0x4ef0, 0xc559), (0x97f6, 0xc18c), (0x3e7b, 0xc640),
  (0x8383, 0xd76c), (0x6402, 0xb8e8), (0x4085, 0xd55c), (0x9b93, 0xc790), (0x7c12, 0xcc2c),
  (0x5895, 0xc5b8), (0x3914, 0xbd80), (0x6597, 0xb450), (0x9720, 0xc74c), (0x5422, 0xc2ec),
  (0x7da7, 0xc900), (0x3aa9, 0xc219), (0x88b5, 0xc784), (0x6934, 0xb2e8), (0x55b7, 0xbd84),
  (0x3636, 0xac78), (0x8442, 0xba74), (0x4144, 0xb840), (0x6ac9, 0xc8fc), (0x37cb, 0xd0dc),
  (0x9c52, 0xc900), (0x5954, 0xbd84), (0x85d7, 0xc18d), (0x6656, 0xd718), (0x42d9, 0xc774),
  (0x9de7, 0xc77c), (0x7e66, 0xac15), (0x5ae9, 0xb208), (0x3b68, 0xc57c), (0x67eb, 0xbd88),
  (0x8974, 0xb780), (0x5676, 0xac08), (0x7ffb, 0xbc88), (0x3cfd, 0xbbf8), (0x6b88, 0xd601),
  (0x940d, 0xd73c), (0x510f, 0xcc2c), (0x8696, 0xc6d0), (0x4398, 0xc219), (0x7621, 0xcc3d),
  (0x9ea6, 0xb9e5), (0x5ba8, 0xc870), (0x812f, 0xd3ec), (0x4e31, 0xad00), (0x70ba, 0xc704),
  (0x3dbc, 0xc560), (0x993f, 0xc218), (0x6343, 0xad70), (0x8bc8, 0xc0ac), (0x48ca, 0xb2f9),
  (0x7b53, 0xacc4), (0x3855, 0xc601), (0x6ddc, 0xbe59), (0x9661, 0xb450), (0x5363, 0xc720),
  (0x45ec, 0xbd09), (0x6875, 0xc720), (0x3577, 0xbc15), (0x90fa, 0xc639), (0x5dfc, 0xd31f),
  (0x6106, 0xac74), (0x4589, 0xd6c4), (0x9e8f, 0xade0), (0x4916, 0xd3ec), (0x821c, 0xc21c),
  (0x7ca3, 0xcc45), (0x5126, 0xd45c), (0x6030, 0xd604), (0x44b3, 0xd0c0), (0x9db9, 0xb958),
  (0x3f3a, 0xb2f9), (0x4840, 0xc804), (0x8146, 0xc804), (0x7bcd, 0xcd94), (0x5050, 0xc548),
  (0x6f5a, 0xc219), (0x43dd, 0xc804), (0x9ce3, 0xc804), (0x3e64, 0xac81), (0x776a, 0xc5ed),
  (0x8070, 0xcd1d), (0x7af7, 0xac10), (0x5f7a, 0xc655), (0x8901, 0xcc99), (0x6e84, 0xbd09),
  (0x580b, 0xbd95), (0x3d8e, 0xd658), (0x9111, 0xc790), (0x7694, 0xd55c), (0x8f9a, 0xb9b0),
  (0x7f25, 0xd45c), (0x5ea4, 0xce58), (0x882b, 0xb9ac), (0x97aa, 0xbb34), (0x6dae, 0xc1c4),
  (0x4735, 0xc2dc), (0x3cb8, 0xd761), (0x903b, 0xb77c), (0x75be, 0xc9c8), (0x8ec4, 0xc9c1),
  (0x7e4f, 0xc120), (0x5dce, 0xb178), (0x96d4, 0xc218), (0x6cd8, 0xd638), (0x465f, 0xc704),
  (0x3be2, 0xc9d0), (0x9f65, 0xc138), (0x74e8, 0xac15), (0x8dee, 0xce58), (0x7d79, 0xacac),
  (0x5cf8, 0xc131), (0x95fe, 0xb824), (0x998b, 0xcc38), (0x660a, 0xd638), (0x5a8d, 0xbd80),
  (0x3b0c, 0xacbd), (0x8d18, 0xc0c1), (0x4e1a, 0xc5c5), (0x679f, 0xc6b4), (0x38a1, 0xc7a5),
  (0x9528, 0xd754), (0x562a, 0xb9e4), (0x8aad, 0xb3c5), (0x6b2c, 0xd574), (0x4faf, 0xd6c4),
  (0x92bd, 0xad04), (0x733c, 0xbc15), (0x57bf, 0xc11c), (0x343e, 0xc6d0), (0x68c1, 0xc808),
  (0x864a, 0xb780), (0x5b4c, 0xb828), (0x70d1, 0xc694), (0x35d3, 0xcd94), (0x87df, 0xb8cc),
  (0x645e, 0xb77c), (0x58e1, 0xc608), (0x3960, 0xc11c), (0x8b6c, 0xbe44), (0x4c6e, 0xc561),
  (0x65f3, 0xc801), (0x937c, 0xce68), (0x547e, 0xb2ec), (0x6980, 0xd488), (0x8e05, 0xc608),
  (0x4307, 0xc0ad), (0x7190, 0xba85), (0x9615, 0xacb0), (0x6c19, 0xc120), (0x849e, 0xb9ac),
  (0x59a0, 0xb0a9), (0x7429, 0xcc3d), (0x62b2, 0xd558), (0x9b37, 0xc885), (0x5c39, 0xc724),
  (0x89c0, 0xad00), (0x4ac2, 0xb2e4), (0x794b, 0xb300), (0x3a4d, 0xcc45), (0x91d0, 0xb9ac),
  (0x52d2, 0xb975), (0x8c59, 0xc758), (0x415b, 0xcc3d), (0x7fe4, 0xc2dc), (0x9469, 0xc545),
  (0x6a6d, 0xace0), (0x82f2, 0xc791), (0x47f4, 0xc9c4), (0x727d, 0xacac), (0x377f, 0xd30c),
  (0x4b81, 0xbcc0), (0x8087, 0xc870), (0x7f0e, 0xb2e8), (0x5391, 0xc573), (0x629b, 0xd3ec),
  (0x471e, 0xc81c), (0x3da5, 0xac04), (0x9c24, 0xc0ac), (0x4aab, 0xacbd), (0x83b1, 0xb798),
  (0x7e38, 0xb9c9), (0x52bb, 0xad11), (0x6dc5, 0xc11d), (0x4648, 0xd6c4), (0x3ccf, 0xc2dc),
  (0x9f4e, 0xc7ac), (0x75d5, 0xd754), (0x82db, 0xac00), (0x7962, 0xb2c8), (0x5de5, 0xacf5),
  (0x6cef, 0xbbfc), (0x4172, 0xae30), (0x3ff9, 0xb2ec), (0x9e78, 0xac10), (0x74ff, 0xbd80),
  (0x4e03, 0xce60), (0x8709, 0xbd80), (0x788c, 0xb85d), (0x5613, 0xad35), (0x611d, 0xc5b8),
  (0x409c, 0xbc29), (0x99a2, 0xc804), (0x492d, 0xc2dd), (0x8633, 0xd734), (0x7bb6, 0xd638),
  (0x513d, 0xb798), (0x6047, 0xad11), (0x43c6, 0xc870), (0x98cc, 0xd48d), (0x4857, 0xacf5),
  (0x815d, 0xbd80), (0x7ae0, 0xc7a5), (0x5067, 0xcc28), (0x35ea, 0xd53c), (0x6371, 0xc560),
  (0x42f0, 0xad6d)]

/-- hanja/table.go:2313-2568 -/
def rawTable9 : List (Nat × Nat) := [
  (0x9bf6, 0xd63c), (0x8f83, 0xad50), (0x6802, 0xbaa8), (0x4c85, 0xaddc), (0x9793, 0xc815),
  (0x7012, 0xc0c9), (0x5495, 0xace0), (0x3514, 0xac15), (0x6997, 0xc9c4), (0x9b20, 0xad04),
  (0x5822, 0xbcf4), (0x71a7, 0xc885), (0x36a9, 0xc5fc), (0x84b5, 0xd61c), (0x6534, 0xbcf5),
  (0x59b7, 0xc9c8), (0x3a36, 0xb3c4), (0x8842, 0xb275), (0x4d44, 0xd48d), (0x66c9, 0xd6a8),
  (0x3bcb, 0xacbd), (0x9052, 0xc8fc), (0x5554, 0xacc4), (0x89d7, 0xc9c0), (0x6a56, 0xd0f1),
  (0x4ed9, 0xc120), (0x91e7, 0xcc9c), (0x7266, 0xbaa8), (0x56e9, 0xc6b4), (0x3768, 0xc6d0),
  (0x6beb, 0xd638), (0x8574, 0xc628), (0x5a76, 0xc2ec), (0x73fb, 0xb9e4), (0x6788, 0xbe44),
  (0x980d, 0xaddc), (0x5d0f, 0xbbfc), (0x8a96, 0xd328), (0x4f98, 0xcc28), (0x7a21, 0xc878),
  (0x3f23, 0xbc31), (0x92a6, 0xc778), (0x57a8, 0xc218), (0x8d2f, 0xad00), (0x4231, 0xb3c4),
  (0x7cba, 0xd328), (0x953f, 0xc560), (0x6f43, 0xc21c), (0x87c8, 0xad35), (0x44ca, 0xc624),
  (0x7753, 0xc804), (0x3455, 0xc138), (0x61dc, 0xbabd), (0x9a61, 0xb8e1), (0x5f63, 0xbb38),
  (0x49ec, 0xbe48), (0x6475, 0xc0c9), (0x3977, 0xd611), (0x9cfa, 0xbd80), (0x51fc, 0xb2f9),
  (0x6506, 0xb828), (0x4189, 0xd30c), (0x9a8f, 0xc900), (0x3410, 0xb180), (0x4d16, 0xccad),
  (0x861c, 0xad6d), (0x78a3, 0xac08), (0x5526, 0xc0ac), (0x6430, 0xace8), (0x40b3, 0xc88c),
  (0x99b9, 0xc77c), (0x3b3a, 0xad8c), (0x4c40, 0xc559), (0x8546, 0xcc9c), (0x7fcd, 0xd53c),
  (0x5450, 0xb20c), (0x6b5a, 0xc120), (0x47dd, 0xd22c), (0x98e3, 0xc815), (0x3a64, 0xbd80),
  (0x736a, 0xd68c), (0x8470, 0xc900), (0x7ef7, 0xbd95), (0x5b7a, 0xc720), (0x8d01, 0xd328),
  (0x6a84, 0xaca9), (0x5c0b, 0xc2ec), (0x398e, 0xd68d), (0x9511, 0xc81c), (0x7294, 0xd76c),
  (0x8b9a, 0xcc2c), (0x7b25, 0xc0ac), (0x5aa4, 0xc2dc), (0x8c2b, 0xc804), (0x93aa, 0xc218),
  (0x69ae, 0xc601), (0x4335, 0xcd09), (0x38b8, 0xd544), (0x943b, 0xac70), (0x71be, 0xce58),
  (0x8ac4, 0xc21c), (0x7a4f, 0xc740), (0x59ce, 0xc559), (0x92d4, 0xb9cc), (0x68d8, 0xadf9),
  (0x425f, 0xd655), (0x3fe2, 0xc694), (0x9b65, 0xac81), (0x70e8, 0xc5fd), (0x89ee, 0xb85d),
  (0x7979, 0xb3c4), (0x58f8, 0xace4), (0x91fe, 0xc57c), (0x9d8b, 0xac70), (0x620a, 0xbb34),
  (0x5e8d, 0xd754), (0x3f0c, 0xc720), (0x8918, 0xc704), (0x4a1a, 0xd640), (0x639f, 0xc815),
  (0x3ca1, 0xb0b4), (0x9128, 0xd3d0), (0x522a, 0xc0b0), (0x8ead, 0xd0d0), (0x6f2c, 0xc9c0),
  (0x4baf, 0xc624), (0x96bd, 0xc804), (0x773c, 0xc548), (0x53bf, 0xd604), (0x6cc1, 0xd669),
  (0x824a, 0xbc15), (0x5f4c, 0xbbf8), (0x74d1, 0xb825), (0x83df, 0xb3c4), (0x605e, 0xc774),
  (0x5ce1, 0xd611), (0x3d60, 0xad74), (0x8f6c, 0xc804), (0x486e, 0xc885), (0x61f3, 0xd61c),
  (0x977c, 0xb2ec), (0x507e, 0xbd84), (0x6d80, 0xacac), (0x8a05, 0xad6c), (0x4707, 0xace4),
  (0x7590, 0xccb4), (0x3692, 0xc12c), (0x9215, 0xb274), (0x6819, 0xd56d), (0x809e, 0xcc28),
  (0x5da0, 0xad50), (0x7029, 0xb300), (0x66b2, 0xc7a5), (0x9f37, 0xd61c), (0x5839, 0xc885),
  (0x8dc0, 0xc6d4), (0x4ec2, 0xb975), (0x7d4b, 0xad11), (0x3e4d, 0xc801), (0x95d0, 0xc804),
  (0x56d2, 0xb780), (0x8859, 0xc544), (0x455b, 0xd611), (0x7be4, 0xb3c5), (0x34e6, 0xbc31),
  (0x9069, 0xc801), (0x6e6d, 0xcd94), (0x86f2, 0xc694), (0x43f4, 0xc18c), (0x767d, 0xbc31),
  (0x4f81, 0xc2e0), (0x8487, 0xcc9c), (0x7b0e, 0xc6d0), (0x5791, 0xce58), (0x669b, 0xcc28),
  (0x431e, 0xb834), (0x39a5, 0xd5cc), (0x9824, 0xc774), (0x4eab, 0xd5a5), (0x87b1, 0xc704),
  (0x7a38, 0xcd95), (0x56bb, 0xd6a8), (0x69c5, 0xb3c4), (0x4248, 0xc0b0), (0x38cf, 0xc815),
  (0x9b4e, 0xb7c9), (0x71d5, 0xc5f0), (0x86db, 0xc8fc), (0x7d62, 0xd604), (0x59e5, 0xbaa8),
  (0x68ef, 0xc784), (0x4572, 0xb984), (0x3bf9, 0xd45c), (0x9a78, 0xbd80), (0x70ff, 0xb96d),
  (0x4a03, 0xc548), (0x8309, 0xb9d0), (0x7c8c, 0xc778), (0x5213, 0xc644), (0x651d, 0xc12d),
  (0x449c, 0xc6b0), (0x9da2, 0xc6d0), (0x3427, 0xc81c), (0x4d2d, 0xc7ac), (0x8233, 0xcd95),
  (0x7fb6, 0xc804), (0x553d, 0xc11d), (0x6447, 0xc694), (0x47c6, 0xd544), (0x9ccc, 0xc624),
  (0x3751, 0xbc29), (0x4c57, 0xcc2c), (0x855d, 0xc808), (0x7ee0, 0xacbd), (0x5467, 0xc800),
  (0x6771, 0xb3d9), (0x46f0, 0xd63c), (0x367b, 0xc804), (0x8b83, 0xcc2c), (0x6c02, 0xb9ac),
  (0x4885, 0xc2e0), (0xfa0e, 0xc30d), (0x9393, 0xc639), (0x7412, 0xbd09), (0x5095, 0xac01),
  (0x6d97, 0xc138), (0x9f20, 0xc11c), (0x5c22, 0xc655), (0x75a7, 0xc800), (0x80b5, 0xae30),
  (0x6134, 0xcc3d), (0x5db7, 0xc758), (0x3e36, 0xc5f0), (0x8c42, 0xb8cc), (0x4944, 0xc870),
  (0x62c9, 0xb78d), (0x3fcb, 0xc18c), (0x9452, 0xac10), (0x5154, 0xd1a0), (0x8dd7, 0xbd80),
  (0x6e56, 0xd638), (0x4ad9, 0xc0c1), (0x95e7, 0xc6d0), (0x7666, 0xbb35), (0x52e9, 0xc608),
  (0x6feb, 0xb78c), (0x8174, 0xc720), (0x5e76, 0xbcd1), (0x77fb, 0xace8), (0x34fd, 0xc22d),
  (0x6388, 0xc218), (0x9c0d, 0xcd94), (0x590f, 0xd558), (0x8e96, 0xb2e8), (0x4b98, 0xc608),
  (0x7e21, 0xc7ac)]

/-- hanja/table.go:2569-2824 -/
def rawTable10 : List (Nat × Nat) := [
  (0x3b23, 0xb300), (0x96a6, 0xbe44), (0x53a8, 0xc8fc), (0x892f, 0xc11d), (0x4631, 0xc720),
  (0x78ba, 0xd655), (0x35bc, 0xbaa8), (0x913f, 0xae30), (0x6b43, 0xc0bd), (0x83c8, 0xb78d),
  (0x40ca, 0xc800), (0x7353, 0xc624), (0x65dc, 0xc804), (0x9e61, 0xcc99), (0x5b63, 0xacc4),
  (0x6075, 0xd61c), (0x3d77, 0xbcc0), (0x98fa, 0xc790), (0x55fc, 0xb9c9), (0x7906, 0xd5d8),
  (0x5d89, 0xcde8), (0x868f, 0xc6d4), (0x5116, 0xb78c), (0x3b9d, 0xd601), (0x9a1c, 0xd669),
  (0x64a3, 0xd0c4), (0x4926, 0xc6d4), (0x7830, 0xd33d), (0x5cb3, 0xc545), (0x85b9, 0xb300),
  (0x5040, 0xc601), (0x3ac7, 0xc5b5), (0x9946, 0xd544), (0x63cd, 0xc8fc), (0x4850, 0xd0c0),
  (0x775a, 0xc560), (0x5bdd, 0xce68), (0x84e3, 0xc5ec), (0x6f6a, 0xc9c0), (0x39f1, 0xb098),
  (0x9870, 0xbe48), (0x62f7, 0xace0), (0x477a, 0xad00), (0x9101, 0xd328), (0x7684, 0xc801),
  (0x400b, 0xc5fc), (0x8911, 0xc6d0), (0x6e94, 0xc694), (0x979a, 0xacf5), (0x3e1f, 0xc9c0),
  (0x6725, 0xb85c), (0x46a4, 0xc6b0), (0x902b, 0xacb0), (0x8faa, 0xc124), (0x75ae, 0xcc3d),
  (0x5f35, 0xc7a5), (0x883b, 0xb9cc), (0x6dbe, 0xb2f5), (0x96c4, 0xc6c5), (0x3d49, 0xb9bc),
  (0x664f, 0xc548), (0x45ce, 0xc5f0), (0x8ed4, 0xc778), (0x74d8, 0xad00), (0x5e5f, 0xce58),
  (0x8765, 0xbaa8), (0x6ce8, 0xc8fc), (0x95ee, 0xbb38), (0x3c73, 0xb9c9), (0x6579, 0xb8cc),
  (0x44f8, 0xac04), (0x8dfe, 0xc219), (0x818b, 0xb8cc), (0x7e0a, 0xc561), (0x428d, 0xb9ac),
  (0x9518, 0xcca8), (0x561a, 0xb4dd), (0x7f9f, 0xac04), (0x8d28, 0xc9c8), (0x4e2a, 0xac1c),
  (0x92ad, 0xc804), (0x732c, 0xc704), (0x57af, 0xb2ec), (0x342e, 0xc591), (0x8abd, 0xb098),
  (0x6b3c, 0xcd5c), (0x4fbf, 0xd3b8), (0x70c1, 0xc0ad), (0x35c3, 0xbb38), (0x9e4a, 0xc791),
  (0x434c, 0xbd80), (0x68d1, 0xd328), (0x7c5e, 0xc5b4), (0x40e1, 0xc7a0), (0x936c, 0xcd08),
  (0x546e, 0xae30), (0x7df3, 0xd608), (0x3ef5, 0xc794), (0x8b7c, 0xac10), (0x4c7e, 0xb8e8),
  (0x7180, 0xc5fd), (0x9605, 0xc5f4), (0x5b07, 0xada4), (0x6990, 0xc804), (0x8e15, 0xcca9),
  (0x7419, 0xc5ed), (0x391b, 0xc784), (0x9c9e, 0xc0c1), (0x41a0, 0xd658), (0x6c29, 0xc544),
  (0x7ab2, 0xb8cc), (0x3fb4, 0xc0ac), (0x8337, 0xd328), (0x4439, 0xc218), (0x91c0, 0xc591),
  (0x52c2, 0xace0), (0x614b, 0xd0dc), (0x89d0, 0xadfc), (0x4ad2, 0xbb38), (0x9459, 0xacc4),
  (0x595b, 0xd669), (0x67e4, 0xc0ac), (0x8c69, 0xbe48), (0x726d, 0xc0ac), (0x376f, 0xad50),
  (0x9af2, 0xd53c), (0x5ff4, 0xac80), (0x6a7d, 0xb2ec), (0x5381, 0xc0b0), (0x9887, 0xd30c),
  (0x3e08, 0xcd08), (0x670e, 0xb839), (0x4b91, 0xb8b0), (0x7a9b, 0xad6c), (0x5f1e, 0xc2e0),
  (0x8424, 0xd615), (0x52ab, 0xac81), (0x9bb1, 0xb85c), (0x3932, 0xd611), (0x6638, 0xb3d9),
  (0x4abb, 0xbcc0), (0x75c5, 0xbcd1), (0x5e48, 0xbcd1), (0x874e, 0xac08), (0x6dd5, 0xb959),
  (0x9adb, 0xace0), (0x385c, 0xc124), (0x6162, 0xb9cc), (0x45e5, 0xc885), (0x74ef, 0xad6c),
  (0x5972, 0xcc28), (0x8678, 0xc790), (0x6cff, 0xc740), (0x5603, 0xcda9), (0x3b86, 0xc5bc),
  (0x9f09, 0xd0c0), (0x608c, 0xc81c), (0x4e13, 0xc804), (0x791d, 0xc5f0), (0x589c, 0xcd94),
  (0x81a2, 0xb8e8), (0x512d, 0xce24), (0x3ab0, 0xc7ac), (0x9e33, 0xc6d0), (0x63b6, 0xacbd),
  (0x493d, 0xad00), (0x7847, 0xb1e8), (0x5bc6, 0xbc00), (0x80cc, 0xbc30), (0x5057, 0xc131),
  (0x35da, 0xb960), (0x995d, 0xb9c8), (0x62e0, 0xac70), (0x4867, 0xc624), (0x7b71, 0xc18c),
  (0x5af0, 0xb208), (0x83f6, 0xbd09), (0x9783, 0xad49), (0x7002, 0xb85c), (0x5485, 0xbd80),
  (0x3504, 0xc18d), (0x8f93, 0xc218), (0x6812, 0xc21c), (0x4c95, 0xbcf4), (0x7197, 0xcc3d),
  (0x3699, 0xac00), (0x8320, 0xd734), (0x4022, 0xc21c), (0x69a7, 0xbe44), (0x9cb5, 0xc608),
  (0x7d34, 0xd53c), (0x41b7, 0xd608), (0x9042, 0xc218), (0x5544, 0xd0c1), (0x7ec9, 0xcd94),
  (0x8852, 0xd604), (0x4d54, 0xb3d9), (0x91d7, 0xc1e0), (0x7256, 0xc720), (0x56d9, 0xc778),
  (0x3758, 0xc639), (0x89e7, 0xd574), (0x6a66, 0xb3d9), (0x4ee9, 0xc0c1), (0x73eb, 0xcda9),
  (0x9d74, 0xad6d), (0x4276, 0xc30d), (0x6bfb, 0xd0c0), (0x7f88, 0xae30), (0x3c8a, 0xc608),
  (0x800d, 0xc0ac), (0x450f, 0xcd94), (0x9296, 0xc218), (0x5798, 0xbcf5), (0x6221, 0xac10),
  (0x8aa6, 0xc1a1), (0x4fa8, 0xad50), (0x952f, 0xac70), (0x5a31, 0xc624), (0x64ba, 0xcc2c),
  (0x8d3f, 0xd68c), (0x7743, 0xc900), (0x3445, 0xc791), (0x5cca, 0xbd80), (0x6f53, 0xd61c),
  (0x79dc, 0xb2c8), (0x3ede, 0xbe48), (0x8261, 0xb2f9), (0x4763, 0xac70), (0x51ec, 0xd48d),
  (0x7c75, 0xc2ed), (0x84fa, 0xc608), (0x49fc, 0xace1), (0x3400, 0xad6c), (0x7d06, 0xc6b0),
  (0x5989, 0xb2f4), (0x828f, 0xd1a0), (0x5516, 0xc544), (0x3f9d, 0xcc28), (0x9e1c, 0xad6c),
  (0x60a3, 0xd658), (0x4d26, 0xc740), (0x7c30, 0xd328), (0x58b3, 0xbd84), (0x81b9, 0xbd84),
  (0x5440, 0xd558), (0x3ec7, 0xc804), (0x9d46, 0xd589), (0x67cd, 0xc601), (0x4c50, 0xbd80),
  (0x735a, 0xd669), (0x5fdd, 0xcca8), (0x80e3, 0xc774), (0x6b6a, 0xc65c), (0x3df1, 0xc6c5),
  (0x9c70, 0xc11c)]

/-- hanja/table.go:2825-3080 -/
def rawTable11 : List (Nat × Nat) := [
  (0x66f7, 0xac08), (0x437a, 0xd658), (0x9501, 0xc1c4), (0x7284, 0xc758), (0x440b, 0xcd1d),
  (0x8d11, 0xac10), (0x6a94, 0xb2f9), (0x939a, 0xcd94), (0x3a1f, 0xac1c), (0x6325, 0xd63c),
  (0x42a4, 0xb2f4), (0x942b, 0xc804), (0x8baa, 0xc0b0), (0x71ae, 0xb8cc), (0x5b35, 0xba74),
  (0x8c3b, 0xac39), (0x69be, 0xace8), (0x92c4, 0xb9d8), (0x3949, 0xbd80), (0x624f, 0xad6c),
  (0x41ce, 0xc791), (0x8ad4, 0xc219), (0x70d8, 0xd64d), (0x5a5f, 0xace0), (0x8365, 0xd615),
  (0x68e8, 0xacc4), (0x91ee, 0xc7ac), (0x3873, 0xc800), (0x6179, 0xc9d1), (0x40f8, 0xc12c),
  (0x89fe, 0xc5f0), (0x858b, 0xc790), (0x7a0a, 0xc81c), (0x468d, 0xc801), (0x9118, 0xc6a9),
  (0x521a, 0xac15), (0x7b9f, 0xade0), (0x8928, 0xcc28), (0x4a2a, 0xb9e4), (0x96ad, 0xc774),
  (0x772c, 0xb8e1), (0x53af, 0xb825), (0x8ebd, 0xc5b8), (0x6f3c, 0xcd5c), (0x4bbf, 0xac74),
  (0x74c1, 0xd655), (0x9a4a, 0xd654), (0x474c, 0xacb0), (0x6cd1, 0xc720), (0x9bdf, 0xb3d9),
  (0x785e, 0xace1), (0x44e1, 0xc9c0), (0x976c, 0xac04), (0x506e, 0xc9d1), (0x79f3, 0xd65c),
  (0x3af5, 0xbe44), (0x8f7c, 0xc2dd), (0x487e, 0xc5bc), (0x7580, 0xc7a1), (0x3682, 0xb0ad),
  (0x9205, 0xc6d4), (0x5f07, 0xac10), (0x6d90, 0xc544), (0x8a15, 0xc0b0), (0x7019, 0xce5c),
  (0x3d1b, 0xce58), (0x989e, 0xc12d), (0x45a0, 0xc6d0), (0x6829, 0xd5c8), (0x7eb2, 0xb9dd),
  (0x3bb4, 0xc18c), (0x8737, 0xad8c), (0x4039, 0xc12c), (0x95c0, 0xd56d), (0x56c2, 0xd6a8),
  (0x654b, 0xaca9), (0x8dd0, 0xcc28), (0x4ed2, 0xc5b4), (0x34d6, 0xd544), (0x9059, 0xc694),
  (0x5d5b, 0xc720), (0x63e4, 0xc989), (0x8869, 0xcc28), (0x766d, 0xc601), (0x9ef2, 0xcc38),
  (0x5bf4, 0xce5c), (0x6e7d, 0xce58), (0x5781, 0xce58), (0x9c87, 0xc810), (0x3a08, 0xc81c),
  (0x630e, 0xace0), (0x4f91, 0xc720), (0x7e9b, 0xb3c5), (0x5b1e, 0xb3d9), (0x8024, 0xc801),
  (0x56ab, 0xce5c), (0x3d32, 0xc0ac), (0x6238, 0xd638), (0x4ebb, 0xc778), (0x71c5, 0xc12c),
  (0x5a48, 0xb989), (0x834e, 0xce58), (0x69d5, 0xd0c1), (0x9edb, 0xb300), (0x3c5c, 0xcc30),
  (0x6562, 0xac10), (0x41e5, 0xcc29), (0x70ef, 0xd76c), (0x5d72, 0xc5bc), (0x8278, 0xcd08),
  (0x68ff, 0xc608), (0x5203, 0xc778), (0x3f86, 0xcca8), (0x9b09, 0xc885), (0x648c, 0xadc0),
  (0x4a13, 0xb8b0), (0x3417, 0xb180), (0x7d1d, 0xc784), (0x5c9c, 0xd30c), (0x85a2, 0xd574),
  (0x552d, 0xae30), (0x3eb0, 0xc0ac), (0x9a33, 0xb3c5), (0x67b6, 0xac00), (0x4d3d, 0xbe44),
  (0x3741, 0xacac), (0x7c47, 0xd638), (0x5fc6, 0xc5b5), (0x84cc, 0xc88c), (0x5457, 0xd328),
  (0x9d5d, 0xc544), (0x66e0, 0xad11), (0x4c67, 0xc120), (0x366b, 0xc9d1), (0x7f71, 0xb0a8),
  (0x5ef0, 0xccad), (0x87f6, 0xc815), (0x9383, 0xd30c), (0x7402, 0xc5b8), (0x5085, 0xbd80),
  (0x8b93, 0xc591), (0x6c12, 0xad90), (0x4895, 0xd73c), (0x7597, 0xb8cc), (0x8720, 0xad70),
  (0x4422, 0xcd94), (0x6da7, 0xac04), (0x98b5, 0xc18c), (0x7934, 0xbc15), (0x45b7, 0xd76c),
  (0x9442, 0xd6c8), (0x5144, 0xd615), (0x7ac9, 0xb871), (0x8c52, 0xc9c8), (0x4954, 0xc18d),
  (0x95d7, 0xad00), (0x7656, 0xbcbd), (0x52d9, 0xbb34), (0x8de7, 0xc804), (0x6e66, 0xc0dd),
  (0x4ae9, 0xc0bc), (0x77eb, 0xad50), (0x34ed, 0xc124), (0x9974, 0xc774), (0x4676, 0xb18d),
  (0x6ffb, 0xc720), (0x7b88, 0xc9c0), (0x388a, 0xc758), (0x840d, 0xd3c9), (0x410f, 0xc694),
  (0x9696, 0xc624), (0x5398, 0xb9ac), (0x6621, 0xd604), (0x8ea6, 0xcc2c), (0x4ba8, 0xc7ac),
  (0x35ac, 0xc218), (0x912f, 0xc120), (0x5e31, 0xc8fc), (0x60ba, 0xad00), (0x893f, 0xc870),
  (0x7343, 0xc560), (0x9bc8, 0xc870), (0x58ca, 0xad34), (0x6b53, 0xd658), (0x7ddc, 0xba74),
  (0x3ade, 0xb3c4), (0x8661, 0xac70), (0x4363, 0xb8b0), (0x55ec, 0xd558), (0x7875, 0xb1e8),
  (0x80fa, 0xc54c), (0x3800, 0xb3c4), (0x7106, 0xacb0), (0x5589, 0xd6c4), (0x8e8f, 0xb9b0),
  (0x5916, 0xc678), (0x921c, 0xd6a1), (0x6ca3, 0xd48d), (0x4126, 0xb8cc), (0x7030, 0xbbf8),
  (0x54b3, 0xd574), (0x8db9, 0xacb0), (0x5840, 0xbcd1), (0x9146, 0xd48d), (0x6bcd, 0xbaa8),
  (0x4050, 0xc601), (0x7f5a, 0xbc8c), (0x53dd, 0xace0), (0x8ce3, 0xb9e4), (0x676a, 0xcd08),
  (0x9070, 0xccb4), (0x6af7, 0xadc0), (0x4f7a, 0xc804), (0x9901, 0xc784), (0x7e84, 0xbd09),
  (0x480b, 0xbe44), (0x8111, 0xb1cc), (0x6694, 0xb0a8), (0x9f9a, 0xacf5), (0x361f, 0xcc3d),
  (0x6f25, 0xc640), (0x4ea4, 0xad50), (0x982b, 0xbd80), (0x87aa, 0xc0c1), (0x7dae, 0xacc4),
  (0x5735, 0xd0d5), (0x803b, 0xce58), (0x65be, 0xd328), (0x9ec4, 0xd669), (0x3549, 0xac11),
  (0x6e4f, 0xd68c), (0x86d4, 0xd68c), (0x7cd8, 0xac00), (0x565f, 0xc751), (0x8f65, 0xb9b0),
  (0x64e8, 0xc57c), (0x9dee, 0xad50), (0x3473, 0xcd94), (0x6d79, 0xd611), (0x4cf8, 0xb9c8),
  (0x85fe, 0xb8b0), (0x898b, 0xacac), (0x760a, 0xd6c4), (0x4a8d, 0xb780), (0x9d18, 0xbcc0),
  (0x5e1a, 0xcd94), (0x779f, 0xd45c), (0x8528, 0xad8c), (0x462a, 0xcda9), (0x9aad, 0xd55c),
  (0x7b2c, 0xc81c), (0x5faf, 0xd61c), (0x3c2e, 0xc2e0), (0x82bd, 0xc544), (0x633c, 0xb1cc),
  (0x47bf, 0xac74)]

/-- hanja/table.go:3081-3336 -/
def rawTable12 : List (Nat × Nat) := [
  (0x78c1, 0xc790), (0x3dc3, 0xcd94), (0x964a, 0xce58), (0x4b4c, 0xd638), (0x60d1, 0xd639),
  (0x97df, 0xace0), (0x745e, 0xc11c), (0x48e1, 0xc758), (0x9b6c, 0xbc18), (0x5c6e, 0xc88c),
  (0x75f3, 0xb9bc), (0x36f5, 0xce6d), (0x837c, 0xb3c4), (0x447e, 0xcc99), (0x7980, 0xd488),
  (0x3a82, 0xad74), (0x9e05, 0xd0dd), (0x5307, 0xc11d), (0x6190, 0xb828), (0x8615, 0xbd09),
  (0x7c19, 0xbc15), (0x949e, 0xcd08), (0x49a0, 0xc2dc), (0x6429, 0xac78), (0x72b2, 0xc2dc),
  (0x37b4, 0xc9c0), (0x8b37, 0xc624), (0x4c39, 0xc801), (0x99c0, 0xc6b0), (0x5ac2, 0xc218),
  (0x694b, 0xb784), (0x81d0, 0xd6c8), (0x42d2, 0xc11c), (0x38d6, 0xd0dc), (0x9c59, 0xbb18),
  (0x515b, 0xcc9c), (0x6fe4, 0xb3c4), (0x8469, 0xd30c), (0x7a6d, 0xb824), (0x3f6f, 0xd734),
  (0x92f2, 0xbcd1), (0x57f4, 0xc2dd), (0x627d, 0xb3c8), (0x5b81, 0xc800), (0x9087, 0xc774),
  (0x3608, 0xc758), (0x6f0e, 0xcd1d), (0x4391, 0xb85d), (0x729b, 0xb9ac), (0x571e, 0xb780),
  (0x8c24, 0xbc29), (0x5aab, 0xcca9), (0x93b1, 0xc6d0), (0x6e38, 0xc720), (0x42bb, 0xac10),
  (0x7dc5, 0xcd94), (0x5648, 0xcd95), (0x8f4e, 0xad50), (0x65d5, 0xc5c7), (0x92db, 0xad11),
  (0x6962, 0xc720), (0x7cef, 0xb098), (0x5172, 0xcc9c), (0x8e78, 0xb9b0), (0x64ff, 0xc801),
  (0x5e03, 0xd3ec), (0x9709, 0xb9e4), (0x688c, 0xb3c4), (0x4613, 0xac10), (0x3817, 0xc624),
  (0x711d, 0xd63c), (0x509c, 0xc694), (0x89a2, 0xc12c), (0x592d, 0xc694), (0x9633, 0xc591),
  (0x6bb6, 0xc8fc), (0x413d, 0xc120), (0x3b41, 0xc789), (0x7047, 0xcd1d), (0x53c6, 0xc560),
  (0x88cc, 0xacb9), (0x5857, 0xb3c4), (0x3dda, 0xc815), (0x915d, 0xc628), (0x6ae0, 0xd3d0),
  (0x4067, 0xbb18), (0x3a6b, 0xc9c8), (0x7371, 0xbe48), (0x52f0, 0xd611), (0x8bf6, 0xd76c),
  (0x9f83, 0xc800), (0x7802, 0xc0ac), (0x5c85, 0xd310), (0x3d04, 0xc575), (0x8793, 0xc9c4),
  (0x6012, 0xb85c), (0x4495, 0xc18c), (0x7997, 0xc0ac), (0x3e99, 0xc2e4), (0x8b20, 0xc694),
  (0x4822, 0xbabd), (0x61a7, 0xb3d9), (0x94b5, 0xbc1c), (0x7534, 0xc0bd), (0x49b7, 0xc628),
  (0x9842, 0xb8b0), (0x5d44, 0xbbf8), (0x76c9, 0xd654), (0x8052, 0xad04), (0x4554, 0xd568),
  (0x99d7, 0xc9c4), (0x7a56, 0xae30), (0x5ed9, 0xc774), (0x3f58, 0xac15), (0x81e7, 0xc7a5),
  (0x6266, 0xcc9c), (0x46e9, 0xc624), (0x7beb, 0xcd95), (0x38ed, 0xc885), (0x9574, 0xb78d),
  (0x4a76, 0xc815), (0x63fb, 0xba78), (0x7788, 0xc639), (0x348a, 0xc2b5), (0x880d, 0xac08),
  (0x4d0f, 0xc5f0), (0x9a96, 0xcc38), (0x5f98, 0xbc30), (0x6a21, 0xbaa8), (0x82a6, 0xd638),
  (0x47a8, 0xaddc), (0x39ac, 0xb77c), (0x9d2f, 0xc774), (0x5231, 0xcc3d), (0x6cba, 0xc804),
  (0x853f, 0xc704), (0x7f43, 0xc575), (0x3c45, 0xc758), (0x97c8, 0xb9d0), (0x54ca, 0xc721),
  (0x6753, 0xd45c), (0x71dc, 0xbbfc), (0x36de, 0xb871), (0x8a61, 0xd6c4), (0x4f63, 0xc6a9),
  (0x59ec, 0xd76c), (0x7475, 0xc870), (0x8cfa, 0xc7a0), (0x41fc, 0xc74d), (0x3c00, 0xb824),
  (0x7506, 0xc790), (0x5189, 0xc5fc), (0x8a8f, 0xb791), (0x5d16, 0xc560), (0x379d, 0xcc99),
  (0x961c, 0xbd80), (0x68a3, 0xc2ec), (0x4526, 0xb9e4), (0x7430, 0xc5fc), (0x50b3, 0xc804),
  (0x89b9, 0xbbf8), (0x5c40, 0xad6d), (0x36c7, 0xc7a5), (0x9546, 0xb9c9), (0x6fcd, 0xcd1d),
  (0x4450, 0xc9c4), (0x7b5a, 0xd544), (0x57dd, 0xb150), (0x88e3, 0xcca8), (0x636a, 0xbbfc),
  (0x35f1, 0xc9d1), (0x9470, 0xc57d), (0x6ef7, 0xb85c), (0x4b7a, 0xc559), (0x9d01, 0xc694),
  (0x7a84, 0xcc29), (0x4c0b, 0xb9cc), (0x8511, 0xba78), (0x6294, 0xbd80), (0x9b9a, 0xae38),
  (0x6b25, 0xc728), (0x4aa4, 0xbc88), (0x9c2b, 0xc6a9), (0x83aa, 0xc544), (0x79ae, 0xb840),
  (0x5335, 0xb3c5), (0x843b, 0xc554), (0x61be, 0xac10), (0x9ac4, 0xc218), (0x6a4f, 0xc804),
  (0x49ce, 0xd604), (0x82d4, 0xd0dc), (0x78d8, 0xc694), (0x525f, 0xcca0), (0x8b65, 0xad50),
  (0x60e8, 0xcc38), (0x99ee, 0xbc15), (0x6979, 0xc601), (0x48f8, 0xc5fc), (0x81fe, 0xc720),
  (0x8d8b, 0xcd94), (0x720a, 0xc624), (0x4e8d, 0xcd09), (0x9918, 0xc5ec), (0x5a1a, 0xb0a8),
  (0x739f, 0xbbfc), (0x8128, 0xcd09), (0x422a, 0xaca9), (0x9ead, 0xd3ec), (0x7f2c, 0xd790),
  (0x5baf, 0xd6a8), (0x382e, 0xbd09), (0x86bd, 0xbe44), (0x673c, 0xbe44), (0x43bf, 0xcd94),
  (0x7cc1, 0xc0bc), (0x39c3, 0xaddc), (0x924a, 0xcd08), (0x4f4c, 0xcc28), (0x64d1, 0xc811),
  (0x93df, 0xc0b0), (0x705e, 0xd30c), (0x4ce1, 0xcd94), (0x9f6c, 0xc5b4), (0x586e, 0xc0ac),
  (0x71f3, 0xc870), (0x877c, 0xb8e8), (0x407e, 0xba78), (0x7d80, 0xc18c), (0x3e82, 0xac10),
  (0x9a05, 0xcd94), (0x5707, 0xb95c), (0x6590, 0xbe44), (0x8215, 0xb2f4), (0x7819, 0xc640),
  (0x351b, 0xd560), (0x909e, 0xbd80), (0x4da0, 0xd568), (0x6029, 0xb2c8), (0x76b2, 0xad70),
  (0x8f37, 0xd6a1), (0x4839, 0xd574), (0x9dc0, 0xc790), (0x5ec2, 0xc0c1), (0x6d4b, 0xce21),
  (0x85d0, 0xbb18), (0x46d2, 0xbcc0), (0x3cd6, 0xc758), (0x9859, 0xc0c1), (0x555b, 0xcd40),
  (0x6be4, 0xd0c0), (0x8069, 0xc678), (0x7e6d, 0xacac), (0x3b6f, 0xcca9), (0x96f2, 0xc6b4),
  (0x53f4, 0xad6c)]

/-- hanja/table.go:3337-3592 -/
def rawTable13 : List (Nat × Nat) := [
  (0x667d, 0xb9bc), (0x5f81, 0xc815), (0x9487, 0xc744), (0x6b0e, 0xc6b8), (0x4791, 0xd64d),
  (0x769b, 0xd6a8), (0x531e, 0xc7a5), (0x8824, 0xcd94), (0x5eab, 0xace0), (0x97b1, 0xb3c4),
  (0x3532, 0xada4), (0x6a38, 0xbc15), (0x46bb, 0xc694), (0x79c5, 0xd0c0), (0x5248, 0xc5f0),
  (0x8b4e, 0xd73c), (0x61d5, 0xc5fc), (0x96db, 0xcd94), (0x345c, 0xc808), (0x6d62, 0xb450),
  (0x49e5, 0xd61c), (0x78ef, 0xae30), (0x5572, 0xc801), (0x8a78, 0xbbf8), (0x60ff, 0xc81c),
  (0x5a03, 0xc65c), (0x3786, 0xae30), (0x9309, 0xbbfc), (0x6c8c, 0xb3c8), (0x4213, 0xac08),
  (0x3c17, 0xcd95), (0x751d, 0xac10), (0x549c, 0xd0c0), (0x8da2, 0xb85d), (0x5d2d, 0xcc38),
  (0x36b0, 0xbc30), (0x9233, 0xc544), (0x6fb6, 0xc804), (0x453d, 0xc560), (0x3f41, 0xb825),
  (0x7447, 0xb300), (0x57c6, 0xac01), (0x8ccc, 0xd574), (0x5c57, 0xcd0c), (0x39da, 0xc640),
  (0x955d, 0xc801), (0x6ee0, 0xc12d), (0x4467, 0xbd80), (0x3e6b, 0xc774), (0x7771, 0xd558),
  (0x56f0, 0xace4), (0x8ff6, 0xc720), (0x9b83, 0xd3c9), (0x7c02, 0xada4), (0x5885, 0xc11c),
  (0x3904, 0xd328), (0x8393, 0xb9e4), (0x6412, 0xbc29), (0x4095, 0xd6fc), (0x7d97, 0xacbd),
  (0x3a99, 0xacfc), (0x8f20, 0xacfc), (0x4c22, 0xd589), (0x65a7, 0xbd80), (0x90b5, 0xc18c),
  (0x7134, 0xc721), (0x9c42, 0xc7a5), (0x5944, 0xc5c4), (0x72c9, 0xbe44), (0x8452, 0xd64d),
  (0x4154, 0xce58), (0x9dd7, 0xad6c), (0x7e56, 0xc0b0), (0x5ad9, 0xc120), (0x3b58, 0xd569),
  (0x85e7, 0xd658), (0x6666, 0xd68c), (0x42e9, 0xc544), (0x7feb, 0xc644), (0x3ced, 0xc5f0),
  (0x9174, 0xb3c4), (0x4e76, 0xbcfc), (0x67fb, 0xc0ac), (0x7388, 0xb85c), (0x8c0d, 0xcca9),
  (0x490f, 0xbe44), (0x9e96, 0xacbd), (0x5b98, 0xad00), (0x6e21, 0xb3c4), (0x86a6, 0xc5fc),
  (0x43a8, 0xc5c5), (0x3dac, 0xb9d0), (0x992f, 0xd6fc), (0x5631, 0xcd09), (0x68ba, 0xb85d),
  (0x813f, 0xd45c), (0x7b43, 0xc778), (0x3845, 0xb098), (0x93c8, 0xb828), (0x50ca, 0xc120),
  (0x6353, 0xc57c), (0x75dc, 0xb3c5), (0x8e61, 0xc7a5), (0x4b63, 0xc790), (0x5dec, 0xbd80),
  (0x7075, 0xb839), (0x88fa, 0xc554), (0x45fc, 0xd6c8), (0x4000, 0xbc94), (0x6483, 0xaca9),
  (0x8302, 0xbb34), (0x5810, 0xc560), (0x7c93, 0xac10), (0x9b12, 0xc9c4), (0x4b9d, 0xd63c),
  (0x8e9f, 0xc591), (0x7020, 0xd615), (0x3926, 0xb9ac), (0x63ad, 0xcca8), (0x822c, 0xbc18),
  (0x573a, 0xc7a5), (0x7bbd, 0xb3d9), (0x9a3c, 0xb85d), (0x4ac7, 0xc5fc), (0x8dc9, 0xb839),
  (0x6f4a, 0xc11c), (0x3850, 0xc804), (0x62d7, 0xc694), (0x8156, 0xb3d9), (0x5664, 0xae08),
  (0x7ae7, 0xc815), (0x9966, 0xd0c1), (0x49f1, 0xad6c), (0x8cf3, 0xc7ac), (0x6e74, 0xbc24),
  (0x377a, 0xb834), (0x8080, 0xc0ac), (0x6705, 0xac78), (0x558e, 0xad18), (0x9890, 0xc774),
  (0x7f15, 0xb8e8), (0x4e1f, 0xc8fc), (0x6d9e, 0xb798), (0x9121, 0xad50), (0x36a4, 0xc775),
  (0x662f, 0xc2dc), (0x54b8, 0xd568), (0x97ba, 0xb2f9), (0x7e3f, 0xc0bc), (0x4d49, 0xb450),
  (0x6cc8, 0xc885), (0x904b, 0xc6b4), (0x35ce, 0xac00), (0x6559, 0xad50), (0x53e2, 0xcd1d),
  (0x96e4, 0xd559), (0x7d69, 0xc870), (0x4c73, 0xc804), (0x6bf2, 0xd0c8), (0x8f75, 0xc9c0),
  (0x34f8, 0xcc29), (0x8806, 0xcc44), (0x530c, 0xd569), (0x778f, 0xacbd), (0x899b, 0xb9e5),
  (0x6b1c, 0xb0ad), (0x50a1, 0xbcd1), (0x3e2a, 0xc21c), (0x442e, 0xc0b0), (0x68b1, 0xace4),
  (0x9538, 0xc0bd), (0x3fbf, 0xb791), (0x5c3e, 0xbbf8), (0x45c3, 0xc794), (0x92cd, 0xbc1c),
  (0x744e, 0xd574), (0x5dd3, 0xc804), (0x865a, 0xd5c8), (0x5160, 0xb450), (0x75e3, 0xc9c0),
  (0x9e6a, 0xcd08), (0x87ef, 0xc694), (0x6970, 0xc720), (0x4ef5, 0xc624), (0x3c7e, 0xac1c),
  (0x4282, 0xc0c9), (0x6c09, 0xc18c), (0x938c, 0xacb8), (0x5a92, 0xb9e4), (0x491b, 0xad6c),
  (0x72a2, 0xb3c5), (0x9625, 0xc74c), (0x612b, 0xc18c), (0x84ae, 0xc721), (0x4fb4, 0xcd94),
  (0x3439, 0xd758), (0x793b, 0xc2dc), (0x9cbe, 0xbcbd), (0x67c4, 0xbcd1), (0x8b47, 0xcc28),
  (0x524d, 0xc804), (0x3ad2, 0xacf5), (0x7fd4, 0xc0c1), (0x40d6, 0xc624), (0x6a5d, 0xb2f4),
  (0x91e0, 0xb780), (0x58e6, 0xd6c8), (0x476f, 0xc774), (0x70f6, 0xc815), (0x9479, 0xcc2c),
  (0x5f7f, 0xbd88), (0x4e08, 0xc7a5), (0x728b, 0xad6c), (0x8d0a, 0xcc2c), (0x3b91, 0xce69),
  (0x8097, 0xc5ec), (0x6618, 0xbc29), (0x55a5, 0xb3c4), (0x98a7, 0xad00), (0x7e28, 0xd669),
  (0x4932, 0xc801), (0x6db5, 0xd568), (0x8c34, 0xacac), (0x3abb, 0xad8c), (0x83c1, 0xccad),
  (0x6142, 0xc6a9), (0x54cf, 0xadfc), (0x9bd1, 0xd76c), (0x7952, 0xcd08), (0x485c, 0xb959),
  (0x6cdf, 0xc815), (0x8f5e, 0xd568), (0x35e5, 0xacfd), (0x82eb, 0xc810), (0x606c, 0xb150),
  (0x57f9, 0xbc30), (0x9afb, 0xacc4), (0x787c, 0xbd95), (0x4b86, 0xbe44), (0x8e88, 0xad50),
  (0x710d, 0xc81c), (0x3e13, 0xb3c4), (0x4017, 0xacb0), (0x6396, 0xc561), (0x8719, 0xc1a1),
  (0x5827, 0xc5f0), (0x7ba6, 0xcc45), (0x9f29, 0xad6c), (0x4ab0, 0xc758), (0x89b2, 0xadfc),
  (0x7037, 0xc775), (0x393d, 0xc8fc), (0x4341, 0xc218), (0x62c0, 0xcd95), (0x8643, 0xcca8),
  (0x5b51, 0xd608)]

/-- hanja/table.go:3593-3848 -/
def rawTable14 : List (Nat × Nat) := [
  (0x7ad0, 0xcd09), (0x9e53, 0xc6d0), (0x45da, 0xbc15), (0x88dc, 0xbcf4), (0x7361, 0xc0ad),
  (0x3867, 0xc815), (0x426b, 0xb824), (0x5dea, 0xac71), (0x816d, 0xc545), (0x5a7b, 0xb0a8),
  (0x75fa, 0xbe44), (0x997d, 0xbc1c), (0x4504, 0xc694), (0x6987, 0xce5c), (0x960e, 0xc5fc),
  (0x3c95, 0xb8b0), (0x5d14, 0xcd5c), (0x4699, 0xd6e4), (0x97a3, 0xc720), (0x7524, 0xc720),
  (0x5ea9, 0xb3c4), (0x8b30, 0xb828), (0x5236, 0xc81c), (0x76b9, 0xad70), (0x84c5, 0xb958),
  (0x6a46, 0xbb34), (0x53cb, 0xc6b0), (0x9cd5, 0xc124), (0x3d54, 0xc0ac), (0x4758, 0xc758),
  (0x6bdb, 0xbaa8), (0x9062, 0xd0d1), (0x3ee9, 0xacb8), (0x5f68, 0xb9ac), (0x40ed, 0xac10),
  (0x91f7, 0xd1a0), (0x7778, 0xbbf8), (0x58fd, 0xc218), (0x6201, 0xb09c), (0x8584, 0xbc15),
  (0x4c8a, 0xd0c0), (0x350f, 0xb825), (0x7a11, 0xb959), (0x9d94, 0xc720), (0x649a, 0xb144),
  (0x881d, 0xb8b0), (0x5723, 0xace8), (0x3fa8, 0xc758), (0x7caa, 0xbd84), (0x41ac, 0xc6b4),
  (0x6f33, 0xc7a5), (0x92b6, 0xad6c), (0x59bc, 0xd544), (0x4445, 0xbabd), (0x71cc, 0xbd84),
  (0x954f, 0xb958), (0x5c55, 0xc804), (0x87d8, 0xd2b9), (0x4ede, 0xc778), (0x3763, 0xc608),
  (0x7465, 0xc628), (0x66ee, 0xc5c4), (0x8a71, 0xd654), (0x5177, 0xad6c), (0x39fc, 0xd45c),
  (0x7efe, 0xad00), (0x4400, 0xae30), (0x6083, 0xace4), (0x8702, 0xbd09), (0x5c10, 0xc808),
  (0x7893, 0xb300), (0x9f12, 0xc790), (0x4f9d, 0xc758), (0x8a9f, 0xd6a8), (0x7420, 0xc804),
  (0x3d26, 0xad81), (0x67ad, 0xd6a8), (0x862c, 0xadc0), (0x533a, 0xad6c), (0x7fbd, 0xc6b0),
  (0x9e3c, 0xc8fc), (0x4ec7, 0xad6c), (0x89c9, 0xac01), (0x6b4a, 0xd6a8), (0x3c50, 0xbb34),
  (0x66d7, 0xc5fd), (0x8556, 0xac70), (0x5264, 0xc81c), (0x7ee7, 0xacc4), (0x9d66, 0xb85d),
  (0x88f3, 0xc0c1), (0x6a74, 0xc790), (0x8480, 0xc628), (0x6305, 0xd0c0), (0x340b, 0xd1a8),
  (0x518e, 0xacfc), (0x9c90, 0xd0dc), (0x7b15, 0xacac), (0x4a1f, 0xc640), (0x699e, 0xc6d0),
  (0x9521, 0xc11d), (0x622f, 0xd76c), (0x50b8, 0xc0c1), (0x93ba, 0xc870), (0x7a3f, 0xace0),
  (0x4949, 0xc6d0), (0x68c8, 0xcc9c), (0x944b, 0xacbd), (0x6159, 0xcc38), (0x57e2, 0xad8c),
  (0x92e4, 0xc11c), (0x7969, 0xc8fc), (0x4873, 0xc2dc), (0x6ff2, 0xace1), (0x8b75, 0xb300),
  (0x8c06, 0xc21c), (0x368d, 0xad34), (0x570c, 0xcc9c), (0x738f, 0xb975), (0x8d9b, 0xc74c),
  (0x6f1c, 0xc57c), (0x54a1, 0xc774), (0x3a2a, 0xd669), (0x402e, 0xd669), (0x6cb1, 0xd0c0),
  (0x9138, 0xbabd), (0x3bbf, 0xd544), (0x583e, 0xcd98), (0x41c3, 0xc0ac), (0x96cd, 0xc639),
  (0x374c, 0xad6c), (0x704e, 0xc5fc), (0x59d3, 0xc131), (0x825a, 0xc870), (0x34e1, 0xbd80),
  (0x5560, 0xcca0), (0x71e3, 0xb78c), (0x9a6a, 0xb824), (0x83ef, 0xd654), (0x6d70, 0xb9ac),
  (0x4af5, 0xba74), (0x9bff, 0xd3b8), (0x387e, 0xd55c), (0x4682, 0xd601), (0x6809, 0xc990),
  (0x978c, 0xc548), (0x5e92, 0xc555), (0x4d1b, 0xc18c), (0x35a0, 0xb098), (0x76a2, 0xd6a8),
  (0x9225, 0xd654), (0x652b, 0xd655), (0x80ae, 0xd56d), (0x4bb4, 0xb4f1), (0x7d3b, 0xc559),
  (0x98be, 0xc18c), (0x63c4, 0xc720), (0x8f47, 0xad50), (0x564d, 0xcd08), (0x3ed2, 0xc6b4),
  (0x7bd4, 0xc6b4), (0x44d6, 0xad81), (0x6e5d, 0xac1c), (0x95e0, 0xada4), (0x5ce6, 0xb9cc),
  (0x436f, 0xada4), (0x74f6, 0xbcd1), (0x9079, 0xd73c), (0x5b7f, 0xc0b0), (0x4a08, 0xbe48),
  (0x768b, 0xace0), (0x890a, 0xd3b8), (0x3f91, 0xb2f5), (0x8497, 0xb791), (0x6218, 0xc804),
  (0x51a5, 0xba85), (0x9ca7, 0xace4), (0x7a28, 0xbcc0), (0x4d32, 0xb9d0), (0x69b5, 0xc6a9),
  (0x8834, 0xc11c), (0x3ebb, 0xbd88), (0x87c1, 0xbb38), (0x6542, 0xad6c), (0x50cf, 0xc0c1),
  (0x7d52, 0xc218), (0x4c5c, 0xc791), (0x68df, 0xb3d9), (0x8b5e, 0xd604), (0x86eb, 0xada4),
  (0x646c, 0xc601), (0x53f9, 0xc6b0), (0x9efb, 0xbd88), (0x7c7c, 0xc120), (0x4f86, 0xb798),
  (0x8a88, 0xbb34), (0x750d, 0xb9f9), (0x3a13, 0xb85c), (0x4417, 0xc800), (0x6796, 0xc694),
  (0x8319, 0xc735), (0x5c27, 0xc694), (0x7fa6, 0xd658), (0x9b29, 0xd601), (0x4eb0, 0xacbd),
  (0x8db2, 0xcc2c), (0x7437, 0xac15), (0x3d3d, 0xc124), (0x4741, 0xb85c), (0x66c0, 0xc5d0),
  (0x8243, 0xb9ac), (0x5f51, 0xacc4), (0x7ed0, 0xd0dc), (0x9a53, 0xc99d), (0x41da, 0xbcf5),
  (0x8cdc, 0xc0ac), (0x7761, 0xc218), (0x3c67, 0xc644), (0x466b, 0xae30), (0x59ea, 0xc9c8),
  (0x856d, 0xc18c), (0x5e7b, 0xd658), (0x71fa, 0xace0), (0x9d7d, 0xd0c8), (0x4104, 0xc778),
  (0x6d87, 0xacbd), (0x920e, 0xad6c), (0x3895, 0xc639), (0x5914, 0xae30), (0x4299, 0xc5f0),
  (0x93a3, 0xd615), (0x3422, 0xb730), (0x7124, 0xbd80), (0x5aa9, 0xd638), (0x8f30, 0xc591),
  (0x35b7, 0xc2dc), (0x5636, 0xc2dc), (0x72b9, 0xc6b0), (0x80c5, 0xc9c8), (0x6e46, 0xc74d),
  (0x57cb, 0xb9e4), (0x98d5, 0xc218), (0x3954, 0xc721), (0x4358, 0xbbf8), (0x6fdb, 0xbabd),
  (0x9462, 0xb824), (0x3ae9, 0xcd98), (0x5b68, 0xc804), (0x44ed, 0xcc30), (0x95f7, 0xbbfc),
  (0x3676, 0xb2f9), (0x7378, 0xc218), (0x5cfd, 0xd611), (0x6601, 0xd328), (0x8184, 0xc218),
  (0x488a, 0xc720)]

/-- hanja/table.go:3849-4104 -/
def rawTable15 : List (Nat × Nat) := [
  (0x7e11, 0xacb8), (0x9994, 0xcc2c), (0x609a, 0xc1a1), (0x8c1d, 0xd3b8), (0x5323, 0xac11),
  (0x3ba8, 0xc9c1), (0x78aa, 0xce68), (0x45ac, 0xac11), (0x6b33, 0xad34), (0x96b6, 0xc774),
  (0x5dbc, 0xc11c), (0x4045, 0xb9f9), (0x75cc, 0xd1b5), (0x914f, 0xc774), (0x5855, 0xc639),
  (0x83d8, 0xc22d), (0x4ade, 0xd6a8), (0x7065, 0xcc9c), (0x9be8, 0xacbd), (0x62ee, 0xae38),
  (0x8e71, 0xc885), (0x5577, 0xb791), (0x3dfc, 0xc5f0), (0x7afe, 0xc9c0), (0x4800, 0xcc3d),
  (0x6c83, 0xc625), (0x8b02, 0xc704), (0x5010, 0xc219), (0x7493, 0xc218), (0x9312, 0xc544),
  (0x439d, 0xc800), (0x869f, 0xc655), (0x7820, 0xc800), (0x6bad, 0xac15), (0x8a2c, 0xcd08),
  (0x5f3a, 0xac15), (0x73bd, 0xad6c), (0x923c, 0xc791), (0x42c7, 0xcc99), (0x85c9, 0xc790),
  (0x674a, 0xc21c), (0x6ad7, 0xba78), (0x8956, 0xc624), (0x5e64, 0xd3d0), (0x72e7, 0xd0d1),
  (0x9166, 0xbc1c), (0x41f1, 0xb78d), (0x84f3, 0xadfc), (0x6674, 0xccad), (0x3f7a, 0xae09),
  (0x8880, 0xade0), (0x6f05, 0xc18c), (0x380b, 0xc545), (0x5d8e, 0xc704), (0x9090, 0xb9ac),
  (0x7715, 0xc9c4), (0x461f, 0xc870), (0x659e, 0xc720), (0x9921, 0xd568), (0x3ea4, 0xc12c),
  (0x6e2f, 0xd56d), (0x5cb8, 0xc548), (0x763f, 0xc601), (0x4549, 0xd0dd), (0x64c8, 0xbc15),
  (0x984b, 0xc2dc), (0x3dce, 0xc54c), (0x6d59, 0xc808), (0x5be2, 0xce68), (0x9ee4, 0xc554),
  (0x7569, 0xc758), (0x4473, 0xb95c), (0x63f2, 0xc124), (0x8775, 0xcd94), (0x3cf8, 0xd654),
  (0x8006, 0xae30), (0x3a8d, 0xbc1c), (0x5b0c, 0xad50), (0x7f8f, 0xc591), (0x819b, 0xb2f9),
  (0x631c, 0xc544), (0x58a1, 0xc120), (0x362a, 0xbaa8), (0x4c2e, 0xc758), (0x60b1, 0xbe44),
  (0x9d38, 0xc8fc), (0x37bf, 0xae30), (0x543e, 0xc624), (0x9acd, 0xb9c8), (0x3b4c, 0xbb34),
  (0x7c4e, 0xc758), (0x55d3, 0xc0c1), (0x8e5a, 0xb2f9), (0x38e1, 0xc911), (0x5960, 0xc804),
  (0x7de3, 0xc5f0), (0x966a, 0xbc30), (0x8fef, 0xb3c4), (0x6170, 0xc704), (0x46f5, 0xc218),
  (0x97ff, 0xd5a5), (0x347e, 0xc694), (0x4a82, 0xadf9), (0x6409, 0xac01), (0x9b8c, 0xace4),
  (0x5292, 0xac80), (0x411b, 0xb8e8), (0x39a0, 0xb300), (0x7aa2, 0xd68d), (0x9e25, 0xad6c),
  (0x692b, 0xc804), (0x8cae, 0xc774), (0x47b4, 0xc870), (0x3c39, 0xd568), (0x713b, 0xcc3d),
  (0x94be, 0xac11), (0x6fc4, 0xacfc), (0x8347, 0xd589), (0x5a4d, 0xae30), (0x77d4, 0xad00),
  (0x48d6, 0xb9c8), (0x625d, 0xc6b0), (0x99e0, 0xb958), (0x50e6, 0xcd94), (0x4f6f, 0xc591),
  (0x78f6, 0xc11d), (0x9c79, 0xad00), (0x577f, 0xbd80), (0x4608, 0xb824), (0x7a8b, 0xc904),
  (0x850a, 0xd55c), (0x8897, 0xc9c4), (0x6e18, 0xc720), (0x5da5, 0xad90), (0x90a7, 0xc6d0),
  (0x7628, 0xc804), (0x4132, 0xb15c), (0x65b5, 0xcc29), (0x8434, 0xc989), (0x8bc1, 0xc815),
  (0x6942, 0xc0ac), (0x5ccf, 0xc774), (0x93d1, 0xc801), (0x7152, 0xc704), (0x405c, 0xd669),
  (0x64df, 0xbbf8), (0x875e, 0xbbf8), (0x3de5, 0xc99d), (0x8aeb, 0xac04), (0x686c, 0xc0ac),
  (0x5ff9, 0xc655), (0x92fb, 0xacac), (0x707c, 0xc791), (0x4386, 0xb8cc), (0x8688, 0xacac),
  (0x790d, 0xac08), (0x3613, 0xb780), (0x4817, 0xd749), (0x6b96, 0xc2dd), (0x8f19, 0xcca9),
  (0x5027, 0xc885), (0x73a6, 0xacb0), (0x9729, 0xd655), (0x42b0, 0xc800), (0x81b2, 0xcd08),
  (0x7837, 0xc2e0), (0x4b41, 0xc81c), (0x6ac0, 0xae30), (0x8e43, 0xb0d1), (0x5351, 0xbe44),
  (0x72d0, 0xd638), (0x9653, 0xc6b0), (0x80dc, 0xc131), (0x7b61, 0xb3c4), (0x4a6b, 0xb7c9),
  (0x55ea, 0xc9c4), (0x896d, 0xd790), (0x527b, 0xbd80), (0x7dfa, 0xc65c), (0x917d, 0xc5fc),
  (0x4d04, 0xc21c), (0x6187, 0xac8c), (0x9e0e, 0xc575), (0x3495, 0xc559), (0x5514, 0xc624),
  (0x4e99, 0xae0d), (0x9fa3, 0xb85d), (0x3822, 0xd68c), (0x7d24, 0xaddc), (0x56a9, 0xbd80),
  (0x8330, 0xc720), (0x39b7, 0xc6a9), (0x5a36, 0xcde8), (0x7eb9, 0xbb38), (0x8cc5, 0xd574),
  (0x6246, 0xc758), (0x5bcb, 0xac74), (0x94d5, 0xc720), (0x3554, 0xccad), (0x4f58, 0xc0ac),
  (0x63db, 0xd658), (0x9862, 0xb9cc), (0x36e9, 0xcd95), (0x5768, 0xc774), (0x48ed, 0xc8fc),
  (0x99f7, 0xc1a1), (0x3a76, 0xb151), (0x7f78, 0xbc8c), (0x50fd, 0xcd94), (0x6a01, 0xc7a5),
  (0x8d84, 0xc800), (0x448a, 0xd61c), (0x3d0f, 0xc655), (0x7211, 0xc791), (0x9594, 0xbbfc),
  (0x6c9a, 0xc9c0), (0x801d, 0xcc98), (0x5f23, 0xbd80), (0x37a8, 0xc9c0), (0x74aa, 0xc870),
  (0x49ac, 0xacb0), (0x6733, 0xd314), (0x9ab6, 0xc800), (0x51bc, 0xc2b9), (0x4c45, 0xb9d0),
  (0x79cc, 0xcd94), (0x9d4f, 0xd3ec), (0x5455, 0xad6c), (0x8fd8, 0xd658), (0x46de, 0xd55c),
  (0x3f63, 0xc5ed), (0x7c65, 0xc57d), (0x97e8, 0xbd88), (0x6eee, 0xd45c), (0x8271, 0xac04),
  (0x5977, 0xcc9c), (0x76fe, 0xc21c), (0x4c00, 0xc640), (0x6883, 0xc815), (0x8f02, 0xad6d),
  (0x5410, 0xd1a0), (0x7093, 0xb8cc), (0x9712, 0xc74c), (0x479d, 0xc625), (0x829f, 0xc0bc),
  (0x7c20, 0xbcf4), (0x3526, 0xc591), (0x6fad, 0xc639), (0x8e2c, 0xac04), (0x5b3a, 0xb2c9),
  (0x77bd, 0xace0), (0x963c, 0xc870), (0x46c7, 0xc5f0), (0x81c9, 0xac80), (0x634a, 0xbd80),
  (0x3450, 0xc219)]

/-- hanja/table.go:4105-4360 -/
def rawTable16 : List (Nat × Nat) := [
  (0x6ed7, 0xd544), (0x8d56, 0xb8b0), (0x5a64, 0xc8fc), (0x76e7, 0xb85c), (0x9566, 0xb300),
  (0x45f1, 0xbcf5), (0x80f3, 0xac01), (0x6274, 0xac08), (0x3b7a, 0xc5c4), (0x8c80, 0xb19c),
  (0x6b05, 0xac70), (0x3c0b, 0xbe48), (0x598e, 0xd574), (0x9490, 0xc0bc), (0x7315, 0xbbf8),
  (0x421f, 0xce21), (0x619e, 0xb300), (0x9d21, 0xc800), (0x3aa4, 0xd544), (0x6a2f, 0xc7a5),
  (0x58b8, 0xc800), (0x9bba, 0xc790), (0x723f, 0xc7a5), (0x4149, 0xc544), (0x60c8, 0xacfc),
  (0x9c4b, 0xac70), (0x39ce, 0xc544), (0x6959, 0xbb34), (0x5fe2, 0xc624), (0x9ae4, 0xd734),
  (0x7169, 0xbc88), (0x4073, 0xb9dd), (0x67f2, 0xbe44), (0x8375, 0xc778), (0x38f8, 0xc720),
  (0x8406, 0xbe44), (0x3e8d, 0xbe48), (0x5f0c, 0xc77c), (0x7b8f, 0xc7c1), (0x859b, 0xc124),
  (0x671c, 0xb3c8), (0x5ca1, 0xac15), (0x482e, 0xb4f1), (0x64b1, 0xd0c0), (0x9938, 0xc1a1),
  (0x503e, 0xacbd), (0x49c3, 0xc804), (0x9ecd, 0xc11c), (0x3f4c, 0xb958), (0x784e, 0xd615),
  (0x51d3, 0xb960), (0x8a5a, 0xb2ec), (0x3ce1, 0xacfc), (0x5d60, 0xacc4), (0x79e3, 0xb9d0),
  (0x926a, 0xccb4), (0x8bef, 0xc624), (0x6570, 0xc218), (0x42f5, 0xc608), (0x93ff, 0xc7c1),
  (0x4e82, 0xb780), (0x6009, 0xd3ec), (0x9f8c, 0xc545), (0x5692, 0xb9c8), (0x451b, 0xacbd),
  (0x3da0, 0xc5ed), (0x7ea2, 0xd64d), (0x9a25, 0xc720), (0x6d2b, 0xd601), (0x88ae, 0xce58),
  (0x43b4, 0xac31), (0x3839, 0xac1c), (0x753b, 0xd654), (0x90be, 0xc8fc), (0x6bc4, 0xaca9),
  (0x8747, 0xc2b9), (0x5e4d, 0xb3c4), (0x36d2, 0xb450), (0x73d4, 0xcc9c), (0x4cd6, 0xb151),
  (0x665d, 0xc8fc), (0x9de0, 0xc5b4), (0x54e6, 0xc544), (0x4b6f, 0xbc1c), (0x7cf6, 0xc870),
  (0x9879, 0xd56d), (0x537f, 0xacbd), (0x4208, 0xbe44), (0x7e8b, 0xc6b0), (0x810a, 0xcc99),
  (0x3791, 0xbbf8), (0x8c97, 0xb8e8), (0x6a18, 0xd0f1), (0x59a5, 0xd0c0), (0x94a7, 0xade0),
  (0x7228, 0xcc2c), (0x4532, 0xb4f1), (0x61b5, 0xbcbd), (0x8034, 0xcca9), (0x36bb, 0xae30),
  (0x8fc1, 0xcc9c), (0x6d42, 0xc77c), (0x58cf, 0xd568), (0x97d1, 0xc704), (0x7552, 0xbb18),
  (0x445c, 0xd0d1), (0x60df, 0xc720), (0x835e, 0xad50), (0x39e5, 0xc120), (0x8eeb, 0xc9c4),
  (0x6c6c, 0xc815), (0x5bf9, 0xb300), (0x96fb, 0xc804), (0x747c, 0xc804), (0x4786, 0xc1c4),
  (0x8288, 0xbbf8), (0x7d0d, 0xb0a9), (0x4c17, 0xad6c), (0x6f96, 0xd55c), (0x8b19, 0xacb8),
  (0x5427, 0xd30c), (0x77a6, 0xd76c), (0x9329, 0xcc3d), (0x46b0, 0xbe44), (0x85b2, 0xbe48),
  (0x7c37, 0xcca8), (0x353d, 0xc720), (0x4f41, 0xc774), (0x6ec0, 0xcd95), (0x8a43, 0xacac),
  (0x5751, 0xac31), (0x76d0, 0xc5fc), (0x9253, 0xce59), (0x49da, 0xd638), (0x84dc, 0xbc30),
  (0x7f61, 0xac15), (0x3467, 0xacc4), (0x4e6b, 0xac08), (0x51ea, 0xc9c0), (0x8d6d, 0xc790),
  (0x567b, 0xc0c8), (0x79fa, 0xd22c), (0x957d, 0xb8cc), (0x4904, 0xba74), (0x6587, 0xbb38),
  (0x9a0e, 0xae30), (0x5114, 0xc8fc), (0x4a99, 0xbc15), (0x9ba3, 0xc778), (0x3c22, 0xac31),
  (0x7924, 0xcc30), (0x52a9, 0xc870), (0x8730, 0xbe44), (0x3db7, 0xc21c), (0x5e36, 0xb300),
  (0x7ab9, 0xc624), (0x88c5, 0xc7a5), (0x6646, 0xad34), (0x5fcb, 0xac1c), (0x90d5, 0xc131),
  (0x4b58, 0xc601), (0x67db, 0xc2e0), (0x9c62, 0xc18c), (0x5368, 0xc124), (0x4ced, 0xc801),
  (0x9df7, 0xc900), (0x3e76, 0xc815), (0x7b78, 0xac04), (0x54fd, 0xacbd), (0x6e01, 0xc5f0),
  (0x8984, 0xbcf5), (0x408a, 0xc5ec), (0x390f, 0xb3d9), (0x7611, 0xacfc), (0x9194, 0xcd94),
  (0x689a, 0xb9cc), (0x841d, 0xb77c), (0x5b23, 0xb155), (0x70aa, 0xc878), (0x4dac, 0xacac),
  (0x6333, 0xacbd), (0x9eb6, 0xb9ac), (0x55bc, 0xae09), (0x4845, 0xcd98), (0x7dcc, 0xc720),
  (0x994f, 0xb2f4), (0x5055, 0xd574), (0x8bd8, 0xd790), (0x42de, 0xb9dd), (0x3b63, 0xbb38),
  (0x7865, 0xb9dd), (0x93e8, 0xcc38), (0x6aee, 0xc545), (0x8671, 0xc2ac), (0x5d77, 0xc885),
  (0x35fc, 0xc5c5), (0x72fe, 0xc81c), (0x5000, 0xcc3d), (0x7483, 0xb9ac), (0x9302, 0xb989),
  (0x3d89, 0xacc4), (0x4810, 0xaca9), (0x6c93, 0xb2f5), (0x8b12, 0xcc3d), (0x5b9d, 0xbcf4),
  (0x9e9f, 0xb9b0), (0x6020, 0xd0dc), (0x73ad, 0xbe48), (0x922c, 0xd0c1), (0x3cb3, 0xc9c8),
  (0x473a, 0xcc45), (0x6bbd, 0xd6a8), (0x8a3c, 0xc815), (0x5ac7, 0xba85), (0x9dc9, 0xccb4),
  (0x7f4a, 0xacc4), (0x72d7, 0xad6c), (0x9156, 0xd0d0), (0x3bdd, 0xb85c), (0x4664, 0xd0c0),
  (0x6ae7, 0xc800), (0x8966, 0xc720), (0x59f1, 0xacfc), (0x9cf3, 0xbd09), (0x7e74, 0xbcbd),
  (0x9080, 0xc694), (0x7705, 0xd310), (0x458e, 0xd569), (0x8890, 0xd544), (0x6f15, 0xc870),
  (0x5e1f, 0xc5ed), (0x7d9e, 0xd0c0), (0x8121, 0xc815), (0x762f, 0xc871), (0x3f35, 0xc81c),
  (0x44b8, 0xd608), (0x87ba, 0xb77c), (0x6e3f, 0xb0b4), (0x5d49, 0xc815), (0x7cc8, 0xc11c),
  (0x804b, 0xb871), (0x7559, 0xb958), (0x3e5f, 0xacb0), (0x43e2, 0xd53c), (0x86e4, 0xd569),
  (0x6d69, 0xd638), (0x5c73, 0xc120), (0x7bf2, 0xc218), (0x9f75, 0xc6b0), (0x9806, 0xc21c),
  (0x430c, 0xcca9), (0x678f, 0xb0a8), (0x999b, 0xbc1c), (0x361a, 0xd568), (0x7b1c, 0xc904),
  (0x40a1, 0xc9c0)]

/-- hanja/table.go:4361-4616 -/
def rawTable17 : List (Nat × Nat) := [
  (0x37af, 0xae30), (0x542e, 0xc804), (0x78b1, 0xac10), (0x8538, 0xb450), (0x4c3e, 0xd30c),
  (0x55c3, 0xd559), (0x82cd, 0xcc3d), (0x644e, 0xaddc), (0x965a, 0xbd80), (0x4160, 0xc81c),
  (0x65e3, 0xae30), (0x8e6a, 0xd1f4), (0x97ef, 0xad6c), (0x346e, 0xd63c), (0x7970, 0xace0),
  (0x5ef5, 0xc21c), (0x8fff, 0xc900), (0x5282, 0xada4), (0x3b07, 0xd658), (0x7c09, 0xcd94),
  (0x838c, 0xd0c8), (0x4a92, 0xc8fc), (0x591b, 0xb2e4), (0x62a2, 0xcc3d), (0x8625, 0xc57d),
  (0x712b, 0xc124), (0x94ae, 0xb274), (0x5fb4, 0xc9d5), (0x693b, 0xc5b8), (0x8cbe, 0xc9c0),
  (0x77c4, 0xd6c8), (0x9b47, 0xc5fc), (0x424d, 0xac04), (0x6fd4, 0xb2c8), (0x50d6, 0xd76c),
  (0x395b, 0xadf9), (0x7a5d, 0xcd5c), (0x81e0, 0xb828), (0x48e6, 0xb958), (0x576f, 0xbc30),
  (0x3ff4, 0xb2f5), (0x60f6, 0xd669), (0x8479, 0xc2dc), (0x4f7f, 0xc0ac), (0x5e08, 0xc0ac),
  (0x628b, 0xce68), (0x9d0a, 0xc815), (0x9097, 0xd55c), (0x7618, 0xb8e8), (0x3f1e, 0xd33d),
  (0x45a5, 0xbaa8), (0x88a7, 0xad6c), (0x6e28, 0xc678), (0x5932, 0xb3c4), (0x7db5, 0xcc44),
  (0x9c34, 0xd718), (0x93c1, 0xc1c4), (0x7142, 0xd601), (0x3e48, 0xb9ac), (0x44cf, 0xbd80),
  (0x8bd1, 0xc5ed), (0x6952, 0xc0ac), (0x585c, 0xbd09), (0x7cdf, 0xc870), (0x9f5e, 0xc5b8),
  (0x92eb, 0xb9ac), (0x706c, 0xd654), (0x3972, 0xc9c4), (0x47f9, 0xb82c), (0x8afb, 0xd669),
  (0x687c, 0xce60), (0x3603, 0xc57c), (0x5b86, 0xad81), (0x9e88, 0xc8fc), (0x610d, 0xbbfc),
  (0x5017, 0xbd95), (0x7396, 0xad6c), (0x9719, 0xc601), (0x389c, 0xac15), (0x4827, 0xc800),
  (0x6ba6, 0xc870), (0x8f29, 0xbc30), (0x5ab0, 0xcd94), (0x99b2, 0xd0c1), (0x6037, 0xcd9c),
  (0x5341, 0xc2ed), (0x72c0, 0xc0c1), (0x9643, 0xbcd1), (0x3bc6, 0xc0b0), (0x4b51, 0xb834),
  (0x6ad0, 0xb8e8), (0x8e53, 0xb958), (0x55da, 0xc624), (0x98dc, 0xbc88), (0x6361, 0xac80),
  (0x526b, 0xd0c1), (0x916d, 0xc720), (0x3af0, 0xb791), (0x4a7b, 0xd328), (0x65fa, 0xc655),
  (0x897d, 0xb780), (0x3485, 0xacc4), (0x5504, 0xd328), (0x7987, 0xc800), (0x860e, 0xae30),
  (0x4d14, 0xad50), (0x5699, 0xad50), (0x87a3, 0xb4f1), (0x6524, 0xd0c4), (0x4ea9, 0xbb34),
  (0x9b30, 0xc6b8), (0x4236, 0xc6a9), (0x66b9, 0xc12c), (0x94c5, 0xc5f0), (0x3544, 0xc9c0),
  (0x7a46, 0xbaa9), (0x43cb, 0xc219), (0x8cd5, 0xad6c), (0x36d9, 0xc2e0), (0x5758, 0xc9c0),
  (0x7bdb, 0xc57d), (0x8062, 0xc815), (0x4f68, 0xd3ec), (0x50ed, 0xcc38), (0x81f7, 0xc9c8),
  (0x6778, 0xc218), (0x48fd, 0xc9c0), (0x7201, 0xb78c), (0x9584, 0xd639), (0x5c8a, 0xc808),
  (0x6a11, 0xb7c9), (0x8d94, 0xb82c), (0x3798, 0xb3c5), (0x749a, 0xacbd), (0x981d, 0xad50),
  (0x4723, 0xd754), (0x6caa, 0xd638), (0x51ac, 0xb3d9), (0x3a31, 0xc694), (0x7f33, 0xd604),
  (0x82b6, 0xad6c), (0x49bc, 0xacb0), (0x5445, 0xb9e4), (0x3cca, 0xc720), (0x61cc, 0xc5ed),
  (0x854f, 0xc800), (0x4c55, 0xbb34), (0x97d8, 0xc12d), (0x5ede, 0xd760), (0x6465, 0xd0d5),
  (0x8fe8, 0xd0dc), (0x76ee, 0xbaa9), (0x9a71, 0xad6c), (0x4177, 0xb3c4), (0x6efe, 0xace4),
  (0x5400, 0xb9c8), (0x7083, 0xbd84), (0x9702, 0xbaa9), (0x3989, 0xc758), (0x4c10, 0xb78c),
  (0x6893, 0xc7ac), (0x8f12, 0xcca9), (0x3516, 0xac01), (0x5f9d, 0xce58), (0x9a9f, 0xc120),
  (0x6420, 0xc0ad), (0x77ad, 0xb8cc), (0x962c, 0xac31), (0x38b3, 0xb85c), (0x433a, 0xc774),
  (0x6fbd, 0xac70), (0x8e3c, 0xd0d5), (0x3440, 0xd0dc), (0x5ec7, 0xb958), (0x99c9, 0xacbd),
  (0x7b4a, 0xd6a8), (0x76d7, 0xb3c4), (0x9556, 0xd45c), (0x3fdd, 0xd5a5), (0x4264, 0xc218),
  (0x6ee7, 0xd6a8), (0x8d66, 0xc0ac), (0x5df1, 0xae30), (0x98f3, 0xc8fc), (0x7a74, 0xd608),
  (0x9480, 0xc54c), (0x7305, 0xbc30), (0x418e, 0xc12c), (0x8c90, 0xc720), (0x6b15, 0xc5c4),
  (0x5a1f, 0xc5f0), (0x799e, 0xace0), (0x8521, 0xcc44), (0x722f, 0xce6d), (0x3b35, 0xad50),
  (0x40b8, 0xad35), (0x83ba, 0xc575), (0x6a3f, 0xc804), (0x5949, 0xbd09), (0x78c8, 0xc678),
  (0x844b, 0xad6c), (0x7159, 0xc5f0), (0x3a5f, 0xc7ac), (0x47e2, 0xc804), (0x82e4, 0xbe44),
  (0x6969, 0xd3b8), (0x5873, 0xbd09), (0x7ff2, 0xd45c), (0x9b75, 0xbd84), (0x9c06, 0xcd98),
  (0x470c, 0xb828), (0x638f, 0xb3c4), (0x9d9b, 0xac1c), (0x7f1c, 0xc9c4), (0x44a1, 0xc778),
  (0x502e, 0xb77c), (0x7cb1, 0xb7c9), (0x8138, 0xac80), (0x483e, 0xc12c), (0x51c3, 0xb3c4),
  (0x86cd, 0xd615), (0x604e, 0xc9c8), (0x49d3, 0xc8fc), (0x925a, 0xb958), (0x4560, 0xd3d0),
  (0x61e3, 0xbb38), (0x8a6a, 0xd604), (0x93ef, 0xc0c1), (0x7d70, 0xc9c8), (0x5af5, 0xbb34),
  (0x8bff, 0xc704), (0x5682, 0xb78c), (0x3f07, 0xacbd), (0x7809, 0xd68d), (0x878c, 0xbc18),
  (0x4e92, 0xd638), (0x5d1b, 0xad74), (0x66a2, 0xcc3d), (0x8225, 0xd30c), (0x752b, 0xbcf4),
  (0x90ae, 0xc6b0), (0x5bb4, 0xc5f0), (0x6d3b, 0xd65c), (0x88be, 0xc8fc), (0x36c2, 0xc640),
  (0x73c4, 0xc0dd), (0x9f47, 0xcc28), (0x464d, 0xbe44), (0x6bd4, 0xbe44), (0x54d6, 0xb144),
  (0x3d5b, 0xc120), (0x7e5d, 0xac04), (0x85e0, 0xd6a8), (0x4ce6, 0xc120), (0x536f, 0xbb18),
  (0x3bf4, 0xc6a9)]

/-- hanja/table.go:4617-4872 -/
def rawTable18 : List (Nat × Nat) := [
  (0x64f6, 0xc804), (0x8079, 0xb155), (0x4b7f, 0xc77c), (0x3781, 0xc694), (0x5a08, 0xb828),
  (0x668b, 0xbbfc), (0x990a, 0xc591), (0x9497, 0xcc44), (0x7218, 0xcc2c), (0x3b1e, 0xac08),
  (0x41a5, 0xcc9c), (0x8ca7, 0xbe48), (0x6a28, 0xc11c), (0x36ab, 0xc0bd), (0x5d32, 0xd669),
  (0x79b5, 0xc81c), (0x9834, 0xc601), (0x97c1, 0xac15), (0x7542, 0xad6c), (0x3a48, 0xc6b4),
  (0x40cf, 0xc131), (0x8fd1, 0xadfc), (0x6d52, 0xd5c8), (0x5c5c, 0xccb4), (0x78df, 0xb959),
  (0x9b5e, 0xc785), (0x96eb, 0xb194), (0x746c, 0xb958), (0x3d72, 0xbb34), (0x43f9, 0xd604),
  (0x8efb, 0xac00), (0x6c7c, 0xc6b0), (0x5f86, 0xc11c), (0x9a88, 0xbcc0), (0x650d, 0xc601),
  (0x5417, 0xb9c8), (0x7796, 0xc608), (0x9319, 0xce58), (0x3c9c, 0xb2f4), (0x4c27, 0xd638),
  (0x6fa6, 0xc5ec), (0x8b29, 0xbaa8), (0x352d, 0xc2dc), (0x5eb0, 0xbcd1), (0x9db2, 0xc639),
  (0x6437, 0xc804), (0x5741, 0xc9c0), (0x76c0, 0xae30), (0x9243, 0xc2dc), (0x3fc6, 0xacfc),
  (0x4f51, 0xc6b0), (0x6ed0, 0xac78), (0x8a53, 0xac70), (0x3457, 0xc2e0), (0x51da, 0xae08),
  (0x9cdc, 0xad90), (0x6761, 0xc870), (0x566b, 0xd76c), (0x49ea, 0xcca9), (0x956d, 0xb8b0),
  (0x3ef0, 0xc704), (0x4e7b, 0xc5bc), (0x61fa, 0xcc38), (0x8d7d, 0xacb0), (0x5104, 0xc5b5),
  (0x7d87, 0xc218), (0x820e, 0xc0ac), (0x4914, 0xc810), (0x5299, 0xb9ac), (0x83a3, 0xb9dd),
  (0x6124, 0xbd84), (0x4aa9, 0xc74c), (0x9f30, 0xb144), (0x4636, 0xd568), (0x62b9, 0xb9d0),
  (0x90c5, 0xc9c8), (0x7e46, 0xbb34), (0x47cb, 0xc810), (0x88d5, 0xc720), (0x5358, 0xb2e8),
  (0x7fdb, 0xc18c), (0x8462, 0xac1c), (0x4b68, 0xc218), (0x54ed, 0xace1), (0x85f7, 0xc800),
  (0x6378, 0xd0dc), (0x4cfd, 0xd559), (0x7601, 0xcdcc), (0x9184, 0xb3c4), (0x588a, 0xc810),
  (0x6e11, 0xbbfc), (0x8994, 0xba71), (0x709a, 0xad11), (0x9c1d, 0xd638), (0x4323, 0xcc2c),
  (0x68aa, 0xb450), (0x55ac, 0xad50), (0x3e31, 0xd0c0), (0x7b33, 0xac00), (0x86b6, 0xac10),
  (0x5045, 0xb3d9), (0x38ca, 0xc218), (0x65cc, 0xc815), (0x814f, 0xcca0), (0x4855, 0xc99d),
  (0x93d8, 0xc7a5), (0x5ade, 0xc6a9), (0x6065, 0xce58), (0x8be8, 0xc6d0), (0x35ec, 0xcc28),
  (0x72ee, 0xc0ac), (0x9e71, 0xd655), (0x4577, 0xbbf8), (0x6afe, 0xc720), (0x5800, 0xad74),
  (0x7c83, 0xbe44), (0x9b02, 0xbe48), (0x3589, 0xae30), (0x4010, 0xc0bc), (0x6493, 0xc694),
  (0x8312, 0xc6d0), (0x3916, 0xc800), (0x539d, 0xc870), (0x969f, 0xadf9), (0x6820, 0xc784),
  (0x7bad, 0xc804), (0x9a2c, 0xc2b9), (0x34b3, 0xb7c9), (0x4f3a, 0xc0ac), (0x63bd, 0xd33d),
  (0x823c, 0xacf5), (0x3840, 0xd3d0), (0x52c7, 0xc6a9), (0x95c9, 0xc778), (0x774a, 0xacac),
  (0x7ad7, 0xbb18), (0x9956, 0xc608), (0x4e64, 0xd560), (0x62e7, 0xb155), (0x8166, 0xb1cc),
  (0x51f1, 0xac1c), (0x94f3, 0xcd1d), (0x7674, 0xb828), (0x9880, 0xae30), (0x7f05, 0xba74),
  (0x4d8e, 0xd569), (0x8090, 0xd758), (0x6715, 0xc9d0), (0x561f, 0xb3c4), (0x759e, 0xd6c4),
  (0x8921, 0xb2f5), (0x7e2f, 0xc5f0), (0x3735, 0xb1e8), (0x4cb8, 0xac1c), (0x8fba, 0xbcc0),
  (0x663f, 0xad11), (0x5549, 0xb78c), (0x74c8, 0xb824), (0x884b, 0xd601), (0x7d59, 0xd658),
  (0x365f, 0xb791), (0x4be2, 0xb9c8), (0x8ee4, 0xd638), (0x6569, 0xd6a8), (0x5473, 0xbbf8),
  (0x73f2, 0xd63c), (0x9775, 0xb274), (0x9006, 0xc5ed), (0x4b0c, 0xd478), (0x6f8f, 0xd568),
  (0x919b, 0xcca0), (0x3e1a, 0xb9ac), (0x731c, 0xc2dc), (0x48a1, 0xc12d), (0x3faf, 0xd68c),
  (0x5c2e, 0xd0c0), (0x70b1, 0xd0dc), (0x8d38, 0xbb34), (0x443e, 0xd0c1), (0x5dc3, 0xb871),
  (0x8acd, 0xc7c1), (0x6c4e, 0xbc94), (0x45d3, 0xcd1d), (0x9e5a, 0xc790), (0x4960, 0xce68),
  (0x6de3, 0xc608), (0x866a, 0xc219), (0x3c6e, 0xada4), (0x7170, 0xace0), (0x56f5, 0xb95c),
  (0x87ff, 0xacc4), (0x5a82, 0xc81c), (0x7409, 0xb958), (0x8b8c, 0xc5f0), (0x4292, 0xc815),
  (0x511b, 0xbb34), (0x6aa2, 0xac80), (0x8e25, 0xcca9), (0x792b, 0xb825), (0x9cae, 0xb989),
  (0x57b4, 0xb1cc), (0x613b, 0xc190), (0x84be, 0xbbf8), (0x3ac2, 0xc800), (0x7fc4, 0xc2dc),
  (0x9347, 0xac1c), (0x4a4d, 0xb8cc), (0x67d4, 0xc720), (0x58d6, 0xc5f0), (0x725d, 0xbe48),
  (0x89e0, 0xad8c), (0x40e6, 0xb3c8), (0x5f6f, 0xd45c), (0x37f4, 0xc678), (0x68f6, 0xb798),
  (0x8c79, 0xd45c), (0x477f, 0xadc0), (0x3b81, 0xd6a8), (0x5608, 0xc870), (0x6a8b, 0xad6d),
  (0x950a, 0xb82c), (0x9897, 0xacfc), (0x7e18, 0xacc4), (0x371e, 0xcc38), (0x4da5, 0xcc28),
  (0x80a7, 0xbc30), (0x6628, 0xc791), (0x3aab, 0xc608), (0x5132, 0xc800), (0x75b5, 0xc790),
  (0x9434, 0xbcbd), (0x9bc1, 0xacbd), (0x7942, 0xc57c), (0x3648, 0xd558), (0x4ccf, 0xaddc),
  (0x83d1, 0xce58), (0x6152, 0xc885), (0x505c, 0xc815), (0x74df, 0xbc15), (0x975e, 0xbe44),
  (0x9aeb, 0xcd08), (0x786c, 0xacbd), (0x4ff9, 0xc544), (0x82fb, 0xbd80), (0x607c, 0xb1cc),
  (0x3e03, 0xc810), (0x5386, 0xb825), (0x9688, 0xc678), (0x690d, 0xc2dd), (0x5817, 0xb3cc),
  (0x7b96, 0xb9bc), (0x9f19, 0xbe44), (0x4027, 0xd64d), (0x63a6, 0xcc99), (0x8729, 0xc870),
  (0x392d, 0xad50)]

/-- hanja/table.go:4873-5128 -/
def rawTable19 : List (Nat × Nat) := [
  (0x52b0, 0xb9c9), (0x91b2, 0xb18d), (0x6837, 0xc591), (0x5b41, 0xb839), (0x7ac0, 0xd0f1),
  (0x9e43, 0xacac), (0x4351, 0xd55c), (0x62d0, 0xad34), (0x8653, 0xd6a8), (0x3857, 0xccb4),
  (0x5dda, 0xd5cc), (0x90dc, 0xace0), (0x6b61, 0xd658), (0x5a6b, 0xd63c), (0x45ea, 0xc790),
  (0x996d, 0xbc18), (0x427b, 0xae30), (0x6dfa, 0xcc9c), (0x817d, 0xc62c), (0x3c85, 0xacc4),
  (0x5d04, 0xd5d8), (0x7187, 0xd6a8), (0x8e0e, 0xbd80), (0x4514, 0xacbd), (0x5e99, 0xbb18),
  (0x8fa3, 0xb784), (0x6d24, 0xcc9c), (0x46a9, 0xad50), (0x9330, 0xc220), (0x4a36, 0xc6b4),
  (0x6eb9, 0xc0ad), (0x9cc5, 0xcd94), (0x3d44, 0xd55c), (0x7246, 0xc7a5), (0x4bcb, 0xbc1c),
  (0x84d5, 0xacc4), (0x3ed9, 0xc721), (0x5f58, 0xccb4), (0x73db, 0xd6c4), (0x8862, 0xad6c),
  (0x4768, 0xd604), (0x58ed, 0xc0b0), (0x89f7, 0xd559), (0x6f78, 0xc0b0), (0x40fd, 0xada4),
  (0x7a01, 0xace0), (0x9d84, 0xccad), (0x548a, 0xd654), (0x6211, 0xc544), (0x8594, 0xc7a5),
  (0x3f98, 0xacbd), (0x7c9a, 0xb9ac), (0x901d, 0xc11c), (0x4f23, 0xd604), (0x64aa, 0xbd84),
  (0x59ac, 0xd22c), (0x7733, 0xba85), (0x8ab6, 0xc218), (0x41bc, 0xacfc), (0x5c45, 0xac70),
  (0x34ca, 0xb3d9), (0x69cc, 0xd1f4), (0x8d4f, 0xc0c1), (0x4455, 0xc11c), (0x56de, 0xd68c),
  (0x6c65, 0xc9c0), (0x87e8, 0xad90), (0x39ec, 0xacf5), (0x7eee, 0xae30), (0x9271, 0xad11),
  (0x4977, 0xcc30), (0x66fe, 0xc99d), (0x5c00, 0xd30c), (0x7883, 0xccad), (0x9f02, 0xc870),
  (0x4410, 0xcd94), (0x6093, 0xacac), (0x8712, 0xc5f0), (0x3d16, 0xbc15), (0x579d, 0xada4),
  (0x929f, 0xcc28), (0x6c20, 0xc2e0), (0x7fad, 0xc720), (0x9e2c, 0xb85c), (0x4b3a, 0xc591),
  (0x67bd, 0xc5fd), (0x863c, 0xbbf8), (0x3c40, 0xce58), (0x56c7, 0xb824), (0x91c9, 0xc720),
  (0x734a, 0xcc3d), (0x7ed7, 0xd589), (0x9d56, 0xac81), (0x37dd, 0xbc30), (0x4a64, 0xd608),
  (0x66e7, 0xc735), (0x8566, 0xc218), (0x55f1, 0xb098), (0x90f3, 0xc608), (0x7274, 0xc800),
  (0x9c80, 0xb3c8), (0x7b05, 0xd6a8), (0x498e, 0xad00), (0x8490, 0xc218), (0x6315, 0xc811),
  (0x521f, 0xc870), (0x719e, 0xacac), (0x8d21, 0xacf5), (0x7a2f, 0xc885), (0x48b8, 0xc800),
  (0x8bba, 0xb860), (0x623f, 0xbc29), (0x5149, 0xad11), (0x70c8, 0xb82c), (0x8c4b, 0xb4f1),
  (0x7959, 0xbbf8), (0x4fe2, 0xc218), (0x8ae4, 0xc545), (0x6169, 0xb828), (0x5073, 0xb2e8),
  (0x77f2, 0xd328), (0x9375, 0xac74), (0x9406, 0xc218), (0x4f0c, 0xc560), (0x6b8f, 0xad6c),
  (0x959b, 0xd3c9), (0x3a1a, 0xc21c), (0x771c, 0xb9d0), (0x4ca1, 0xcd94), (0x3baf, 0xd63c),
  (0x582e, 0xc545), (0x74b1, 0xc2ac), (0x8938, 0xb8e8), (0x403e, 0xb3c4), (0x59c3, 0xc815),
  (0x8ecd, 0xad70), (0x684e, 0xc9c8), (0x41d3, 0xc218), (0x9a5a, 0xacbd), (0x4d60, 0xc801),
  (0x69e3, 0xae30), (0x826a, 0xb85c), (0x9bef, 0xc81c), (0x386e, 0xae30), (0x7570, 0xb9ac),
  (0x52f5, 0xb824), (0x83ff, 0xb3c4), (0x5e82, 0xce21), (0x3707, 0xc774), (0x7009, 0xc0ac),
  (0x8f8c, 0xb7c9), (0x4692, 0xb2f9), (0x551b, 0xb9c8), (0x6ea2, 0xc77c), (0x8a25, 0xb20c),
  (0x7d2b, 0xc790), (0x98ae, 0xbc15), (0x53b4, 0xc5fc), (0x653b, 0xacf5), (0x80be, 0xc2e0),
  (0x3ec2, 0xbcd1), (0x7bc4, 0xbc94), (0x9747, 0xb871), (0x4e4d, 0xc0ac), (0x63d4, 0xcd1d),
  (0x5cd6, 0xc548), (0x355b, 0xc6b0), (0x765d, 0xb984), (0x8de0, 0xc774), (0x44e6, 0xc804),
  (0x5b6f, 0xac04), (0x6cf6, 0xd615), (0x8879, 0xae30), (0x437f, 0xd669), (0x3f81, 0xc220),
  (0x5208, 0xc608), (0x6e8b, 0xc601), (0x910a, 0xd5a5), (0x9c97, 0xc989), (0x7a18, 0xae30),
  (0x49a5, 0xd55c), (0x84a7, 0xc810), (0x6228, 0xac00), (0x3eab, 0xad6c), (0x5532, 0xc560),
  (0x71b5, 0xc801), (0x9034, 0xd0c1), (0x7d42, 0xc885), (0x48cf, 0xacf5), (0x87d1, 0xc7a5),
  (0x6552, 0xc2e0), (0x545c, 0xc624), (0x70df, 0xc5f0), (0x935e, 0xac31), (0x9eeb, 0xc548),
  (0x7c6c, 0xb9ac), (0x3572, 0xd65c), (0x4bf9, 0xc12c), (0x86fb, 0xc138), (0x647c, 0xacbd),
  (0x3a03, 0xd1f4), (0x5786, 0xb85c), (0x9288, 0xacc4), (0x6d0d, 0xc0ac), (0x5c17, 0xc219),
  (0x7f96, 0xace0), (0x9b19, 0xc2b9), (0x349c, 0xc5ec), (0x4427, 0xd638), (0x67a6, 0xd638),
  (0x8329, 0xad6c), (0x3d2d, 0xc694), (0x56b0, 0xb9c8), (0x95b2, 0xc5f4), (0x6c37, 0xbe59),
  (0x5f41, 0xac00), (0x7ec0, 0xac10), (0x9a43, 0xd45c), (0x37c6, 0xd654), (0x4751, 0xcda9),
  (0x66d0, 0xc131), (0x8253, 0xc811), (0x3c57, 0xd734), (0x59da, 0xc694), (0x94dc, 0xb3d9),
  (0x6f61, 0xb3c8), (0x5e6b, 0xbc29), (0x41ea, 0xce58), (0x9d6d, 0xae08), (0x36f0, 0xd63c),
  (0x467b, 0xc790), (0x69fa, 0xac15), (0x857d, 0xb18d), (0x3885, 0xb871), (0x5904, 0xcc98),
  (0x7587, 0xc8fc), (0x8a0e, 0xd1a0), (0x4114, 0xad6c), (0x5a99, 0xc704), (0x8ba3, 0xbd80),
  (0x6924, 0xb77c), (0x42a9, 0xbc18), (0x9730, 0xc0b0), (0x4e36, 0xc8fc), (0x6ab9, 0xc758),
  (0x98c5, 0xb958), (0x3944, 0xb989), (0x7646, 0xb85c), (0x4fcb, 0xc74d), (0x80d5, 0xbd80),
  (0x3ad9, 0xbd80), (0x5b58, 0xc874), (0x77db, 0xbaa8), (0x8c62, 0xd658), (0x4368, 0xbc1c),
  (0x5ced, 0xcd08)]

/-- hanja/table.go:5129-5384 -/
def rawTable20 : List (Nat × Nat) := [
  (0x8df7, 0xad50), (0x6b78, 0xadc0), (0x44fd, 0xae30), (0x7e01, 0xc5f0), (0x9984, 0xd63c),
  (0x508a, 0xc6d0), (0x6611, 0xae08), (0x8194, 0xb85d), (0x3b98, 0xbb34), (0x789a, 0xbc30),
  (0x941d, 0xad90), (0x4b23, 0xd758), (0x60aa, 0xc545), (0x5dac, 0xc758), (0x3631, 0xb2f4),
  (0x7333, 0xac00), (0x8eb6, 0xb77c), (0x45bc, 0xac01), (0x5845, 0xb2e8), (0x6dcc, 0xcc3d),
  (0x894f, 0xbc1c), (0x4055, 0xbbfc), (0x9bd8, 0xb1cc), (0x52de, 0xb85c), (0x6865, 0xad50),
  (0x83e8, 0xc811), (0x3dec, 0xb9c9), (0x7aee, 0xbcd1), (0x9671, 0xad6d), (0x4d77, 0xc640),
  (0x62fe, 0xc2b5), (0x6000, 0xbd80), (0x4483, 0xc870), (0x8785, 0xc2e4), (0x7810, 0xc555),
  (0x5c93, 0xae30), (0x9f95, 0xac10), (0x6b9d, 0xc9c4), (0x5020, 0xd734), (0x34a3, 0xc751),
  (0x9322, 0xc804), (0x43ad, 0xc870), (0x86af, 0xad6c), (0x773a, 0xc870), (0x5bbd, 0xad00),
  (0x9ebf, 0xb9c8), (0x6ac7, 0xd30c), (0x4f4a, 0xd53c), (0x924c, 0xd654), (0x42d7, 0xacac),
  (0x85d9, 0xc758), (0x7664, 0xc808), (0x5ae7, 0xcc45), (0x9de9, 0xbcc4), (0x3f6a, 0xc99d),
  (0x69f1, 0xc720), (0x4e74, 0xc124), (0x9176, 0xb9e4), (0x4705, 0xc720), (0x8a07, 0xad49),
  (0x758e, 0xc18c), (0x5f15, 0xc778), (0x3e94, 0xd718), (0x6e1f, 0xc815), (0x4d9e, 0xae30),
  (0x90a0, 0xbe48), (0x3725, 0xb9e4), (0x462f, 0xcd08), (0x8931, 0xd68c), (0x74b8, 0xbe48),
  (0x5e3f, 0xd6c4), (0x3dbe, 0xd45c), (0x6d49, 0xc0ac), (0x4cc8, 0xbcf4), (0x8fca, 0xc7a1),
  (0x364f, 0xbcf5), (0x4559, 0xc808), (0x885b, 0xc704), (0x73e2, 0xc740), (0x5d69, 0xc22d),
  (0x3ce8, 0xcc30), (0x6c73, 0xbcc0), (0x4bf2, 0xd30c), (0x8ef4, 0xc8fc), (0x3579, 0xbc8c),
  (0x8c89, 0xb9e5), (0x730c, 0xc740), (0x578f, 0xb960), (0x8016, 0xcd08), (0x4b1c, 0xb9ac),
  (0x70a1, 0xc815), (0x9826, 0xd574), (0x81ab, 0xb8cc), (0x642e, 0xb960), (0x48b1, 0xb3c5),
  (0x99bb, 0xc724), (0x3b3c, 0xbcf5), (0x7c3e, 0xb834), (0x65c3, 0xc804), (0x8d48, 0xc9c4),
  (0x544e, 0xcc99), (0x38d1, 0xc6a9), (0x7dd3, 0xc601), (0x8add, 0xc11c), (0x7160, 0xc7a1),
  (0x55e3, 0xc0ac), (0x4970, 0xb9f9), (0x6ef5, 0xbc00), (0x967a, 0xd5d8), (0x8503, 0xac15),
  (0x6282, 0xad11), (0x4c09, 0xbc18), (0x3990, 0xb2c8), (0x9d13, 0xba78), (0x7a92, 0xc9c8),
  (0x691b, 0xd654), (0x8b9c, 0xb2f9), (0x52a2, 0xb9e4), (0x3c29, 0xd574), (0x412b, 0xae30),
  (0x8e35, 0xc885), (0x6fb4, 0xd658), (0x593b, 0xd654), (0x47c4, 0xcc45), (0x724d, 0xb3c5),
  (0x94ce, 0xd0c1), (0x5fd4, 0xd758), (0x8357, 0xc220), (0x60d6, 0xcc99), (0x4a5d, 0xd3ec),
  (0x37e4, 0xb85d), (0x9b67, 0xd56d), (0x78e6, 0xd45c), (0x676f, 0xbc30), (0x89f0, 0xb2e4),
  (0x50f6, 0xbbfc), (0x3a7d, 0xae30), (0x7f7f, 0xb3d9), (0x6e08, 0xc81c), (0x528b, 0xcd08),
  (0x918d, 0xc81c), (0x370e, 0xd61c), (0x4618, 0xc18c), (0x851a, 0xc6b8), (0x75a5, 0xac1c),
  (0x5e28, 0xc138), (0x9d2a, 0xc6a9), (0x6932, 0xd718), (0x4db5, 0xc9c0), (0x90b7, 0xc640),
  (0x3638, 0xc88c), (0x4142, 0xd559), (0x8444, 0xc8fc), (0x74cf, 0xb871), (0x5952, 0xac1c),
  (0x3dd5, 0xcd94), (0x9c54, 0xc120), (0x685c, 0xc575), (0x4cdf, 0xba85), (0x93e1, 0xacbd),
  (0x406c, 0xce35), (0x876e, 0xbcf5), (0x77f9, 0xc62c), (0x587c, 0xc804), (0x3cff, 0xc124),
  (0x9f7e, 0xc54c), (0x6b86, 0xd0dc), (0x510d, 0xc0ac), (0x940f, 0xc900), (0x6017, 0xcca9),
  (0x4396, 0xc99d), (0x8698, 0xd68c), (0x7827, 0xce68), (0x5ba6, 0xd658), (0x9ea8, 0xcd08),
  (0x6ab0, 0xba74), (0x5037, 0xb2c8), (0x9739, 0xbcbd), (0x6341, 0xace4), (0x42c0, 0xd638),
  (0x81c2, 0xbe44), (0x7b51, 0xcd95), (0x5ad0, 0xb1e8), (0x99d2, 0xad6c), (0x65da, 0xd45c),
  (0x5361, 0xc7a1), (0x9663, 0xc9c4), (0x626b, 0xc18c), (0x7dea, 0xae0d), (0x80ec, 0xb178),
  (0x7a7b, 0xc6b0), (0x55fa, 0xcd5c), (0x98fc, 0xc0ac), (0x8281, 0xaddc), (0x6504, 0xd130),
  (0x4987, 0xacc4), (0x9a91, 0xae30), (0x3812, 0xd45c), (0x7d14, 0xc21c), (0x6699, 0xcd98),
  (0x8e1e, 0xac70), (0x5524, 0xd658), (0x39a7, 0xcc38), (0x7ea9, 0xad11), (0x8fb3, 0xb18d),
  (0x7236, 0xbd80), (0x56b9, 0xb77c), (0x8340, 0xc21c), (0x4a46, 0xc794), (0x73cb, 0xb958),
  (0x9b50, 0xac10), (0x6758, 0xce58), (0x4bdb, 0xc644), (0x94e5, 0xc8fc), (0x3a66, 0xd734),
  (0x7f68, 0xc5c4), (0x60ed, 0xcc38), (0x8872, 0xb0a9), (0x5778, 0xad6c), (0x3bfb, 0xbcf8),
  (0x78fd, 0xad50), (0x4201, 0xb95c), (0x930b, 0xd33d), (0x6c8a, 0xd0d0), (0x5a11, 0xc0ac),
  (0x449a, 0xc18c), (0x7723, 0xc9c8), (0x95a4, 0xd569), (0x5caa, 0xbd88), (0x802d, 0xae30),
  (0x61ac, 0xacbd), (0x4f33, 0xc124), (0x34ba, 0xb9dd), (0x983d, 0xd1f4), (0x79bc, 0xc124),
  (0x6445, 0xd130), (0x8ac6, 0xae30), (0x51cc, 0xb989), (0x3f53, 0xc0dd), (0x7c55, 0xcd94),
  (0x8d5f, 0xc724), (0x6ede, 0xccb4), (0x5465, 0xc5fc), (0x46ee, 0xad6c), (0x7177, 0xb7c9),
  (0x97f8, 0xbd09), (0x5efe, 0xacf5), (0x6400, 0xcc38), (0x4083, 0xcd08), (0x8385, 0xb9ac),
  (0x7c10, 0xb144), (0x5893, 0xbb18), (0x9b95, 0xace0), (0x6f9d, 0xb155), (0x5420, 0xd3d0),
  (0x9722, 0xb9e5)]

/-- hanja/table.go:5385-5640 -/
def rawTable21 : List (Nat × Nat) := [
  (0x47ad, 0xc900), (0x82af, 0xc2ec), (0x733a, 0xc694), (0x5fbd, 0xd718), (0x9abf, 0xbcc0),
  (0x6ec7, 0xc804), (0x4b4a, 0xc601), (0x37cd, 0xb791), (0x964c, 0xb9e5), (0x46d7, 0xae30),
  (0x81d9, 0xc5f0), (0x7264, 0xb9dd), (0x5ee7, 0xc7a5), (0x99e9, 0xc804), (0x3b6a, 0xbd80),
  (0x6df1, 0xc2ec), (0x4a74, 0xd638), (0x36f7, 0xacc4), (0x9576, 0xc591), (0x4305, 0xb2f9),
  (0x8e07, 0xbb34), (0x718e, 0xc694), (0x5b15, 0xc11d), (0x3a94, 0xc0b0), (0x6a1f, 0xc7a5),
  (0x499e, 0xc724), (0x94a0, 0xb0a9), (0x422f, 0xc9c4), (0x8d31, 0xcc9c), (0x70b8, 0xc791),
  (0x5a3f, 0xc544), (0x39be, 0xc774), (0x6949, 0xc57d), (0x48c8, 0xd56d), (0x8bca, 0xc9c4),
  (0x4159, 0xd63c), (0x8c5b, 0xc5ed), (0x77e2, 0xc2dc), (0x5969, 0xb834), (0x38e8, 0xace0),
  (0x6873, 0xbd84), (0x4ff2, 0xd6a8), (0x8af4, 0xd568), (0x8889, 0xd0c0), (0x770c, 0xd604),
  (0x538f, 0xcc28), (0x8416, 0xc644), (0x4f1c, 0xc26c), (0x74a1, 0xc9c4), (0x9c26, 0xc790),
  (0x85ab, 0xd6c8), (0x602e, 0xc720), (0x4cb1, 0xbc29), (0x9dbb, 0xace8), (0x3f3c, 0xd45c),
  (0x783e, 0xb825), (0x61c3, 0xadfc), (0x8948, 0xc120), (0x504e, 0xc678), (0x3cd1, 0xc77c),
  (0x79d3, 0xc9c0), (0x8edd, 0xae30), (0x7560, 0xc804), (0x51e3, 0xbc94), (0x4d70, 0xc0c1),
  (0x6af5, 0xcd08), (0x927a, 0xc774), (0x8103, 0xcde8), (0x6682, 0xc7a0), (0x4809, 0xd658),
  (0x3d90, 0xc751), (0x9913, 0xc544), (0x7e92, 0xc804), (0x6d1b, 0xb77d), (0x8f9c, 0xace0),
  (0x56a2, 0xb0ad), (0x3829, 0xd669), (0x452b, 0xc18c), (0x8a35, 0xce58), (0x6bb4, 0xad6c),
  (0x5d3b, 0xce58), (0x43c4, 0xc9c8), (0x354b, 0xae08), (0x764d, 0xbc18), (0x90ce, 0xb791),
  (0x5bd4, 0xc2dd), (0x8757, 0xd669), (0x64d6, 0xac08), (0x4e5d, 0xad6c), (0x9f67, 0xc124),
  (0x7ce6, 0xce58), (0x636f, 0xb3c4), (0x8df0, 0xbcc0), (0x54f6, 0xb9c8), (0x3e7d, 0xcc2c),
  (0x7b7f, 0xc18c), (0x6a08, 0xacbd), (0x568b, 0xc8fc), (0x958d, 0xd33d), (0x4218, 0xc790),
  (0x811a, 0xac01), (0x71a5, 0xd1b5), (0x5a28, 0xd55c), (0x992a, 0xb09c), (0x6d32, 0xc8fc),
  (0x49b5, 0xbbf8), (0x94b7, 0xd30c), (0x4542, 0xc6d0), (0x8044, 0xc9c4), (0x70cf, 0xc624),
  (0x5d52, 0xc554), (0x39d5, 0xb958), (0x9854, 0xc548), (0x6c5c, 0xc0ac), (0x48df, 0xc7a0),
  (0x97e1, 0xc704), (0x3562, 0xac1c), (0x446c, 0xb3c4), (0x836e, 0xc870), (0x73f9, 0xc131),
  (0x5c7c, 0xc62c), (0x38ff, 0xc870), (0x9b7e, 0xbe44), (0x6f86, 0xc694), (0x550d, 0xc644),
  (0x348c, 0xacbd), (0x900f, 0xd22c), (0x6417, 0xb3c4), (0x4796, 0xc18d), (0x8298, 0xbe44),
  (0x7c27, 0xd669), (0x5fa6, 0xac00), (0x9aa8, 0xace8), (0x6eb0, 0xae30), (0x5437, 0xd608),
  (0x37b6, 0xbbfc), (0x9339, 0xae0d), (0x6741, 0xc785), (0x46c0, 0xbc18), (0x85c2, 0xcd1d),
  (0x7f51, 0xb9dd), (0x5ed0, 0xad6c), (0x9dd2, 0xb2e8), (0x61da, 0xc740), (0x5761, 0xd30c),
  (0x36e0, 0xd55c), (0x9263, 0xac81), (0x666b, 0xd0c1), (0x79ea, 0xc9c0), (0x84ec, 0xbd09),
  (0x7e7b, 0xc218), (0x51fa, 0xcd9c), (0x9cfc, 0xbb38), (0x8681, 0xc758), (0x6104, 0xc678),
  (0x4d87, 0xc8fc), (0x9e91, 0xc608), (0x3c12, 0xd559), (0x7914, 0xbcbd), (0x6299, 0xbd80),
  (0x8a1e, 0xc694), (0x5124, 0xd3ec), (0x3da7, 0xb208), (0x7aa9, 0xc640), (0x8bb3, 0xd718),
  (0x7636, 0xc218), (0x52b9, 0xd6a8), (0x8740, 0xb3d9), (0x4e46, 0xad6c), (0x77cb, 0xb824),
  (0x9f50, 0xc81c), (0x6358, 0xc900), (0x4fdb, 0xba74), (0x90e5, 0xd328), (0x3e66, 0xcd08),
  (0x7b68, 0xd568), (0x64ed, 0xd654), (0x8c72, 0xc6d0), (0x5378, 0xc0ac), (0x3ffb, 0xac04),
  (0x7cfd, 0xc815), (0x4601, 0xc808), (0x970b, 0xcc98), (0x688a, 0xc81c), (0x5e11, 0xd0d5),
  (0x409a, 0xd6a8), (0x3621, 0xd569), (0x7323, 0xc885), (0x91a4, 0xc7a5), (0x58aa, 0xb3c8),
  (0x842d, 0xc6b0), (0x65ac, 0xcc38), (0x4b33, 0xbc18), (0x9c3d, 0xc218), (0x7dbc, 0xbcbd),
  (0x6045, 0xb85c), (0x8ec6, 0xccb4), (0x55cc, 0xc775), (0x3b53, 0xbcc0), (0x7855, 0xc11d),
  (0x895f, 0xae08), (0x6ade, 0xc5f0), (0x5065, 0xac74), (0x42ee, 0xae08), (0x7577, 0xcca0),
  (0x93f8, 0xd61c), (0x5afe, 0xb828), (0x6800, 0xce58), (0x4c83, 0xcd08), (0x8f85, 0xbcf4),
  (0x7010, 0xcca8), (0x5493, 0xc640), (0x9795, 0xacbd), (0x639d, 0xd639), (0x5820, 0xd6c4),
  (0x3ca3, 0xc218), (0x9b22, 0xbe48), (0x4bad, 0xba71), (0x8eaf, 0xad6c), (0x7f3a, 0xacb0),
  (0x53bd, 0xb8e8), (0x96bf, 0xc775), (0x62c7, 0xbb34), (0x474a, 0xc0bd), (0x3bcd, 0xc7a5),
  (0x9a4c, 0xc219), (0x4ad7, 0xd558), (0x8dd9, 0xc800), (0x7e64, 0xcc2c), (0x52e7, 0xad8c),
  (0x95e9, 0xc0b0), (0x376a, 0xc810), (0x61f1, 0xba78), (0x4674, 0xc120), (0x3af7, 0xae30),
  (0x9976, 0xc694), (0x4f05, 0xb3c8), (0x8207, 0xc5ec), (0x7d8e, 0xc815), (0x5715, 0xc11c),
  (0x3694, 0xb151), (0x661f, 0xc131), (0x459e, 0xc8fc), (0x98a0, 0xc804), (0x3f25, 0xace0),
  (0x4e2f, 0xac1c), (0x8131, 0xd0c8), (0x7cb8, 0xae30), (0x563f, 0xbb35), (0x35be, 0xc545),
  (0x6549, 0xbbf8), (0x44c8, 0xc5ed), (0x87ca, 0xbaa8), (0x3e4f, 0xadfc), (0x4d59, 0xcc28),
  (0x805b, 0xbe44)]

/-- hanja/table.go:5641-5896 -/
def rawTable22 : List (Nat × Nat) := [
  (0x7be2, 0xacf5), (0x5569, 0xad18), (0x34e8, 0xc790), (0x6473, 0xad6c), (0x43f2, 0xc81c),
  (0x86f4, 0xc81c), (0x3d79, 0xb9e5), (0x8489, 0xad34), (0x7b0c, 0xc544), (0x5f8f, 0xcc99),
  (0x8816, 0xd655), (0x431c, 0xc5c5), (0x78a1, 0xb3c5), (0x9026, 0xb9ac), (0x89ab, 0xbc29),
  (0x6c2e, 0xb2f4), (0x40b1, 0xc608), (0x91bb, 0xc218), (0x743e, 0xac1c), (0x6dc3, 0xad8c),
  (0x8548, 0xc2ec), (0x5c4e, 0xc2dc), (0x75d3, 0xce58), (0x82dd, 0xd328), (0x7960, 0xc0ac),
  (0x5de3, 0xc18c), (0x4170, 0xc740), (0x66f5, 0xc608), (0x9e7a, 0xcc28), (0x8d03, 0xc644),
  (0x6a82, 0xb18d), (0x4409, 0xce58), (0x9513, 0xce68), (0x7292, 0xd638), (0x611b, 0xc560),
  (0x839c, 0xc870), (0x5aa2, 0xbaa8), (0x3429, 0xd615), (0x492b, 0xcc38), (0x8635, 0xc9c1),
  (0x67b4, 0xad18), (0x513b, 0xb2f9), (0x4fc4, 0xc544), (0x394b, 0xc758), (0x7a4d, 0xc801),
  (0x9cce, 0xd0d1), (0x57d4, 0xd3ec), (0x8b57, 0xc7a1), (0x68d6, 0xc815), (0x425d, 0xc758),
  (0x3fe4, 0xcd98), (0x9367, 0xad49), (0x70e6, 0xbc88), (0x6f6f, 0xc2ec), (0x81f0, 0xcde8),
  (0x58f6, 0xd638), (0x777f, 0xc608), (0x6608, 0xd638), (0x5a8b, 0xcd98), (0x998d, 0xb9c9),
  (0x3f0e, 0xbc15), (0x4e18, 0xad6c), (0x8d1a, 0xb8e1), (0x7da5, 0xae30), (0x5628, 0xc18c),
  (0x952a, 0xd640), (0x6132, 0xace8), (0x45b5, 0xace4), (0x98b7, 0xd45c), (0x3e38, 0xd6c4),
  (0x4942, 0xbabd), (0x8c44, 0xb3c5), (0x7ccf, 0xc124), (0x5152, 0xc544), (0x35d5, 0xad6c),
  (0x9454, 0xcc30), (0x605c, 0xce59), (0x44df, 0xc8fc), (0x9be1, 0xbe44), (0x3962, 0xcd94),
  (0x486c, 0xb9cc), (0x8f6e, 0xb95c), (0x7ff9, 0xad50), (0x507c, 0xcca9), (0x34ff, 0xce60),
  (0x977e, 0xc608), (0x6386, 0xac15), (0x590d, 0xbcf5), (0x388c, 0xc544), (0x9c0f, 0xbcbd),
  (0x6817, 0xb960), (0x4b96, 0xcc3d), (0x8e98, 0xb8e1), (0x7027, 0xb871), (0x53a6, 0xd558),
  (0x96a8, 0xc218), (0x62b0, 0xc559), (0x5837, 0xc554), (0x3bb6, 0xc0ad), (0x9f39, 0xc5b8),
  (0x6b41, 0xac10), (0x4ac0, 0xac04), (0x89c2, 0xad00), (0x7351, 0xcc38), (0x52d0, 0xb9f9),
  (0x91d2, 0xae08), (0x6dda, 0xb8e8), (0x5b61, 0xd0dc), (0x3ae0, 0xbc18), (0x9e63, 0xacb8),
  (0x6a6b, 0xd6a1), (0x75ea, 0xd0c4), (0x88ec, 0xb989), (0x727b, 0xbc29), (0x5dfa, 0xc190),
  (0x90fc, 0xc758), (0x8a81, 0xbcd1), (0x6d04, 0xd68c), (0x4187, 0xbd09), (0x9291, 0xc120),
  (0x7514, 0xb2f4), (0x6e99, 0xd0dc), (0x861e, 0xb834), (0x5d24, 0xd6a8), (0x76a9, 0xd669),
  (0x87b3, 0xb2f9), (0x7a36, 0xc6b1), (0x5eb9, 0xd0c1), (0x8b40, 0xd568), (0x4246, 0xc870),
  (0x7bcb, 0xd611), (0x9350, 0xc885), (0x6f58, 0xbc18), (0x43db, 0xc21c), (0x9ce5, 0xc870),
  (0x7768, 0xc608), (0x68ed, 0xc5ed), (0x8072, 0xc131), (0x5f78, 0xc1a1), (0x70fd, 0xbd09),
  (0x4a01, 0xbb34), (0x9b0b, 0xc804), (0x648a, 0xd55c), (0x5211, 0xd615), (0x4c9a, 0xb8b0),
  (0x3a21, 0xd640), (0x7f23, 0xacb8), (0x9da4, 0xace4), (0x54aa, 0xbbf8), (0x882d, 0xbd09),
  (0x69ac, 0xc6d0), (0x4733, 0xb454), (0x3cba, 0xc9c8), (0x903d, 0xb0d1), (0x71bc, 0xc775),
  (0x6c45, 0xba74), (0x82c6, 0xc808), (0x59cc, 0xc5fc), (0x3753, 0xd569), (0x7455, 0xd558),
  (0x855f, 0xd3d0), (0x66de, 0xb824), (0x5c65, 0xb9ac), (0x4eee, 0xac00), (0x7977, 0xb3c4),
  (0x56fe, 0xb3c4), (0x6c00, 0xb8e8), (0x4883, 0xc608), (0x8b85, 0xc2ec), (0x7410, 0xc1c4),
  (0x5093, 0xc120), (0x9395, 0xb2f9), (0x679d, 0xc9c0), (0x5c20, 0xc120), (0x38a3, 0xacbd),
  (0x9f22, 0xbd84), (0x4fad, 0xc9c4), (0x8aaf, 0xcc3d), (0x7b3a, 0xc804), (0x57bd, 0xc740),
  (0x92bf, 0xc885), (0x66c7, 0xb2f4), (0x434a, 0xad50), (0x3fcd, 0xac1c), (0x9e4c, 0xc554),
  (0x4ed7, 0xc7a5), (0x89d9, 0xae09), (0x7a64, 0xb098), (0x56e7, 0xacbd), (0x91e9, 0xbc94),
  (0x65f1, 0xd55c), (0x4274, 0xc591), (0x3ef7, 0xadf9), (0x9d76, 0xc544), (0x4b05, 0xd611),
  (0x8607, 0xc18c), (0x798e, 0xc815), (0x5315, 0xbe44), (0x621f, 0xadf9), (0x419e, 0xc694),
  (0x9ca0, 0xacbd), (0x3b25, 0xd3ec), (0x4a2f, 0xc9c4), (0x8531, 0xc0b4), (0x78b8, 0xd48d),
  (0x523f, 0xadc0), (0x6149, 0xd735), (0x40c8, 0xac1c), (0x83ca, 0xad6d), (0x3a4f, 0xbb35),
  (0x4959, 0xc218), (0x845b, 0xac08), (0x7fe2, 0xc6b0), (0x5169, 0xb7c9), (0x6073, 0xac04),
  (0x47f2, 0xcda9), (0x82f4, 0xc800), (0x3979, 0xbd84), (0x8089, 0xc721), (0x7f0c, 0xc2dc),
  (0x5b8f, 0xad49), (0x8c16, 0xd6e4), (0x471c, 0xc608), (0x7ca1, 0xb3d9), (0x9426, 0xac1c),
  (0x8dab, 0xad50), (0x682e, 0xc774), (0x44b1, 0xc99d), (0x95bb, 0xc5fc), (0x373c, 0xc9c8),
  (0x703e, 0xb780), (0x69c3, 0xbc18), (0x8148, 0xc815), (0x584e, 0xc6a9), (0x34d1, 0xd589),
  (0x71d3, 0xbd84), (0x86dd, 0xd55c), (0x7d60, 0xac1c), (0x59e3, 0xad50), (0x4570, 0xbc88),
  (0x62f5, 0xc874), (0x9a7a, 0xcd94), (0x8903, 0xae0d), (0x6e82, 0xc790), (0x4009, 0xad50),
  (0x3590, 0xc704), (0x9113, 0xaca9), (0x7692, 0xc544), (0x651b, 0xcc2c), (0x879c, 0xace1),
  (0x5ea2, 0xc9c8), (0x4d2b, 0xb839), (0x8235, 0xd0c0), (0x63b4, 0xad35), (0x553b, 0xb798),
  (0x4bc4, 0xacfc)]

/-- hanja/table.go:5897-6152 -/
def rawTable23 : List (Nat × Nat) := [
  (0x3d4b, 0xb9e4), (0x7e4d, 0xc218), (0x98ce, 0xd48d), (0x53d4, 0xc219), (0x8f57, 0xac10),
  (0x6cd6, 0xbb18), (0x465d, 0xc124), (0x3be4, 0xb825), (0x9767, 0xd68c), (0x74e6, 0xc640),
  (0x6b6f, 0xce58), (0x85f0, 0xb958), (0x5cf6, 0xb3c4), (0x367d, 0xc11d), (0x737f, 0xb178),
  (0x6208, 0xacfc), (0x5e8b, 0xae30), (0x9d8d, 0xc774), (0x3b0e, 0xd604), (0x4a18, 0xc120),
  (0x891a, 0xc800), (0x79a5, 0xae30), (0x5228, 0xd3ec), (0x912a, 0xbe44), (0x6532, 0xae30),
  (0x41b5, 0xc815), (0x9cb7, 0xc870), (0x3a38, 0xb9d0), (0x4d42, 0xc801), (0x8844, 0xb275),
  (0x78cf, 0xb834), (0x5552, 0xd640), (0x9054, 0xb2ec), (0x645c, 0xad00), (0x40df, 0xc0b0),
  (0x3d62, 0xb8b0), (0x4c6c, 0xc11c), (0x8b6e, 0xd654), (0x7bf9, 0xcc2c), (0x547c, 0xd638),
  (0x937e, 0xc885), (0x6786, 0xbaa8), (0x5d0d, 0xb798), (0x3c8c, 0xb155), (0x980f, 0xd56d),
  (0x6c17, 0xae30), (0x4f96, 0xb95c), (0x8a98, 0xc720), (0xfa23, 0xb450), (0x7427, 0xc545),
  (0x57a6, 0xc740), (0x92a8, 0xc548), (0x66b0, 0xc885), (0x5c37, 0xcd94), (0x3fb6, 0xace8),
  (0x9b39, 0xaddc), (0x6f41, 0xc601), (0x4ec0, 0xc2ed), (0x8dc2, 0xae30), (0x7751, 0xac80),
  (0x56d0, 0xc798), (0x95d2, 0xd0d1), (0x69da, 0xac00), (0x5f61, 0xc0bc), (0x3ee0, 0xb3cc),
  (0x9a63, 0xb4f1), (0x6e6b, 0xcd94), (0x71ea, 0xcd1d), (0x8cec, 0xc7a5), (0x767b, 0xb4f1),
  (0x59fa, 0xc2e0), (0x94fc, 0xb798), (0x8e81, 0xc870), (0x6904, 0xc811), (0x4587, 0xc6b8),
  (0x9691, 0xae30), (0x3412, 0xc878), (0x7114, 0xc5fc), (0x6a99, 0xc815), (0x821e, 0xbb34),
  (0x5924, 0xc778), (0x35a7, 0xd63c), (0x72a9, 0xc704), (0x83b3, 0xc2dc), (0x7e36, 0xc9d1),
  (0x5ab9, 0xb958), (0x8f40, 0xc628), (0x4646, 0xacc4), (0x7fcb, 0xb78d), (0x9750, 0xbe59),
  (0x6b58, 0xd6cc), (0x47db, 0xbc1c), (0x98e5, 0xd0c1), (0x3666, 0xc0ac), (0x7368, 0xb3c5),
  (0x6ced, 0xbd80), (0x8472, 0xcc9c), (0x5b78, 0xd559), (0x37fb, 0xcc38), (0x74fd, 0xb2f9),
  (0x4e01, 0xc815), (0x9f0b, 0xc6d0), (0x608a, 0xcca0), (0x5611, 0xd638), (0x489a, 0xac31),
  (0x3e21, 0xc218), (0x7b23, 0xd3ec), (0x99a4, 0xc560), (0x50aa, 0xcc38), (0x8c2d, 0xb2f4),
  (0x6dac, 0xd589), (0x4333, 0xc2dc), (0x38ba, 0xd604), (0x943d, 0xb2ec), (0x75bc, 0xb3d9),
  (0x6845, 0xc678), (0x86c6, 0xc800), (0x5dcc, 0xc554), (0x7055, 0xb77c), (0x815f, 0xc9c8),
  (0x62de, 0xc800), (0x5865, 0xac1d), (0x4aee, 0xc0bc), (0x7d77, 0xc9d1), (0x9bf8, 0xd6c4),
  (0x52fe, 0xad6c), (0x7000, 0xc6b0), (0x5483, 0xd0c0), (0x9785, 0xc559), (0x3906, 0xd310),
  (0x6810, 0xc601), (0x4c93, 0xc5c4), (0x8f95, 0xc6d0), (0x7b9d, 0xacb8), (0x4020, 0xad6c),
  (0x8322, 0xb82c), (0x53ad, 0xc5fc), (0x96af, 0xb3c4), (0x3830, 0xac08), (0x673a, 0xada4),
  (0x4bbd, 0xd45c), (0x8ebf, 0xac15), (0x7ac7, 0xb450), (0x5f4a, 0xac15), (0x824c, 0xb150),
  (0x52d7, 0xc6b1), (0x95d9, 0xacc4), (0x375a, 0xc5f0), (0x6664, 0xc624), (0x4ae7, 0xace0),
  (0x8de9, 0xc138), (0x79f1, 0xb3d9), (0x5e74, 0xb144), (0x8176, 0xb2e8), (0x5705, 0xd568),
  (0x3684, 0xccb4), (0x9a07, 0xc0ac), (0x658e, 0xc7ac), (0x4f15, 0xbd80), (0x7e1f, 0xc695),
  (0x5d9e, 0xd0c0), (0x80a0, 0xc7a5), (0x562f, 0xc18c), (0x35ae, 0xb95c), (0x9931, 0xd6c4),
  (0x64b8, 0xb85c), (0x4e3f, 0xbcc4), (0x7d49, 0xc220), (0x5cc8, 0xb77d), (0x5559, 0xc790),
  (0x34d8, 0xc219), (0x985b, 0xc804), (0x63e2, 0xac1d), (0x4d69, 0xb840), (0x7c73, 0xbbf8),
  (0x5bf2, 0xc758), (0x9ef4, 0xbbf8), (0x9c89, 0xc720), (0x3e0a, 0xb784), (0x630c, 0xaca9),
  (0x478f, 0xc0ac), (0x9016, 0xc801), (0x5b1c, 0xd760), (0x3f9f, 0xbcf4), (0x60a1, 0xb9ac),
  (0x8826, 0xb85c), (0x91ab, 0xc758), (0x742e, 0xc885), (0x58b1, 0xb4f1), (0x89bb, 0xcc98),
  (0x6c3e, 0xbc94), (0x75c3, 0xd604), (0x9d48, 0xba85), (0x444e, 0xcc38), (0x6dd3, 0xbc29),
  (0x9add, 0xb85c), (0x3c5e, 0xc74d), (0x6160, 0xc624), (0x45e3, 0xac10), (0x5970, 0xbe44),
  (0x3df3, 0xc548), (0x7ef5, 0xba74), (0x867a, 0xd6fc), (0x9503, 0xc815), (0x7282, 0xb9ac),
  (0x5c09, 0xc704), (0x8d13, 0xc7a5), (0x6a92, 0xd48d), (0x3419, 0xb458), (0x791b, 0xac10),
  (0x9b9c, 0xd6c4), (0x42a2, 0xc7a5), (0x512b, 0xd638), (0x3ab2, 0xb451), (0x9e35, 0xd0c0),
  (0x7fb4, 0xc804), (0x493b, 0xd0c0), (0x57c4, 0xbd09), (0x624d, 0xc7ac), (0x84ce, 0xb2f9),
  (0x4fd4, 0xd604), (0x9357, 0xc81c), (0x70d6, 0xc7ac), (0x5a5d, 0xc804), (0x8b67, 0xc7a0),
  (0x68e6, 0xc7c1), (0x776f, 0xd63c), (0x99f0, 0xc778), (0x40f6, 0xad34), (0x6f7f, 0xc704),
  (0x7e08, 0xc601), (0x428b, 0xc7a5), (0x818d, 0xbe44), (0x5618, 0xd5c8), (0x3a9b, 0xce68),
  (0x951a, 0xbb18), (0x65a5, 0xcc99), (0x4e28, 0xace4), (0x8d2a, 0xd0d0), (0x7932, 0xb871),
  (0x5db5, 0xc8c4), (0x80b7, 0xd73c), (0x5142, 0xc7a0), (0x35c5, 0xd638), (0x9444, 0xc8fc),
  (0x64cf, 0xacbd), (0x4952, 0xac15), (0x8c54, 0xc5fc), (0x785c, 0xac31), (0x5cdf, 0xc6b0),
  (0x83e1, 0xd568), (0x506c, 0xcd1d), (0x34ef, 0xb824), (0x976e, 0xc801), (0x67f9, 0xc2dc),
  (0x487c, 0xb839)]

/-- hanja/table.go:6153-6408 -/
def rawTable24 : List (Nat × Nat) := [
  (0x8f7e, 0xc9c0), (0x7b86, 0xbe44), (0x410d, 0xc790), (0x840f, 0xb2f4), (0x7017, 0xd5cc),
  (0x5396, 0xbc29), (0x9698, 0xc560), (0x391d, 0xcda9), (0x6827, 0xc608), (0x4ba6, 0xad50),
  (0x8ea8, 0xae30), (0x7ab0, 0xc694), (0x4037, 0xac81), (0x8739, 0xc608), (0x7341, 0xb9c8),
  (0x52c0, 0xadf9), (0x91c2, 0xc870), (0x3847, 0xcca9), (0x6b51, 0xd638), (0x4ad0, 0xb9bc),
  (0x89d2, 0xac01), (0x75da, 0xd6a8), (0x4361, 0xb85d), (0x8663, 0xd3ec), (0x726b, 0xac00),
  (0x6dea, 0xb95c), (0x90ec, 0xccad), (0x3b71, 0xac11), (0x6a7b, 0xcd94), (0x45fa, 0xc5f0),
  (0x88fc, 0xc11d), (0x9281, 0xade0), (0x7504, 0xacac), (0x5987, 0xbd80), (0x8a91, 0xad11),
  (0x6d14, 0xc9c0), (0x7699, 0xc11d), (0x9e1e, 0xb780), (0x4524, 0xd30c), (0x6ea9, 0xc624),
  (0x3d34, 0xce68), (0x6236, 0xd638), (0x46b9, 0xbe44), (0x9340, 0xb4dd), (0x5a46, 0xd30c),
  (0x3ec9, 0xbcf4), (0x63cb, 0xc678), (0x8b50, 0xc900), (0x7758, 0xacbd), (0x5bdb, 0xad00),
  (0x84e5, 0xd615), (0x6f68, 0xcd1d), (0x70ed, 0xc5f4), (0x9872, 0xb78c), (0x4778, 0xae30),
  (0x68fd, 0xb9bc), (0x5201, 0xc870), (0x3f88, 0xbd80), (0x830b, 0xc800), (0x7c8a, 0xbe44),
  (0x4a11, 0xc81c), (0x549a, 0xb3d9), (0x6723, 0xb3d9), (0x85a4, 0xd574), (0x4caa, 0xd61c),
  (0x902d, 0xd658), (0x71ac, 0xc624), (0x5f33, 0xacbd), (0x883d, 0xc808), (0x69bc, 0xd569),
  (0x3743, 0xba74), (0x7445, 0xc81c), (0x9ac6, 0xbc15), (0x41cc, 0xcd08), (0x6c55, 0xc0b0),
  (0x39dc, 0xc7a1), (0x9d5f, 0xad11), (0x7ede, 0xad50), (0x4465, 0xc555), (0x56ee, 0xc640),
  (0x3c75, 0xbd84), (0x6177, 0xac15), (0x87f8, 0xb824), (0x4efe, 0xc800), (0x7400, 0xd568),
  (0x5083, 0xc18c), (0x9385, 0xacc4), (0x3d06, 0xce68), (0x6c10, 0xc800), (0x4893, 0xc6b0),
  (0x8b95, 0xb780), (0x7f9d, 0xc800), (0x4420, 0xd669), (0x8722, 0xb9f9), (0x57ad, 0xc544),
  (0x92af, 0xc0ac), (0x3c30, 0xd569), (0x633a, 0xc815), (0x4fbd, 0xb0a8), (0x8abf, 0xc870),
  (0x7ec7, 0xc9c1), (0x5b4a, 0xbbf8), (0x864c, 0xbcc4), (0x56d7, 0xad6d), (0x91d9, 0xbc15),
  (0x6264, 0xc62c), (0x4ee7, 0xc7a5), (0x89e9, 0xad6c), (0x7df1, 0xad6c), (0x5a74, 0xc601),
  (0x8576, 0xb839), (0x5305, 0xd3ec), (0x9e07, 0xc804), (0x618e, 0xc99d), (0x4b15, 0xac15),
  (0x7a1f, 0xd488), (0x599e, 0xb274), (0x84a0, 0xc2dd), (0x522f, 0xae0d), (0x9d31, 0xc560),
  (0x60b8, 0xacc4), (0x4a3f, 0xc7a1), (0x7949, 0xc9c0), (0x58c8, 0xb78c), (0x9bca, 0xc0ac),
  (0x5159, 0xc2ed), (0x9c5b, 0xc99d), (0x67e2, 0xc800), (0x4969, 0xbbf8), (0x7873, 0xc801),
  (0x5ff2, 0xd0dc), (0x9af4, 0xbd88), (0x9889, 0xd790), (0x3a0a, 0xd0c0), (0x670c, 0xbc18),
  (0x438f, 0xd568), (0x9416, 0xae30), (0x5f1c, 0xac15), (0x3b9f, 0xb144), (0x64a1, 0xc12c),
  (0x8c26, 0xacb8), (0x95ab, 0xace4), (0x372c, 0xcca8), (0x702e, 0xb9bc), (0x5cb1, 0xb300),
  (0x8dbb, 0xcc38), (0x683e, 0xb780), (0x34c1, 0xba85), (0x71c3, 0xc5f0), (0x9948, 0xc218),
  (0x404e, 0xc815), (0x69d3, 0xacf5), (0x9edd, 0xc720), (0x385e, 0xb8e8), (0x6560, 0xcca0),
  (0x41e3, 0xb151), (0x5d70, 0xacb8), (0x39f3, 0xc7ac), (0x7af5, 0xd654), (0x827a, 0xc608),
  (0x3580, 0xb960), (0x9103, 0xc720), (0x7682, 0xc870), (0x5809, 0xc721), (0x8913, 0xbcf4),
  (0x6e92, 0xc6d0), (0x7d1b, 0xbd84), (0x9f9c, 0xad6c), (0x46a2, 0xcca0), (0x552b, 0xae08),
  (0x3eb2, 0xb274), (0x9a35, 0xc6d0), (0x7bb4, 0xc7a0), (0x4d3b, 0xb9ac), (0x53c4, 0xcc38),
  (0x664d, 0xb3d9), (0x80ce, 0xd0dc), (0x4bd4, 0xcc45), (0x9757, 0xc815), (0x74d6, 0xc591),
  (0x5e5d, 0xcc9c), (0x8f67, 0xc54c), (0x6ce6, 0xad6d), (0x366d, 0xad90), (0x736f, 0xd6c8),
  (0x9df0, 0xc5f0), (0x44f6, 0xb784), (0x6b7f, 0xbab0), (0x7a08, 0xac04), (0x468b, 0xc6b4),
  (0x858d, 0xc644), (0x5218, 0xb958), (0x3e9b, 0xc8fc), (0x911a, 0xb9c9), (0x61a5, 0xb85c),
  (0x4a28, 0xcd94), (0x892a, 0xd1f4), (0x7d32, 0xc124), (0x59b5, 0xc8fc), (0x84b7, 0xc6b4),
  (0x5542, 0xb204), (0x9044, 0xcc9c), (0x60cf, 0xb78c), (0x4d52, 0xb2d0), (0x8854, 0xd568),
  (0x7c5c, 0xd0c1), (0x58df, 0xb871), (0x87e1, 0xc704), (0x546c, 0xd76c), (0x936e, 0xc720),
  (0x63f9, 0xbc30), (0x4c7c, 0xc804), (0x8b7e, 0xc804), (0x7f86, 0xbe44), (0x450d, 0xb9c8),
  (0x800f, 0xb0b4), (0x7417, 0xc26c), (0x5796, 0xd1f4), (0x9298, 0xba85), (0x3d1d, 0xb824),
  (0x6c27, 0xc591), (0x4fa6, 0xc815), (0x8aa8, 0xd68c), (0x7eb0, 0xbe44), (0x4437, 0xb2e8),
  (0x8339, 0xc5ec), (0x7741, 0xc815), (0x56c0, 0xc804), (0x95c2, 0xd56d), (0x3c47, 0xc0c9),
  (0x6f51, 0xbc1c), (0x4ed0, 0xc0b0), (0x8dd2, 0xac00), (0x71da, 0xc77c), (0x4761, 0xb9cc),
  (0x8263, 0xb85c), (0x766b, 0xc804), (0x69ea, 0xac1c), (0x94ec, 0xb77d), (0x3f71, 0xad50),
  (0x6e7b, 0xc21c), (0x41fa, 0xb450), (0x8cfc, 0xad6c), (0x9681, 0xc5b8), (0x3402, 0xce60),
  (0x7104, 0xd6c8), (0x5d87, 0xad6c), (0x8e91, 0xcc99), (0x6914, 0xce58), (0x3597, 0xc74c),
  (0x7299, 0xc0bc), (0x9a1e, 0xd68d), (0x4124, 0xb8b0), (0x6aa9, 0xb984), (0x9bb3, 0xace0),
  (0x3934, 0xcca9)]

/-- hanja/table.go:6409-6664 -/
def rawTable25 : List (Nat × Nat) := [
  (0x6636, 0xcc3d), (0x42b9, 0xc12c), (0x9740, 0xbabd), (0x5e46, 0xac1c), (0x3ac9, 0xc704),
  (0x67cb, 0xb300), (0x8f50, 0xbcf5), (0x3656, 0xc6b0), (0x7358, 0xd3d0), (0x5fdb, 0xbc94),
  (0x80e5, 0xc11c), (0x6b68, 0xbcf4), (0x37eb, 0xcc9c), (0x74ed, 0xb2f4), (0x9c72, 0xb835),
  (0x4378, 0xbc15), (0x6cfd, 0xd0dd), (0x5601, 0xc7a1), (0x3b88, 0xb0b4), (0x870b, 0xb791),
  (0x788a, 0xc804), (0x4e11, 0xcd95), (0x509a, 0xd6a8), (0x6323, 0xc7c1), (0x81a4, 0xc124),
  (0x48aa, 0xad50), (0x942d, 0xc624), (0x75ac, 0xb825), (0x5b33, 0xd655), (0x8c3d, 0xd568),
  (0x6dbc, 0xb7c9), (0x7045, 0xb958), (0x9ec6, 0xad11), (0x45cc, 0xc131), (0x6855, 0xad6c),
  (0x3ddc, 0xd601), (0x995f, 0xc591), (0x7ade, 0xacbd), (0x4065, 0xb2d0), (0x52ee, 0xac70),
  (0x3875, 0xb839), (0x6577, 0xbd80), (0x83f8, 0xc5b4), (0x4afe, 0xd544), (0x7800, 0xd0d5),
  (0x5c83, 0xc778), (0x9f85, 0xd3ec), (0x6010, 0xad6c), (0x4493, 0xac1c), (0x8795, 0xbe44),
  (0x739d, 0xc624), (0x4820, 0xccb4), (0x8b22, 0xd68d), (0x5bad, 0xad70), (0x9eaf, 0xad6d),
  (0x6f3a, 0xc0c1), (0x43bd, 0xbb38), (0x86bf, 0xd604), (0x72c7, 0xbaa9), (0x574a, 0xbc29),
  (0x8a4c, 0xac10), (0x5ad7, 0xad6c), (0x9dd9, 0xc9c0), (0x3f5a, 0xcc99), (0x6e64, 0xc2dc),
  (0x42e7, 0xad6c), (0x85e9, 0xbc88), (0x71f1, 0xc758), (0x5674, 0xbd84), (0x8976, 0xb300),
  (0x5f05, 0xbd84), (0x3e84, 0xc720), (0x9207, 0xbd80), (0x6d8e, 0xc5f0), (0x4715, 0xb9e4),
  (0x761f, 0xc628), (0x559e, 0xc989), (0x88a0, 0xc9c8), (0x5e2f, 0xb300), (0x3dae, 0xc18c),
  (0x9131, 0xd30c), (0x6cb8, 0xbe44), (0x463f, 0xad74), (0x7549, 0xbd80), (0x54c8, 0xd569),
  (0x97ca, 0xb780), (0x5d59, 0xacfc), (0x3cd8, 0xcda9), (0x905b, 0xb958), (0x6be2, 0xc2dc),
  (0x4569, 0xb8cc), (0x7473, 0xcc28), (0x53f2, 0xc0ac), (0x96f4, 0xb9bd), (0x9489, 0xc815),
  (0x360a, 0xc74d), (0x6b0c, 0xc7a5), (0x4f8f, 0xc8fc), (0x9816, 0xbc18), (0x531c, 0xc774),
  (0x379f, 0xc804), (0x68a1, 0xc644), (0x8026, 0xc6b0), (0x99ab, 0xd765), (0x3b2c, 0xad6c),
  (0x7c2e, 0xc7a0), (0x50b1, 0xc885), (0x81bb, 0xc804), (0x643e, 0xcc29), (0x38c1, 0xbe44),
  (0x7dc3, 0xc885), (0x9548, 0xbc15), (0x4c4e, 0xae0d), (0x65d3, 0xc18c), (0x92dd, 0xb82c),
  (0x345e, 0xc789), (0x6960, 0xb0a8), (0x5170, 0xb780), (0x35f3, 0xd0d1), (0x76f5, 0xae30),
  (0x8e7a, 0xad50), (0x3980, 0xbd09), (0x9d03, 0xaca9), (0x7a82, 0xb85c), (0x5409, 0xae38),
  (0x8513, 0xb9cc), (0x6292, 0xc11c), (0x3c19, 0xb098), (0x711b, 0xb9b0), (0x939c, 0xbc18),
  (0x4aa2, 0xc81c), (0x592b, 0xbd80), (0x9635, 0xc9c4), (0x77b4, 0xbb34), (0x413b, 0xb3c4),
  (0x5fc4, 0xc2ec), (0x6a4d, 0xc724), (0x8cce, 0xcc9c), (0x47d4, 0xbd80), (0x9b57, 0xc218),
  (0x78d6, 0xb78d), (0x525d, 0xbc15), (0x8367, 0xd615), (0x60e6, 0xc810), (0x3a6d, 0xd6a8),
  (0x7f6f, 0xc554), (0x91f0, 0xc77c), (0x48f6, 0xad04), (0x677f, 0xd310), (0x7608, 0xacc4),
  (0x4a8b, 0xc720), (0x898d, 0xbcc0), (0x5e18, 0xb834), (0x9d1a, 0xac00), (0x6da5, 0xd615),
  (0x4628, 0xad50), (0x852a, 0xc810), (0x7132, 0xc57c), (0x55b5, 0xbb18), (0x88b7, 0xac81),
  (0x5942, 0xd658), (0x3dc5, 0xcd08), (0x9c44, 0xc804), (0x6ccf, 0xcd9c), (0x4152, 0xb9dd),
  (0x8454, 0xd6c4), (0x705c, 0xc601), (0x54df, 0xc57d), (0x8be1, 0xada4), (0x586c, 0xc6d0),
  (0x3cef, 0xc2e0), (0x9f6e, 0xae30), (0x6ff9, 0xbb35), (0x407c, 0xbb35), (0x877e, 0xc601),
  (0x7386, 0xc790), (0x490d, 0xb9cc), (0x8c0f, 0xac04), (0x7817, 0xcc28), (0x5b96, 0xd6a1),
  (0x9e98, 0xd5a5), (0x6027, 0xc131), (0x43a6, 0xc5fc), (0x86a8, 0xbd80), (0x72b0, 0xad6c),
  (0x4837, 0xc870), (0x8f39, 0xbcf5), (0x7b41, 0xace1), (0x5ac0, 0xc9c4), (0x99c2, 0xbcf4),
  (0x6351, 0xce21), (0x42d0, 0xc6d4), (0x81d2, 0xd655), (0x7dda, 0xc120), (0x4b61, 0xc740),
  (0x8e63, 0xb9cc), (0x7a6b, 0xd655), (0x65ea, 0xd611), (0x98ec, 0xad8c), (0x627b, 0xc790),
  (0x80fc, 0xbcc0), (0x9a81, 0xd6a8), (0x3802, 0xc624), (0x7d04, 0xc57d), (0x5187, 0xbb18),
  (0x8291, 0xae30), (0x6514, 0xb780), (0x3997, 0xae08), (0x7e99, 0xb77c), (0x961e, 0xb975),
  (0x4d24, 0xc0dd), (0x66a9, 0xacc4), (0x97b3, 0xd0d1), (0x3534, 0xc775), (0x6a36, 0xcd5c),
  (0x4eb9, 0xbbf8), (0x9b40, 0xac1c), (0x5246, 0xb77c), (0x36c9, 0xc11c), (0x6bcb, 0xbb34),
  (0x8350, 0xcc9c), (0x3a56, 0xac15), (0x7f58, 0xbd80), (0x53db, 0xbc18), (0x8ce5, 0xc218),
  (0x6768, 0xc591), (0x3beb, 0xac70), (0x78ed, 0xc21c), (0x9072, 0xc9c0), (0x4f78, 0xad04),
  (0x60fd, 0xd63c), (0x5a01, 0xc704), (0x3788, 0xbc1c), (0x8b0b, 0xd68d), (0x748a, 0xbb38),
  (0x4211, 0xacfc), (0x5c9a, 0xb78c), (0x6f23, 0xb828), (0x8da4, 0xd0d5), (0x44aa, 0xbcc0),
  (0x982d, 0xb450), (0x79ac, 0xd68c), (0x5733, 0xc218), (0x803d, 0xd0d0), (0x61bc, 0xacbd),
  (0x3f43, 0xbc18), (0x7c45, 0xc5ec), (0x92c6, 0xc724), (0x49cc, 0xc218), (0x6455, 0xc81c),
  (0x955f, 0xc120), (0x76de, 0xc794), (0x4c65, 0xc81c), (0x5eee, 0xc601), (0x3475, 0xc9c8),
  (0x6977, 0xd574)]

/-- hanja/table.go:6665-6920 -/
def rawTable26 : List (Nat × Nat) := [
  (0x8ff8, 0xbcd1), (0x46fe, 0xc18c), (0x7c00, 0xcc45), (0x5883, 0xacbd), (0x9b85, 0xd544),
  (0x3506, 0xc7a0), (0x6410, 0xd735), (0x4093, 0xaddc), (0x8395, 0xd589), (0x779d, 0xb9ac),
  (0x4c20, 0xc2e0), (0x8f22, 0xc758), (0x5fad, 0xc694), (0x9aaf, 0xd56d), (0x3430, 0xc2e0),
  (0x6b3a, 0xae30), (0x47bd, 0xc0c9), (0x82bf, 0xc789), (0x76c7, 0xd569), (0x534a, 0xbc18),
  (0x8e4c, 0xcc3d), (0x5ed7, 0xb300), (0x99d9, 0xbd80), (0x3b5a, 0xb824), (0x6a64, 0xc608),
  (0x46e7, 0xbbf8), (0x81e9, 0xad11), (0x75f1, 0xbe44), (0x5274, 0xac1c), (0x8d76, 0xac04),
  (0x5b05, 0xd654), (0x3a84, 0xbd88), (0x9607, 0xb3c4), (0x698e, 0xac00), (0x4315, 0xbbf8),
  (0x721f, 0xad00), (0x519e, 0xbbf8), (0x8ca0, 0xbd80), (0x5a2f, 0xc624), (0x39ae, 0xc804),
  (0x9531, 0xce58), (0x68b8, 0xb9ac), (0x423f, 0xba71), (0x7149, 0xb828), (0x50c8, 0xb9cc),
  (0x93ca, 0xc624), (0x5959, 0xbd84), (0x38d8, 0xad6c), (0x945b, 0xad11), (0x6fe2, 0xcde8),
  (0x4169, 0xc9c0), (0x7073, 0xd718), (0x57f2, 0xbd09), (0x92f4, 0xadf9), (0x9089, 0xbcc0),
  (0x6f0c, 0xadfc), (0x4b8f, 0xc624), (0x9c16, 0xd0c0), (0x571c, 0xc6d0), (0x6ca1, 0xbab0),
  (0x8426, 0xc601), (0x9dab, 0xac04), (0x3f2c, 0xd589), (0x782e, 0xb178), (0x54b1, 0xcc30),
  (0x85bb, 0xc870), (0x603e, 0xae30), (0x3cc1, 0xce21), (0x79c3, 0xb3c5), (0x9148, 0xb825),
  (0x484e, 0xb85c), (0x61d3, 0xc560), (0x96dd, 0xc639), (0x6d60, 0xd76c), (0x49e3, 0xc778),
  (0x5570, 0xb77c), (0x72f5, 0xbc29), (0x8a7a, 0xba85), (0x3d80, 0xad50), (0x9903, 0xad50),
  (0x7e82, 0xcc2c), (0x5009, 0xcc3d), (0x8113, 0xb18d), (0x6692, 0xccad), (0x3819, 0xd638),
  (0x751b, 0xcca8), (0x979c, 0xd0d1), (0x4ea2, 0xd56d), (0x5d2b, 0xad74), (0x36b2, 0xcca8),
  (0x9235, 0xbcd1), (0x73b4, 0xc608), (0x453b, 0xb3c8), (0x5bc4, 0xae30), (0x6e4d, 0xb2e8),
  (0x88ce, 0xc815), (0x43d4, 0xb274), (0x9f57, 0xc740), (0x7cd6, 0xb2f9), (0x565d, 0xc0ac),
  (0x8767, 0xc601), (0x64e6, 0xcc30), (0x3e6d, 0xc608), (0x7b6f, 0xc800), (0x95f0, 0xc724),
  (0x4cf6, 0xacc4), (0x637f, 0xc11c), (0x7208, 0xb824), (0x4e8b, 0xc0ac), (0x8d8d, 0xcd94),
  (0x5a18, 0xb0ad), (0x369b, 0xd61c), (0x991a, 0xd6a8), (0x69a5, 0xd669), (0x4228, 0xd55c),
  (0x812a, 0xd754), (0x7532, 0xac11), (0x51b5, 0xd669), (0x8cb7, 0xb9e4), (0x5d42, 0xb960),
  (0x39c5, 0xb3c4), (0x9844, 0xd568), (0x68cf, 0xb4dd), (0x4552, 0xac00), (0x8054, 0xb828),
  (0x745c, 0xc720), (0x50df, 0xae30), (0x8fe1, 0xb2c8), (0x5c6c, 0xc18d), (0x38ef, 0xc124),
  (0x9b6e, 0xbe44), (0x6bf9, 0xc720), (0x447c, 0xcd94), (0x837e, 0xc218), (0x7786, 0xadc0),
  (0x4d0d, 0xc575), (0x880f, 0xd574), (0x7c17, 0xb7c9), (0x5f96, 0xc885), (0x9a98, 0xc990),
  (0x351d, 0xb7c9), (0x6427, 0xc120), (0x47a6, 0xaca9), (0x82a8, 0xae09), (0x76b0, 0xd3ec),
  (0x4c37, 0xbc29), (0x8b39, 0xadfc), (0x7f41, 0xd56d), (0x5ec0, 0xc218), (0x9dc2, 0xc694),
  (0x3447, 0xcd94), (0x6751, 0xcd0c), (0x46d0, 0xc0ac), (0x85d2, 0xac78), (0x79da, 0xbc18),
  (0x4f61, 0xd5cc), (0x8a63, 0xc608), (0x7e6b, 0xacc4), (0x61ea, 0xbc15), (0x9cec, 0xbd80),
  (0x3771, 0xbabd), (0x667b, 0xc554), (0x49fa, 0xc6c5), (0x84fc, 0xb8cc), (0x9e81, 0xcd94),
  (0x3c02, 0xc2ec), (0x7904, 0xad50), (0x5587, 0xb77c), (0x8691, 0xae30), (0x6114, 0xc74c),
  (0x3d97, 0xbc18), (0x7a99, 0xd6a8), (0x921e, 0xade0), (0x4924, 0xac1c), (0x62a9, 0xc5fc),
  (0x93b3, 0xc5bc), (0x6e36, 0xc601), (0x4ab9, 0xbc30), (0x9f40, 0xc62c), (0x5646, 0xcc38),
  (0x6fcb, 0xcd08), (0x8750, 0xbaa8), (0x3e56, 0xd658), (0x7b58, 0xad6c), (0x57db, 0xacbd),
  (0x88e5, 0xac04), (0x6368, 0xc0ac), (0x3feb, 0xbe44), (0x7ced, 0xc885), (0x9472, 0xc591),
  (0x4b78, 0xbd80), (0x64fd, 0xb825), (0x5e01, 0xc7a1), (0x8f0b, 0xc694), (0x708a, 0xcde8),
  (0x4611, 0xb9e5), (0x589a, 0xb7c9), (0x6b23, 0xd754), (0x89a4, 0xd601), (0x40aa, 0xad50),
  (0x9c2d, 0xae30), (0x7dac, 0xc218), (0x5333, 0xb834), (0x843d, 0xb77d), (0x65bc, 0xc5b4),
  (0x3b43, 0xac15), (0x7845, 0xaddc), (0x96c6, 0xc9d1), (0x6055, 0xc11c), (0x35dc, 0xd6c4),
  (0x915f, 0xcca8), (0x72de, 0xc601), (0x4865, 0xc6a9), (0x5aee, 0xd638), (0x6d77, 0xd574),
  (0x8bf8, 0xc81c), (0x42fe, 0xc790), (0x8000, 0xc694), (0x4302, 0xc6b0), (0x6785, 0xacc4),
  (0x368f, 0xd638), (0x9810, 0xc608), (0x5b12, 0xd68c), (0x7f95, 0xc591), (0x8b9d, 0xc12c),
  (0x4e9f, 0xadf9), (0x7322, 0xd638), (0x422c, 0xd3ec), (0x66af, 0xb9c9), (0x35b9, 0xbd84),
  (0x973a, 0xbbf8), (0x5a3c, 0xcc3d), (0x7ebf, 0xc120), (0x8ac7, 0xb2f4), (0x724c, 0xd328),
  (0x4156, 0xc554), (0x65d9, 0xbc88), (0x34e3, 0xac11), (0x9664, 0xc81c), (0x5966, 0xbb34),
  (0x7de9, 0xc644), (0x89f1, 0xd544), (0x4cf3, 0xc220), (0x7176, 0xc2dd), (0x4080, 0xd76c),
  (0x6a07, 0xc218), (0x958e, 0xad49), (0x3911, 0xc6b0), (0x5890, 0xadfc), (0x8e1f, 0xc9c0),
  (0x5121, 0xb8b0), (0x70a0, 0xc555), (0x3faa, 0xc131), (0x6931, 0xbcf5), (0x94b8, 0xd3ec),
  (0x383b, 0xd76c)]

/-- hanja/table.go:6921-7176 -/
def rawTable27 : List (Nat × Nat) := [
  (0x57ba, 0xbd80), (0x8d49, 0xb8b0), (0x504b, 0xbcd1), (0x6fca, 0xc608), (0x3ed4, 0xce74),
  (0x685b, 0xc0c1), (0x93e2, 0xd45c), (0x3765, 0xbbf8), (0x56e4, 0xb3c8), (0x8c73, 0xbe48),
  (0x4f75, 0xbcd1), (0x6ef4, 0xc801), (0x3dfe, 0xac39), (0x4806, 0xc7a5), (0x6c89, 0xce68),
  (0x930c, 0xc548), (0x6016, 0xd3ec), (0x499b, 0xc7c1), (0x90a1, 0xbc29), (0x7826, 0xcc44),
  (0x3d28, 0xc9d0), (0x61ab, 0xbbfc), (0x842e, 0xc720), (0x5538, 0xc810), (0x79bb, 0xb9ac),
  (0x3abd, 0xc18c), (0x9c3e, 0xd45c), (0x85c3, 0xd638), (0x6d48, 0xc815), (0x52cd, 0xacbd),
  (0x9dd3, 0xc790), (0x465a, 0xb1e8), (0x6add, 0xb3c5), (0x9160, 0xac00), (0x5e6a, 0xbabd),
  (0x47ef, 0xad04), (0x8ef5, 0xc6a9), (0x767a, 0xbc1c), (0x3b7c, 0xb2f5), (0x5fff, 0xbd84),
  (0x6503, 0xcc30), (0x8282, 0xc808), (0x538c, 0xc5fc), (0x7d13, 0xc11c), (0x9a92, 0xacfc),
  (0x3e15, 0xd655), (0x891b, 0xb8e8), (0x6b9c, 0xc5fd), (0x5625, 0xc0ac), (0x44ae, 0xbc94),
  (0x6e35, 0xbb18), (0x8fb4, 0xc9c4), (0x5cbe, 0xc810), (0x4b47, 0xc5f4), (0x924d, 0xd544),
  (0x74ce, 0xb784), (0x39d0, 0xc1a1), (0x6357, 0xcc99), (0x80d6, 0xbc18), (0x51e0, 0xada4),
  (0x7b67, 0xacac), (0x98e6, 0xc804), (0x3c69, 0xb3c5), (0x876f, 0xc6d0), (0x69f0, 0xbd09),
  (0x5479, 0xc77c), (0x9f7f, 0xce58), (0x8e08, 0xc18c), (0x4d0a, 0xc758), (0x718d, 0xad81),
  (0x4097, 0xad74), (0x651a, 0xc601), (0x95a5, 0xbc8c), (0x3424, 0xad6c), (0x58a7, 0xac01),
  (0x7d2a, 0xcc98), (0x8932, 0xace0), (0x4c34, 0xae00), (0x70b7, 0xc8fc), (0x43c1, 0xc7ac),
  (0x6444, 0xc12d), (0x94cf, 0xd615), (0x374e, 0xc815), (0x5bd1, 0xce68), (0x7c54, 0xc218),
  (0x885c, 0xb3c4), (0x4f5e, 0xb155), (0x73e1, 0xae08), (0x42eb, 0xc7c1), (0x676e, 0xd3d0),
  (0x97f9, 0xd669), (0x3678, 0xbc15), (0x5afb, 0xd55c), (0x7f7e, 0xc99d), (0x8b86, 0xc704),
  (0x4e88, 0xc5ec), (0x740f, 0xb828), (0x8017, 0xbaa8), (0x4719, 0xc555), (0x6698, 0xc591),
  (0x9827, 0xd1f4), (0x5f29, 0xb178), (0x7ea8, 0xd658), (0x8ab0, 0xc218), (0x49b2, 0xc5fc),
  (0x7739, 0xc9c4), (0x8341, 0xd658), (0x4643, 0xd0c0), (0x61c2, 0xb3d9), (0x9b51, 0xb9ac),
  (0x5e53, 0xc0bc), (0x79d2, 0xcd08), (0x85da, 0xc18d), (0x48dc, 0xcc28), (0x7663, 0xc120),
  (0x826b, 0xb85c), (0x9dea, 0xc575), (0x416d, 0xbc29), (0x60ec, 0xd611), (0x9a7b, 0xc8fc),
  (0x597d, 0xd638), (0x78fc, 0xc7a1), (0x6281, 0xc5f0), (0x8504, 0xb9cc), (0x560e, 0xc54c),
  (0x7a91, 0xc694), (0x3f93, 0xc5f0), (0x9d14, 0xd54d), (0x8699, 0xae08), (0x6e1e, 0xcd94),
  (0x57a3, 0xc6d0), (0x9ea9, 0xbd80), (0x4b30, 0xc18c), (0x6fb3, 0xc624), (0x9236, 0xc0ac),
  (0x6340, 0xbd09), (0x44c5, 0xae30), (0x93cb, 0xb9cc), (0x7b50, 0xad11), (0x3852, 0xc900),
  (0x5cd5, 0xac15), (0x8758, 0xc5b8), (0x5062, 0xcd08), (0x74e5, 0xb840), (0x39e7, 0xc18c),
  (0x9f68, 0xad6c), (0x80ed, 0xc5f0), (0x6872, 0xbc1c), (0x51f7, 0xad34), (0x98fd, 0xd3ec),
  (0x4584, 0xc5f0), (0x730b, 0xd45c), (0x8c8a, 0xb9e5), (0x5d94, 0xae08), (0x481d, 0xd6c8),
  (0x9723, 0xc6b4), (0x75a4, 0xd30c), (0x3aa6, 0xc778), (0x602d, 0xd544), (0x81ac, 0xcde8),
  (0x52b6, 0xad6c), (0x783d, 0xc6a9), (0x99bc, 0xbb38), (0x3d3f, 0xc815), (0x8445, 0xc800),
  (0x6ac6, 0xad34), (0x554f, 0xbb38), (0x9c55, 0xbc88), (0x47d8, 0xd56d), (0x6d5f, 0xc720),
  (0x8ede, 0xbaa8), (0x5fe8, 0xc644), (0x4a71, 0xc720), (0x9177, 0xd639), (0x77f8, 0xc548),
  (0x34fa, 0xac74), (0x8400, 0xd638), (0x4702, 0xace0), (0x6385, 0xccad), (0x9c10, 0xc545),
  (0x5f12, 0xc2dc), (0x7b95, 0xae30), (0x8f9d, 0xc0ac), (0x4a9f, 0xbe44), (0x7722, 0xc6d0),
  (0x462c, 0xc735), (0x62af, 0xc800), (0x933a, 0xbc29), (0x5e3c, 0xad35), (0x7abf, 0xb96d),
  (0x8ec7, 0xb3c4), (0x49c9, 0xb9ac), (0x764c, 0xc554), (0x4556, 0xc190), (0x61d9, 0xc5ec),
  (0x9264, 0xad6c), (0x5d66, 0xc560), (0x79e9, 0xc9c8), (0x8df1, 0xce58), (0x48f3, 0xc0ac),
  (0x7576, 0xb2f9), (0x4480, 0xbd80), (0x6e07, 0xac08), (0x918e, 0xd568), (0x3d11, 0xc18c),
  (0x5c90, 0xae30), (0x8a1f, 0xc1a1), (0x5521, 0xb7c9), (0x74a0, 0xbc88), (0x3baa, 0xacf5),
  (0x6d31, 0xc774), (0x90b8, 0xc800), (0x3c3b, 0xc774), (0x53ba, 0xac70), (0x8949, 0xac04),
  (0x544b, 0xbd80), (0x6bca, 0xd6a8), (0x3ad4, 0xac04), (0x6c5b, 0xc2e0), (0x97e2, 0xd61c),
  (0x52e4, 0xadfc), (0x8873, 0xc885), (0x4b75, 0xbc94), (0x6af4, 0xb8b0), (0x39fe, 0xd640),
  (0x4c06, 0xc720), (0x6889, 0xc7a5), (0x358b, 0xac2f), (0x970c, 0xc8fc), (0x6416, 0xc694),
  (0x4d9b, 0xb784), (0x94a1, 0xd328), (0x7c26, 0xb4f1), (0x3928, 0xacf5), (0x65ab, 0xc791),
  (0x802e, 0xb85c), (0x5138, 0xb77c), (0x7dbb, 0xd0c4), (0x3ebd, 0xbe44), (0x983e, 0xc790),
  (0x81c3, 0xc639), (0x6948, 0xc11c), (0x56cd, 0xd76c), (0x99d3, 0xbe44), (0x425a, 0xb9f9),
  (0x6edd, 0xb871), (0x9560, 0xb958), (0x5a6a, 0xb78c), (0x43ef, 0xc9c0), (0x8af5, 0xb0a8),
  (0x727a, 0xd76c), (0x3f7c, 0xc778), (0x5bff, 0xc218), (0x6103, 0xc120), (0x8682, 0xb9c8),
  (0x578c, 0xb3d9)]

/-- hanja/table.go:7177-7432 -/
def rawTable28 : List (Nat × Nat) := [
  (0x7913, 0xac15), (0x9e92, 0xae30), (0x3a15, 0xc601), (0x8d1b, 0xacf5), (0x6f9c, 0xb780),
  (0x5225, 0xbcc4), (0x40ae, 0xb7b5), (0x6a35, 0xcd08), (0x8bb4, 0xad6c), (0x3737, 0xbbf8),
  (0x58be, 0xac04), (0x4f47, 0xc800), (0x964d, 0xac15), (0x70ce, 0xc74c), (0x3dd0, 0xd6fc),
  (0x6757, 0xb9dd), (0x84d6, 0xbe44), (0x55e0, 0xb77d), (0x7f67, 0xc0bc), (0x9ce6, 0xc744),
  (0x3869, 0xb780), (0x836f, 0xc57d), (0x6df0, 0xc2ec), (0x5079, 0xbe44), (0x9b7f, 0xb839),
  (0x8a08, 0xacc4), (0x490a, 0xc6a9), (0x758d, 0xb2e8), (0x4497, 0xac78), (0x611a, 0xc6b0),
  (0x91a5, 0xd45c), (0x5ca7, 0xcd08), (0x792a, 0xb824), (0x8d32, 0xbd84), (0x4834, 0xce5c),
  (0x74b7, 0xbd80), (0x47c1, 0xcd08), (0x6044, 0xd790), (0x90cf, 0xacb9), (0x5fd1, 0xd2b9),
  (0x7854, 0xd64d), (0x8c5c, 0xacac), (0x4b5e, 0xc5ed), (0x77e1, 0xd655), (0x46eb, 0xc7a5),
  (0x636e, 0xac70), (0x93f9, 0xac15), (0x5efb, 0xd68c), (0x7b7e, 0xcca8), (0x8f86, 0xb7c9),
  (0x4a88, 0xacac), (0x700f, 0xb958), (0xfa13, 0xbd80), (0x8417, 0xcc45), (0x4319, 0xd669),
  (0x6298, 0xc808), (0x35a2, 0xc790), (0x9c27, 0xb4f1), (0x5b29, 0xc5ec), (0x7aa8, 0xc74c),
  (0x8eb0, 0xccb4), (0x4db2, 0xc5fc), (0x7339, 0xc0ac), (0x8741, 0xc545), (0x4243, 0xc7a5),
  (0x65c2, 0xae30), (0x34cc, 0xc7c1), (0x9f51, 0xc81c), (0x5a53, 0xbe44), (0x7dd2, 0xc11c),
  (0x81da, 0xb824), (0x4cdc, 0xb3c4), (0x7263, 0xc778), (0x866b, 0xd6fc), (0x99ea, 0xc2e0),
  (0x456d, 0xc12c), (0x64ec, 0xc758), (0x37f6, 0xc6d0), (0x9e7b, 0xac10), (0x5d7d, 0xccb4),
  (0x7cfc, 0xacf5), (0x6681, 0xd6a8), (0x8104, 0xb9e4), (0x520e, 0xbb38), (0x7e91, 0xb85c),
  (0x3b93, 0xae0d), (0x9914, 0xd3ec), (0x8299, 0xbd80), (0x6a1e, 0xcd94), (0x3720, 0xcd5c),
  (0x53a3, 0xc5fc), (0x9aa9, 0xc704), (0x4f30, 0xace0), (0x6bb3, 0xc218), (0x9636, 0xacc4),
  (0x6740, 0xc0b4), (0x40c5, 0xc81c), (0x97cb, 0xc704), (0x7f50, 0xad00), (0x3c52, 0xac00),
  (0x58d5, 0xd638), (0x8358, 0xc7a5), (0x5462, 0xb2c8), (0x70e5, 0xc2e0), (0x3de7, 0xc6d0),
  (0x9b68, 0xb3c8), (0x84ed, 0xc554), (0x6c72, 0xae09), (0x55f7, 0xc624), (0x9cfd, 0xacac),
  (0x4184, 0xc120), (0x770b, 0xac04), (0x888a, 0xb839), (0x340d, 0xc878), (0x5994, 0xac31),
  (0x4c1d, 0xc99d), (0x9323, 0xcca0), (0x71a4, 0xc775), (0x3ea6, 0xb828), (0x642d, 0xd0d1),
  (0x85ac, 0xc57d), (0x56b6, 0xc575), (0x7c3d, 0xcca8), (0x9dbc, 0xacb8), (0x393f, 0xc5c4),
  (0x8045, 0xcca0), (0x6ec6, 0xaca9), (0x514f, 0xc7a5), (0x9855, 0xd604), (0x43d8, 0xd544),
  (0x695f, 0xc815), (0x8ade, 0xd3b8), (0x3661, 0xc885), (0x5be8, 0xcc44), (0x4e71, 0xb780),
  (0x9577, 0xc7a5), (0x73f8, 0xc624), (0x8800, 0xc790), (0x4b02, 0xc6d4), (0x6f85, 0xd670),
  (0x3e8f, 0xb8e8), (0x9010, 0xcd95), (0x5312, 0xb2f5), (0x7795, 0xc7a5), (0x839d, 0xc88c),
  (0x469f, 0xb300), (0x7b22, 0xbbfc), (0x4a2c, 0xb78c), (0x6eaf, 0xc18c), (0x3db9, 0xd64d),
  (0x9f3a, 0xb8e8), (0x523c, 0xac81), (0x76bf, 0xba85), (0x82c7, 0xc704), (0x45c9, 0xcc3d),
  (0x7a4c, 0xc18c), (0x4956, 0xc804), (0x6dd9, 0xc885), (0x3ce3, 0xb85c), (0x9e64, 0xd559),
  (0x5166, 0xb9dd), (0x75e9, 0xc218), (0x81f1, 0xba74), (0x44f3, 0xd55c), (0x7976, 0xccb4),
  (0x4880, 0xd758), (0x6207, 0xb2f9), (0x9d8e, 0xc885), (0x5090, 0xd638), (0x861f, 0xc740),
  (0x5921, 0xae30), (0x78a0, 0xc815), (0x37aa, 0xb178), (0x6131, 0xc9c8), (0x9cb8, 0xacbd),
  (0x5fba, 0xc694), (0x8549, 0xcd08), (0x584b, 0xc601), (0x67ca, 0xc885), (0x36d4, 0xbd09),
  (0x605b, 0xd68c), (0x9be2, 0xc608), (0x3f65, 0xc720), (0x5ee4, 0xacf3), (0x8473, 0xc704),
  (0x4775, 0xd3ec), (0x66f4, 0xacbd), (0x35fe, 0xd654), (0x4006, 0xc9c4), (0x6489, 0xb3c8),
  (0x398b, 0xcc28), (0x9b0c, 0xcd94), (0x6816, 0xc11c), (0x419b, 0xd0c0), (0x98a1, 0xc0c1),
  (0x7026, 0xc800), (0x3528, 0xbc30), (0x69ab, 0xc21c), (0x8c2e, 0xcc38), (0x5d38, 0xb3c8),
  (0x71bb, 0xd761), (0x943e, 0xd3d0), (0x8dc3, 0xc57d), (0x6548, 0xd6a8), (0x5acd, 0xb3c4),
  (0x95d3, 0xac1c), (0x4e5a, 0xc740), (0x62dd, 0xbc30), (0x9960, 0xb77c), (0x566a, 0xc870),
  (0x4fef, 0xbd80), (0x86f5, 0xd615), (0x7e7a, 0xc624), (0x57ff, 0xb2f4), (0x6d03, 0xd68c),
  (0x8a82, 0xc870), (0x5b8c, 0xc644), (0x7513, 0xbcbd), (0x9292, 0xacac), (0x3615, 0xb78c),
  (0x811b, 0xacbd), (0x639c, 0xc608), (0x5e25, 0xc218), (0x4cae, 0xc6d0), (0x6635, 0xb2d0),
  (0x87b4, 0xc9c4), (0x3b37, 0xace4), (0x54be, 0xb85c), (0x4347, 0xb2f5), (0x9a4d, 0xd6a8),
  (0x7cce, 0xb9ac), (0x6b57, 0xc18c), (0x88d6, 0xc9c4), (0x59e0, 0xd5a5), (0x7367, 0xacac),
  (0x90e6, 0xb825), (0x3469, 0xb77c), (0x8f6f, 0xc5f0), (0x61f0, 0xb958), (0x5c79, 0xd758),
  (0x977f, 0xc694), (0x8608, 0xd1f4), (0x450a, 0xbcd1), (0x798d, 0xd654), (0x4897, 0xace1),
  (0x6d1a, 0xd64d), (0x9da5, 0xbbf8), (0x3c24, 0xd558), (0x50a7, 0xbe48), (0x752a, 0xb85d),
  (0x8132, 0xb1e8), (0x4434, 0xac1c), (0x78b7, 0xc21c), (0x4bc1, 0xb77c), (0x6c44, 0xce21),
  (0x9ccf, 0xd658)]

/-- hanja/table.go:7433-7688 -/
def rawTable29 : List (Nat × Nat) := [
  (0x3f4e, 0xb2f4), (0x53d1, 0xbc1c), (0x7454, 0xc804), (0x805c, 0xc800), (0x475e, 0xd638),
  (0x7be1, 0xcc2c), (0x4aeb, 0xb8e8), (0x6f6e, 0xc870), (0x3e78, 0xbaa8), (0x52fb, 0xade0),
  (0x777e, 0xace0), (0x8386, 0xbcf4), (0x4688, 0xacac), (0x7c0f, 0xb85d), (0x8817, 0xd0c1),
  (0x4f19, 0xd654), (0x6e98, 0xd569), (0x39a2, 0xc808), (0x9027, 0xace1), (0x5729, 0xc6b0),
  (0x76a8, 0xc131), (0x82b0, 0xae30), (0x41b2, 0xac15), (0x7f39, 0xbd80), (0x8b41, 0xd654),
  (0x4e43, 0xb0b4), (0x69c2, 0xc190), (0x38cc, 0xc0bc), (0x9351, 0xbcf5), (0x5653, 0xd5c8),
  (0x71d2, 0xc18c), (0x8dda, 0xc0b0), (0x40dc, 0xc608), (0x7e63, 0xd68d), (0x8a6b, 0xd0c0),
  (0x95ea, 0xc12c), (0x496d, 0xc99d), (0x68ec, 0xad8c), (0x3bf6, 0xc885), (0x927b, 0xb77d),
  (0x517d, 0xc218), (0x70fc, 0xd6cc), (0x6a81, 0xb984), (0x8d04, 0xc9c0), (0x5e0e, 0xb2f4),
  (0x7291, 0xaca9), (0x3793, 0xae30), (0x9514, 0xad6d), (0x8e99, 0xb9b0), (0x661e, 0xbcd1),
  (0x3b20, 0xc1c4), (0x5fa3, 0xcc28), (0x96a9, 0xc624), (0x4330, 0xb151), (0x67b3, 0xc9c0),
  (0x9a36, 0xcd94), (0x6b40, 0xad00), (0x4cc5, 0xc9c0), (0x9bcb, 0xc0ac), (0x7350, 0xc7a5),
  (0x54d5, 0xd670), (0x8f58, 0xd658), (0x5862, 0xc624), (0x7ce5, 0xb098), (0x9768, 0xc5fd),
  (0x88ed, 0xce58), (0x6072, 0xbcd1), (0x59f7, 0xc720), (0x90fd, 0xb3c4), (0x4d84, 0xbcd1),
  (0x7b0b, 0xc21c), (0x848a, 0xacf3), (0x380d, 0xc9d1), (0x5594, 0xc545), (0x401d, 0xbe44),
  (0x9f23, 0xd3d0), (0x7da4, 0xc18c), (0x682d, 0xc774), (0x89ac, 0xae30), (0x5ab6, 0xc6a9),
  (0x703d, 0xac74), (0x91bc, 0xc5f0), (0x353f, 0xc8fc), (0x8c45, 0xb871), (0x62c6, 0xd0c1),
  (0x5d4f, 0xc885), (0x9455, 0xc9c8), (0x4fd8, 0xbd80), (0x655f, 0xc804), (0x86de, 0xd65c),
  (0x3a61, 0xb77c), (0x57e8, 0xb95c), (0x4271, 0xc6b0), (0x9977, 0xd5a5), (0x7ff8, 0xbd84),
  (0x3cfa, 0xc720), (0x8c00, 0xc720), (0x4f02, 0xd328), (0x6b85, 0xc0dd), (0x3a8f, 0xbe44),
  (0x9410, 0xb8cc), (0x5712, 0xc6d0), (0x7395, 0xac04), (0x879d, 0xd68c), (0x429f, 0xbb38),
  (0x7f22, 0xc561), (0x4e2c, 0xc7a5), (0x6aaf, 0xb300), (0x39b9, 0xc591), (0x9b3a, 0xc0c1),
  (0x563c, 0xcd95), (0x72bf, 0xbcc0), (0x86c7, 0xc0ac), (0x41c9, 0xb9bd), (0x7e4c, 0xb9ac),
  (0x4d56, 0xacac), (0x69d9, 0xc804), (0x38e3, 0xc12c), (0x9a64, 0xc591), (0x5566, 0xb78d),
  (0x71e9, 0xaca9), (0x85f1, 0xd68c), (0x40f3, 0xb78d), (0x7d76, 0xc808), (0x4c80, 0xc9c0),
  (0x6607, 0xc2b9), (0x998e, 0xbc15), (0x3511, 0xce60), (0x5490, 0xbd80), (0x821f, 0xc8fc),
  (0x5d21, 0xc7c1), (0x7ca0, 0xd64d), (0x6531, 0xada4), (0x98b8, 0xc2dc), (0x343b, 0xb0b4),
  (0x5bba, 0xd669), (0x8149, 0xac1c), (0x5c4b, 0xc625), (0x63ca, 0xbcbd), (0x645b, 0xb9ac),
  (0x3b65, 0xbd80), (0x5ae4, 0xadfc), (0x8073, 0xc6a9), (0x4375, 0xc7c1), (0x62f4, 0xc804),
  (0x4406, 0xcc44), (0x6089, 0xc2e4), (0x3d8b, 0xc720), (0x9f0c, 0xc870), (0x6c16, 0xb0b4),
  (0x459b, 0xc0ad), (0x9ca1, 0xb824), (0x7426, 0xae30), (0x6dab, 0xad00), (0x882e, 0xc5f4),
  (0x5938, 0xacfc), (0x75bb, 0xc9c0), (0x36bd, 0xad50), (0x903e, 0xc720), (0x89c3, 0xc5c4),
  (0x6148, 0xc790), (0x5ecd, 0xbd80), (0x91d3, 0xad6c), (0x4a5a, 0xc81c), (0x66dd, 0xd3ed),
  (0x9d60, 0xace1), (0x526a, 0xc804), (0x4bef, 0xc0ac), (0x82f5, 0xc9c8), (0x7a7a, 0xacf5),
  (0x377c, 0xc6b0), (0x53ff, 0xd64d), (0x6903, 0xd638), (0x8e82, 0xb2ec), (0x5f8c, 0xd6c4),
  (0x7113, 0xd568), (0x9692, 0xc5c4), (0x851b, 0xace1), (0x679c, 0xacfc), (0x5a25, 0xc544),
  (0x48ae, 0xb8b0), (0x6235, 0xad6c), (0x83b4, 0xc640), (0x3f37, 0xc804), (0x50be, 0xacbd),
  (0x4747, 0xd68c), (0x9e4d, 0xace4), (0x78ce, 0xacc4), (0x35d0, 0xac11), (0x6f57, 0xc9d1),
  (0x8cd6, 0xc0ac), (0x5de0, 0xacbd), (0x7767, 0xd63c), (0x94e6, 0xc12c), (0x8b6f, 0xc5ed),
  (0x65f0, 0xac04), (0x5879, 0xcc38), (0x937f, 0xce58), (0x8208, 0xd765), (0x410a, 0xc9c0),
  (0x7d8d, 0xbc1c), (0x4c97, 0xd568), (0x691a, 0xb975), (0x99a5, 0xbcf5), (0x3824, 0xc591),
  (0x54a7, 0xb82c), (0x712a, 0xad81), (0x8532, 0xad6c), (0x4034, 0xc601), (0x7cb7, 0xad6d),
  (0x4fc1, 0xc6b0), (0x6844, 0xad11), (0x98cf, 0xc591), (0x3b4e, 0xac15), (0x57d1, 0xcca0),
  (0x7054, 0xc5fc), (0x845c, 0xacc4), (0x435e, 0xc5ed), (0x7fe1, 0xbe44), (0x4eeb, 0xbb34),
  (0x6b6e, 0xc0c9), (0x9bf9, 0xc131), (0x3a78, 0xcca9), (0x56fb, 0xad6d), (0x737e, 0xd658),
  (0x8786, 0xc790), (0x4288, 0xb9e4), (0x780f, 0xbd84), (0x8c17, 0xcc38), (0x4b19, 0xc694),
  (0x6a98, 0xbcbd), (0x3da2, 0xad6c), (0x9427, 0xac04), (0x5329, 0xad11), (0x72a8, 0xc8fc),
  (0x86b0, 0xc720), (0x45b2, 0xc21c), (0x7b39, 0xc138), (0x8f41, 0xac10), (0x4a43, 0xc2dc),
  (0x6dc2, 0xb4dd), (0x3ccc, 0xc555), (0x9751, 0xccad), (0x5253, 0xb9ac), (0x75d2, 0xc591),
  (0x89da, 0xace0), (0x44dc, 0xc9c0), (0x7a63, 0xc591), (0x8e6b, 0xade4), (0x91ea, 0xc6b0),
  (0x4d6d, 0xc790), (0x6cec, 0xd608), (0x3ff6, 0xbc29), (0x967b, 0xc778), (0x557d, 0xc554),
  (0x74fc, 0xb9ac)]

/-- hanja/table.go:7689-7944 -/
def rawTable30 : List (Nat × Nat) := [
  (0x6e81, 0xc601), (0x8904, 0xcc98), (0x5a0e, 0xd608), (0x7691, 0xc560), (0x9114, 0xc624),
  (0x8a99, 0xacbd), (0x621e, 0xc54c), (0x3f20, 0xd0c0), (0x5ba3, 0xc120), (0x92a9, 0xc8fc),
  (0x4730, 0xd638), (0x63b3, 0xb85c), (0x9e36, 0xc0ac), (0x6f40, 0xc885), (0x48c5, 0xc2e0),
  (0x7750, 0xb798), (0x3452, 0xcca8), (0x50d5, 0xbcf5), (0x8b58, 0xc2dd), (0x5c62, 0xb8e8),
  (0x78e5, 0xb8b0), (0x35e7, 0xc9c8), (0x9368, 0xaddc), (0x8ced, 0xb3c4), (0x6472, 0xcc38),
  (0x5df7, 0xd56d), (0x94fd, 0xd2b9), (0x4984, 0xb9ac), (0x7f0b, 0xada4), (0x808a, 0xc5b5),
  (0x3c0d, 0xb871), (0x5194, 0xd6c4), (0x441d, 0xc1a8), (0x9b23, 0xb835), (0x79a4, 0xd6e4),
  (0x36a6, 0xd76c), (0x6c2d, 0xb3d9), (0x8dac, 0xad50), (0x5eb6, 0xc11c), (0x743d, 0xb3c4),
  (0x95bc, 0xc54c), (0x8845, 0xd754), (0x66c6, 0xb825), (0x594f, 0xc8fc), (0x9055, 0xc704),
  (0x4bd8, 0xd658), (0x615f, 0xd1b5), (0x82de, 0xd3ec), (0x3e61, 0xd604), (0x53e8, 0xb3c4),
  (0x4671, 0xcd09), (0x9d77, 0xc6d0), (0x7bf8, 0xc7a0), (0x38fa, 0xc2ec), (0x9000, 0xd1f4),
  (0x5302, 0xb0b4), (0x7785, 0xcd94), (0x8810, 0xc81c), (0x4b12, 0xc218), (0x6f95, 0xd654),
  (0x9b9d, 0xc0c1), (0x3a1c, 0xac74), (0x5e9f, 0xd3d0), (0x6322, 0xad50), (0x522c, 0xc794),
  (0x76af, 0xac04), (0x873a, 0xc608), (0x4a3c, 0xd638), (0x6ebf, 0xbc18), (0x9ac7, 0xd6a8),
  (0x3946, 0xd1f4), (0x5dc9, 0xcc38), (0x624c, 0xc218), (0x5156, 0xc5f0), (0x75d9, 0xacbd),
  (0x8664, 0xd604), (0x4966, 0xc218), (0x6de9, 0xb989), (0x99f1, 0xb77d), (0x3870, 0xc6b0),
  (0x5cf3, 0xc720), (0x6176, 0xacbd), (0x5080, 0xad34), (0x7a07, 0xace4), (0x858e, 0xba78),
  (0x4890, 0xc870), (0x379a, 0xce69), (0x9e1f, 0xc870), (0x4121, 0xcca8), (0x60a0, 0xc720),
  (0x7931, 0xb871), (0x84b8, 0xc99d), (0x47ba, 0xcd98), (0x36c4, 0xc758), (0x9d49, 0xb780),
  (0x404b, 0xd611), (0x7fca, 0xc775), (0x785b, 0xc5ed), (0x83e2, 0xd3ec), (0x46e4, 0xcd09),
  (0x35ee, 0xba85), (0x9c73, 0xb825), (0x5f75, 0xd0c0), (0x7ef4, 0xc720), (0x5806, 0xd1f4),
  (0x7c89, 0xbd84), (0x830c, 0xce58), (0x7016, 0xacfd), (0x3518, 0xcd9c), (0x599b, 0xce58),
  (0x80a1, 0xace0), (0x6826, 0xc218), (0x71ab, 0xc790), (0x942e, 0xb834), (0x4538, 0xd45c),
  (0x69bb, 0xd0d1), (0x8c3e, 0xd64d), (0x95c3, 0xaca9), (0x7d48, 0xb9e5), (0x3e4a, 0xc545),
  (0x42cd, 0xc544), (0x8dd3, 0xc8fc), (0x565a, 0xc2ec), (0x7add, 0xbcd1), (0x3fdf, 0xbc31),
  (0x8160, 0xc8fc), (0x4e6a, 0xb0ad), (0x57ef, 0xc554), (0x9ef5, 0xb2f4), (0x667a, 0xc9c0),
  (0x4fff, 0xce58), (0x7503, 0xcd94), (0x9282, 0xc8fc), (0x3605, 0xd568), (0x438c, 0xcd09),
  (0x6d13, 0xc0c9), (0x8a92, 0xd76c), (0x991b, 0xd63c), (0x7b9c, 0xacf5), (0x3c9e, 0xc194),
  (0x4625, 0xac11), (0x54ae, 0xc8fc), (0x7e35, 0xb9cc), (0x4cbe, 0xad50), (0x5b47, 0xc30d),
  (0x824d, 0xac70), (0x64ce, 0xacbd), (0x7357, 0xad90), (0x90d6, 0xb450), (0x3459, 0xc811),
  (0x41e0, 0xc8fc), (0x6b67, 0xae30), (0x88e6, 0xd3ec), (0x976f, 0xb3c4), (0x79f0, 0xce6d),
  (0x3af2, 0xd328), (0x4479, 0xc18c), (0x8f7f, 0xad50), (0x3887, 0xc5b8), (0x9e08, 0xc5c5),
  (0x5d0a, 0xb9bc), (0x618d, 0xad50), (0x5097, 0xcd95), (0x751a, 0xc2ec), (0x85a5, 0xcd09),
  (0x48a7, 0xb8cc), (0x6d2a, 0xd64d), (0x3bb1, 0xc2b9), (0x9932, 0xc560), (0x5c34, 0xcd94),
  (0x60b7, 0xb824), (0x53c1, 0xcc38), (0x7444, 0xc120), (0x84cf, 0xb77c), (0x4bd1, 0xad11),
  (0x6c54, 0xd758), (0x3adb, 0xad11), (0x985c, 0xac15), (0x5f5e, 0xc774), (0x63e1, 0xc545),
  (0x52eb, 0xbc88), (0x776e, 0xc720), (0x87f9, 0xd574), (0x4afb, 0xc728), (0x6f7e, 0xb9b0),
  (0x9b86, 0xc81c), (0x3f09, 0xc9d0), (0x5e88, 0xae08), (0x640f, 0xbc15), (0x9017, 0xb450),
  (0x5719, 0xb7b5), (0x7698, 0xcc9c), (0x8827, 0xb450), (0x4f29, 0xc2e0), (0x6ea8, 0xc7ac),
  (0x9ab0, 0xd22c), (0x3e33, 0xb839), (0x59b2, 0xb2ec), (0x6739, 0xad6c), (0x9341, 0xd754),
  (0x5643, 0xbc88), (0x71c2, 0xcca8), (0x8b51, 0xad50), (0x4e53, 0xd401), (0x69d2, 0xd735),
  (0x95da, 0xaddc), (0x395d, 0xbbf8), (0x58dc, 0xb2f4), (0x6663, 0xc808), (0x926b, 0xac00),
  (0x8dea, 0xada4), (0x516d, 0xb959), (0x70ec, 0xc2e0), (0x8a7b, 0xc561), (0x497d, 0xbc1c),
  (0x68fc, 0xbd84), (0x7281, 0xb9ac), (0x3783, 0xadf9), (0x9504, 0xc11c), (0x460e, 0xb9cc),
  (0x6a91, 0xb8b0), (0x8d14, 0xbe44), (0x9699, 0xadf9), (0x7e1e, 0xd638), (0x47a3, 0xcc28),
  (0x8ea9, 0xacfd), (0x5b30, 0xc601), (0x7fb3, 0xbc88), (0x3cb5, 0xc18c), (0x8236, 0xbc15),
  (0x7340, 0xc218), (0x54c5, 0xd749), (0x83cb, 0xbbf8), (0x6b50, 0xad6c), (0x4cd5, 0xbd80),
  (0x9758, 0xc815), (0x4062, 0xc120), (0x64e5, 0xb78c), (0x8f68, 0xada4), (0x90ed, 0xacfd),
  (0x7872, 0xace1), (0x3d74, 0xc7a5), (0x41f7, 0xbcc4), (0x88fd, 0xc81c), (0x5584, 0xc120),
  (0x630b, 0xc9c4), (0x9c8a, 0xc790), (0x4d94, 0xce58), (0x581d, 0xacfc), (0x8723, 0xac15),
  (0x65a4, 0xadfc), (0x702d, 0xc218), (0x91ac, 0xc7a5), (0x352f, 0xc120), (0x42b6, 0xc9c4),
  (0x683d, 0xc7ac)]

/-- hanja/table.go:7945-8200 -/
def rawTable31 : List (Nat × Nat) := [
  (0x89bc, 0xb77c), (0x9445, 0xd6a1), (0x7ac6, 0xad81), (0x3fc8, 0xc639), (0x454f, 0xc560),
  (0x8c55, 0xc2dc), (0x57d8, 0xc2dc), (0x7d5f, 0xc804), (0x9ede, 0xc810), (0x4fe8, 0xc5c4),
  (0x5a71, 0xd604), (0x8177, 0xd53d), (0x67f8, 0xbc30), (0x9400, 0xada4), (0x5702, 0xd63c),
  (0x7385, 0xbb18), (0x8c10, 0xd574), (0x4f12, 0xadfc), (0x6b95, 0xbd80), (0x9f9d, 0xcd94),
  (0x3e1c, 0xacf5), (0x5a9f, 0xc124), (0x6722, 0xb9dd), (0x562c, 0xcd5c), (0x72af, 0xbc94),
  (0x833a, 0xcda9), (0x4e3c, 0xc815), (0x6abf, 0xc5fc), (0x9ec7, 0xcca8), (0x3d46, 0xd638),
  (0x59c9, 0xc790), (0x664c, 0xc0c1), (0x5556, 0xb2f4), (0x71d9, 0xd0d5), (0x8264, 0xc758),
  (0x4d66, 0xc0ac), (0x69e9, 0xac1c), (0x9df1, 0xace0), (0x3c70, 0xc7ac), (0x58f3, 0xac01),
  (0x6576, 0xc9c4), (0x3501, 0xb4f1), (0x5480, 0xc800), (0x7e07, 0xc120), (0x818e, 0xd574),
  (0x4c90, 0xb85c), (0x9a1f, 0xc720), (0x4521, 0xc5b4), (0x64a0, 0xadf9), (0x342b, 0xd749),
  (0x7d31, 0xbd88), (0x80b8, 0xd790), (0x43ba, 0xc81c), (0x9949, 0xadfc), (0x444b, 0xc591),
  (0x7bca, 0xd64d), (0x7c5b, 0xc804), (0x87e2, 0xd76c), (0x42e4, 0xc57d), (0x9873, 0xc12d),
  (0x5b75, 0xbd80), (0x7af4, 0xc900), (0x5c06, 0xc7a5), (0x7889, 0xc870), (0x870c, 0xd3d0),
  (0x7416, 0xc794), (0x5d9b, 0xb8cc), (0x84a1, 0xbc29), (0x6c26, 0xd574), (0x75ab, 0xc5ed),
  (0x36ad, 0xc6b0), (0x902e, 0xccb4), (0x4138, 0xbc15), (0x6dbb, 0xc0ac), (0x883e, 0xcd09),
  (0x91c3, 0xc2dc), (0x7948, 0xae30), (0x3a4a, 0xc120), (0x46cd, 0xbe44), (0x89d3, 0xad6c),
  (0x525a, 0xc0ac), (0x7edd, 0xc808), (0x3bdf, 0xb85d), (0x8560, 0xc5ec), (0x4a6a, 0xad00),
  (0x376c, 0xd560), (0x53ef, 0xac00), (0x9af5, 0xc774), (0x627a, 0xc9c0), (0x4bff, 0xc878),
  (0x7103, 0xd601), (0x9682, 0xc74c), (0x478c, 0xcca8), (0x6913, 0xd0c1), (0x8e92, 0xb825),
  (0x9d1b, 0xc6d0), (0x7f9c, 0xc800), (0x389e, 0xc775), (0x4225, 0xadfc), (0x50ae, 0xc870),
  (0x7a35, 0xc790), (0x9bb4, 0xd734), (0x48be, 0xc120), (0x35c0, 0xc720), (0x5f47, 0xc18c),
  (0x864d, 0xd638), (0x60ce, 0xae30), (0x7757, 0xc11d), (0x94d6, 0xc131), (0x45e0, 0xc120),
  (0x6f67, 0xc99d), (0x8ce6, 0xbd80), (0x936f, 0xcd1d), (0x7df0, 0xd22c), (0x3ef2, 0xb8e8),
  (0x4079, 0xbe44), (0x8b7f, 0xd61c), (0x3c87, 0xb3d9), (0x9a08, 0xbcd1), (0x590a, 0xc1e0),
  (0x658d, 0xac01), (0x5497, 0xc88c), (0x711a, 0xbd84), (0x81a5, 0xb780), (0x4ca7, 0xb450),
  (0x692a, 0xbcd1), (0x3fb1, 0xd3d0), (0x9d32, 0xc9c0), (0x5834, 0xc7a5), (0x64b7, 0xd790),
  (0x57c1, 0xc7a0), (0x7044, 0xc12d), (0x80cf, 0xc790), (0x4fd1, 0xc6a9), (0x6854, 0xae38),
  (0x3edb, 0xc5ed), (0x9c5c, 0xd5a5), (0x5b5e, 0xc2e0), (0x67e1, 0xc601), (0x56eb, 0xd640),
  (0x736e, 0xc120), (0x83f9, 0xc800), (0x4efb, 0xc784), (0x6b7e, 0xbab0), (0x9f86, 0xcd08),
  (0x3b09, 0xb09c), (0x5a88, 0xd718), (0x600f, 0xc559), (0x9417, 0xac04), (0x5319, 0xc2dc),
  (0x7298, 0xb9c8), (0x8c27, 0xbc00), (0x4b29, 0xc7ac), (0x6aa8, 0xc591), (0x9eb0, 0xbaa8),
  (0x3a33, 0xae30), (0x5db2, 0xc218), (0x6339, 0xc74d), (0x9741, 0xb8b0), (0x5243, 0xccb4),
  (0x75c2, 0xac00), (0x8f51, 0xb8cc), (0x4a53, 0xae30), (0x6dd2, 0xcc98), (0x91da, 0xad6c),
  (0x3d5d, 0xc608), (0x5cdc, 0xacc4), (0x6263, 0xad6c), (0x966b, 0xbe44), (0x89ea, 0xc131),
  (0x556d, 0xc804), (0x74ec, 0xbc29), (0x8e7b, 0xad50), (0x4d7d, 0xc7a1), (0x6cfc, 0xbc1c),
  (0x7681, 0xc870), (0x9104, 0xacac), (0x420e, 0xc5fd), (0x6e91, 0xc1c4), (0x8914, 0xbd80),
  (0x9299, 0xacfc), (0x7a1e, 0xacfc), (0x43a3, 0xc0ac), (0x8aa9, 0xacbd), (0x5f30, 0xc18c),
  (0x7bb3, 0xbcd1), (0x38b5, 0xd611), (0x8636, 0xc704), (0x7740, 0xcc29), (0x3442, 0xbc29),
  (0x50c5, 0xadfc), (0x87cb, 0xc2e4), (0x6f50, 0xcd08), (0x48d5, 0xb9c8), (0x35d7, 0xd328),
  (0x9358, 0xcc30), (0x4462, 0xc62c), (0x60e5, 0xc218), (0x8b68, 0xb204), (0x94ed, 0xba85),
  (0x7c72, 0xc720), (0x3974, 0xc774), (0x45f7, 0xc5b5), (0x8cfd, 0xc0c8), (0x5184, 0xc5fc),
  (0x670b, 0xbd95), (0x988a, 0xd611), (0x4994, 0xb2e8), (0x3696, 0xace0), (0x5c1d, 0xc0c1),
  (0x8323, 0xc624), (0x61a4, 0xbd84), (0x742d, 0xb85d), (0x95ac, 0xb791), (0x46b6, 0xcc9c),
  (0x6c3d, 0xd0c4), (0x8dbc, 0xacac), (0x9045, 0xc9c0), (0x7ec6, 0xc138), (0x3bc8, 0xc18d),
  (0x414f, 0xbbf8), (0x8855, 0xb3d9), (0x53d8, 0xbcc0), (0x795f, 0xc218), (0x9ade, 0xc870),
  (0x4be8, 0xace0), (0x5e71, 0xb780), (0x8577, 0xc5ec), (0x63f8, 0xc0ac), (0x9800, 0xd638),
  (0x5b02, 0xc9c1), (0x7f85, 0xb77c), (0x8010, 0xb0b4), (0x4312, 0xb85d), (0x6795, 0xce68),
  (0x939d, 0xc0bd), (0x569f, 0xb9ac), (0x6b22, 0xd658), (0x5a2c, 0xbb34), (0x7eaf, 0xc21c),
  (0x8f3a, 0xce58), (0x423c, 0xba78), (0x66bf, 0xd76c), (0x92c7, 0xd328), (0x55c9, 0xc18c),
  (0x6a4c, 0xd55c), (0x5956, 0xc7a5), (0x7dd9, 0xaca9), (0x8e64, 0xc885), (0x4166, 0xbb18),
  (0x65e9, 0xc870), (0x91f1, 0xccb4), (0x54f3, 0xcc30), (0x6976, 0xc808), (0x3901, 0xcca8),
  (0x5880, 0xc9c0)]

/-- hanja/table.go:8201-8456 -/
def rawTable32 : List (Nat × Nat) := [
  (0x7207, 0xc124), (0x8d8e, 0xc8fc), (0x4090, 0xc878), (0x3f9a, 0xc0ac), (0x961f, 0xb300),
  (0x4921, 0xc5fc), (0x68a0, 0xb824), (0x382b, 0xbd80), (0x7131, 0xd601), (0x8cb8, 0xb300),
  (0x4fba, 0xc2ec), (0x3ec4, 0xbcf4), (0x9549, 0xb825), (0x484b, 0xae30), (0x77ca, 0xba74),
  (0x705b, 0xcc9c), (0x8be2, 0xc21c), (0x4ee4, 0xb839), (0x3dee, 0xc870), (0x9473, 0xac74),
  (0x5775, 0xad6c), (0x76f4, 0xc9c1), (0x5006, 0xb7c9), (0x7489, 0xb828), (0x8b0c, 0xac00),
  (0x7816, 0xc804), (0x3d18, 0xbaa8), (0x519b, 0xad70), (0x88a1, 0xc5fc), (0x6026, 0xd3c9),
  (0x79ab, 0xb2f4), (0x3aad, 0xb85c), (0x9c2e, 0xc628), (0x4d38, 0xbd80), (0x61bb, 0xd0c4),
  (0x843e, 0xc601), (0x9dc3, 0xc548), (0x7548, 0xd310), (0x364a, 0xc7a5), (0x4acd, 0xbd80),
  (0x85d3, 0xc120), (0x5e5a, 0xbc29), (0x72dd, 0xc120), (0x37df, 0xd56d), (0x8960, 0xb2f9),
  (0x466a, 0xbc18), (0x3b6c, 0xc800), (0x5fef, 0xc9c0), (0x96f5, 0xc559), (0x6e7a, 0xbcf4),
  (0x47ff, 0xb85d), (0x7d03, 0xc21c), (0x9a82, 0xb9e4), (0x3e05, 0xc808), (0x4b8c, 0xd734),
  (0x6513, 0xac74), (0x8292, 0xb9dd), (0x911b, 0xc18c), (0x739c, 0xac15), (0x349e, 0xc900),
  (0x4e25, 0xc5c4), (0x5cae, 0xd0c0), (0x7635, 0xcc44), (0x97b4, 0xbe44), (0x44be, 0xc758),
  (0x39c0, 0xae09), (0x5347, 0xc2b9), (0x8a4d, 0xc608), (0x6cce, 0xc0c9), (0x7b57, 0xc911),
  (0x98d6, 0xc694), (0x3c59, 0xd6c4), (0x49e0, 0xc804), (0x6367, 0xbd09), (0x80e6, 0xc559),
  (0x9f6f, 0xc608), (0x71f0, 0xc560), (0x4c79, 0xcc28), (0x877f, 0xc2b9), (0x9608, 0xc5ed),
  (0x550a, 0xacb9), (0x698d, 0xc124), (0x5897, 0xc99d), (0x7d1a, 0xae09), (0x8da5, 0xcd94),
  (0x40a7, 0xc9c4), (0x652a, 0xad50), (0x9132, 0xb2e8), (0x5434, 0xc624), (0x68b7, 0xc815),
  (0x5bc1, 0xc7a0), (0x7c44, 0xada4), (0x8ccf, 0xc601), (0x43d1, 0xc790), (0x6454, 0xc194),
  (0x905c, 0xc190), (0x575e, 0xc624), (0x6be1, 0xc804), (0x5aeb, 0xbaa8), (0x7f6e, 0xce58),
  (0x8ff9, 0xc801), (0x42fb, 0xb2d8), (0x677e, 0xc1a1), (0x9386, 0xc804), (0x3709, 0xc639),
  (0x5688, 0xc5fd), (0x6c0f, 0xc528), (0x9817, 0xd30c), (0x5f19, 0xc624), (0x7e98, 0xcc2c),
  (0x8027, 0xb8e8), (0x4729, 0xc5f0), (0x66a8, 0xae30), (0x92b0, 0xc560), (0x3633, 0xad6c),
  (0x51b2, 0xcda9), (0x6f39, 0xc5b8), (0x9b41, 0xad34), (0x5e43, 0xc704), (0x79c2, 0xc778),
  (0x8351, 0xc774), (0x4653, 0xd53c), (0x61d2, 0xb77c), (0x9dda, 0xb958), (0x50dc, 0xb4f1),
  (0x6e63, 0xbbfc), (0x9a6b, 0xd45c), (0x85ea, 0xc218), (0x596d, 0xc11d), (0x78ec, 0xacbd),
  (0x827b, 0xb975), (0x417d, 0xd615), (0x60fc, 0xd3b8), (0x7a81, 0xb3cc), (0x3f83, 0xd0c0),
  (0x9d04, 0xd544), (0x4e0e, 0xc5ec), (0x6291, 0xc5b5), (0x8514, 0xbcf5), (0x9e99, 0xc554),
  (0x761e, 0xc608), (0x4fa3, 0xb824), (0x86a9, 0xce58), (0x5330, 0xb2e8), (0x77b3, 0xb3d9),
  (0x34b5, 0xbaa8), (0x8a36, 0xac00), (0x7b40, 0xacc4), (0x3842, 0xb840), (0x5cc5, 0xbcc0),
  (0x8bcb, 0xc800), (0x6350, 0xc5f0), (0x44d5, 0xc6d0), (0x39d7, 0xc790), (0x9f58, 0xacc4),
  (0x4862, 0xd3b8), (0x6ce5, 0xb2c8), (0x8768, 0xc2ac), (0x98ed, 0xce59), (0x7072, 0xd6a8),
  (0x3574, 0xce68), (0x49f7, 0xc720), (0x80fd, 0xb2a5), (0x5d84, 0xcc38), (0x6b0b, 0xad6c),
  (0x948a, 0xc1e0), (0x4594, 0xd568), (0x3a96, 0xb85d), (0x501d, 0xac04), (0x8f23, 0xd33d),
  (0x6da4, 0xcc99), (0x782d, 0xd3c4), (0x99ac, 0xb9c8), (0x3d2f, 0xc9c0), (0x4ab6, 0xc800),
  (0x603d, 0xb9d0), (0x81bc, 0xacfc), (0x9c45, 0xc6a9), (0x72c6, 0xc911), (0x37c8, 0xad6c),
  (0x4d4f, 0xb85c), (0x8455, 0xc5f0), (0x5fd8, 0xb9dd), (0x755f, 0xce21), (0x96de, 0xacc4),
  (0x47e8, 0xbbfc), (0x5271, 0xac80), (0x8977, 0xac70), (0x6ff8, 0xcc3d), (0x9c00, 0xd658),
  (0x5f02, 0xc774), (0x7b85, 0xd3d0), (0x8410, 0xc0bd), (0x4712, 0xc624), (0x6395, 0xb989),
  (0x979d, 0xc7a5), (0x361c, 0xc218), (0x529f, 0xacf5), (0x6f22, 0xd55c), (0x5e2c, 0xad70),
  (0x7aaf, 0xc694), (0x8b3a, 0xc9d1), (0x463c, 0xc6d0), (0x62bf, 0xbbfc), (0x96c7, 0xace0),
  (0x3546, 0xd638), (0x51c9, 0xb7c9), (0x6e4c, 0xcc2c), (0x5d56, 0xc0ac), (0x79d9, 0xace0),
  (0x8a64, 0xd669), (0x4566, 0xc601), (0x61e9, 0xc591), (0x95f1, 0xc704), (0x3470, 0xd6fc),
  (0x50f3, 0xc18d), (0x6d76, 0xb85c), (0x3d01, 0xc5ed), (0x5c80, 0xcd9c), (0x7607, 0xc885),
  (0x898e, 0xc5c4), (0x4490, 0xbabd), (0x3b9a, 0xb960), (0x921f, 0xc870), (0x4d21, 0xb824),
  (0x6ca0, 0xc870), (0x3c2b, 0xcc38), (0x7531, 0xc720), (0x88b8, 0xc874), (0x4bba, 0xc81c),
  (0x3ac4, 0xbc29), (0x9149, 0xc720), (0x4c4b, 0xacf5), (0x73ca, 0xc0b0), (0x745b, 0xc601),
  (0x8fe2, 0xcd08), (0x4ae4, 0xba85), (0x39ee, 0xd640), (0x9073, 0xc88c), (0x5375, 0xb780),
  (0x72f4, 0xd3d0), (0x5406, 0xc694), (0x7089, 0xb85c), (0x8f0c, 0xb7c9), (0x7c16, 0xb2e8),
  (0x3918, 0xcd08), (0x559b, 0xd658), (0x8ca1, 0xc7ac), (0x6426, 0xb2c9), (0x7dab, 0xc120),
  (0x3ead, 0xc790), (0x982e, 0xd68c), (0x4938, 0xcd1d), (0x65bb, 0xd56d), (0x803e, 0xad49),
  (0x99c3, 0xacb0)]

/-- hanja/table.go:8457-8712 -/
def rawTable33 : List (Nat × Nat) := [
  (0x7148, 0xd48d), (0x4ecd, 0xc789), (0x81d3, 0xc7a5), (0x5a5a, 0xd63c), (0x76dd, 0xb85d),
  (0x8d60, 0xc99d), (0x426a, 0xb8b0), (0x3f6c, 0xbd80), (0x5bef, 0xc900), (0x92f5, 0xb3c5),
  (0x6a7a, 0xd55c), (0x43ff, 0xacc4), (0x7903, 0xc7a5), (0x9e82, 0xada4), (0x3a05, 0xc608),
  (0x4f8c, 0xc74c), (0x6113, 0xc0c1), (0x8692, 0xb3d9), (0x951b, 0xbd84), (0x779c, 0xb8e8),
  (0x4a25, 0xd655), (0x58ae, 0xd0c0), (0x7235, 0xc791), (0x93b4, 0xc2dd), (0x40be, 0xb798),
  (0x3dc0, 0xacbd), (0x5747, 0xade0), (0x8e4d, 0xc804), (0x68ce, 0xc12c), (0x7f57, 0xb77c),
  (0x9cd6, 0xbcc4), (0x3859, 0xbe44), (0x6767, 0xb9dd), (0x84e6, 0xb9e5), (0x9b6f, 0xb85c),
  (0x75f0, 0xb2f4), (0x36f2, 0xbc1c), (0x4879, 0xc9c0), (0x837f, 0xc131), (0x3487, 0xbb34),
  (0x9208, 0xbe44), (0x510a, 0xcd08), (0x6d8d, 0xd6a8), (0x5c97, 0xac15), (0x791a, 0xac1c),
  (0x89a5, 0xc804), (0x44a7, 0xac70), (0x612a, 0xc6b4), (0x37b1, 0xcd1d), (0x9532, 0xacc4),
  (0x5034, 0xbd84), (0x6cb7, 0xbc1c), (0x5fc1, 0xd3ec), (0x7844, 0xad11), (0x88cf, 0xb9ac),
  (0x47d1, 0xc57d), (0x6054, 0xad50), (0x36db, 0xc2e0), (0x945c, 0xc0c1), (0x535e, 0xbcc0),
  (0x6fe1, 0xc720), (0x5eeb, 0xb8cc), (0x7b6e, 0xc11c), (0x8bf9, 0xcd94), (0x46fb, 0xc720),
  (0x637e, 0xc54c), (0x9786, 0xbcd1), (0x5288, 0xbcbd), (0x680f, 0xb780), (0x9c17, 0xd638),
  (0x5b19, 0xc7a5), (0x7a98, 0xad70), (0x8427, 0xc18c), (0x4329, 0xba78), (0x62a8, 0xd3c9),
  (0x96b0, 0xc2b5), (0x55b2, 0xc57d), (0x6b39, 0xc758), (0x9f41, 0xd6c4), (0x5a43, 0xc885),
  (0x7dc2, 0xb2f4), (0x8751, 0xc11c), (0x4253, 0xb77c), (0x65d2, 0xb958), (0x99da, 0xc559),
  (0x355d, 0xace0), (0x54dc, 0xc81c), (0x6a63, 0xb155), (0x9e6b, 0xcde8), (0x81ea, 0xc790),
  (0x5d6d, 0xd33d), (0x7cec, 0xc11c), (0x867b, 0xb9f9), (0x457d, 0xcd09), (0x64fc, 0xb85c),
  (0x7e81, 0xd6c8), (0x3b83, 0xc704), (0x9904, 0xd611), (0x4a0e, 0xd64d), (0x6691, 0xc11c),
  (0x8114, 0xb828), (0x9a99, 0xc885), (0x721e, 0xcda9), (0x4ba3, 0xc0c1), (0x82a9, 0xae08),
  (0x5730, 0xc9c0), (0x73b3, 0xb300), (0x8e36, 0xc81c), (0x7f40, 0xc870), (0x3c42, 0xac15),
  (0x58c5, 0xc639), (0x8fcb, 0xad11), (0x6750, 0xc7ac), (0x40d5, 0xb85c), (0x3dd7, 0xd76c),
  (0x9b58, 0xc5fc), (0x4c62, 0xc7c1), (0x68e5, 0xbc88), (0x8368, 0xb2f4), (0x9ced, 0xb3c4),
  (0x7472, 0xcc3d), (0x84fd, 0xd544), (0x5984, 0xb9dd), (0x6f0b, 0xc735), (0x908a, 0xbcc0),
  (0x4194, 0xcda9), (0x3e96, 0xd568), (0x541d, 0xb9b0), (0x8b23, 0xc6b0), (0x69a4, 0xac78),
  (0x7c2d, 0xc11c), (0x9dac, 0xcc3d), (0x392f, 0xacbd), (0x4eb6, 0xb2e8), (0x643d, 0xcc28),
  (0x85bc, 0xc9c4), (0x9845, 0xac04), (0x76c6, 0xbd84), (0x494f, 0xc5b4), (0x8055, 0xd638),
  (0x5bd8, 0xce58), (0x715f, 0xc704), (0x92de, 0xd615), (0x43e8, 0xd1f4), (0x5671, 0xac39),
  (0x8d77, 0xae30), (0x6bf8, 0xc2dc), (0x8483, 0xc804), (0x6302, 0xad18), (0x4785, 0xc774),
  (0x9c93, 0xace0), (0x7b12, 0xae08), (0x5f95, 0xb798), (0x6e9f, 0xba85), (0x9020, 0xc870),
  (0x5322, 0xd640), (0x3da9, 0xce68), (0x83ad, 0xc989), (0x622c, 0xc804), (0x46af, 0xd604),
  (0x9bbd, 0xc5ec), (0x7a3c, 0xac00), (0x5ebf, 0xbb18), (0x6dc9, 0xacfc), (0x8f4a, 0xc138),
  (0x524c, 0xb784), (0x3cd3, 0xc6b0), (0x82d7, 0xbb18), (0x6156, 0xad35), (0x45d9, 0xd55c),
  (0x9ae7, 0xb2f4), (0x7966, 0xc624), (0x5de9, 0xacf5), (0x6cf3, 0xc601), (0x8e74, 0xcd95),
  (0x5176, 0xae30), (0x3bfd, 0xbe48), (0x6080, 0xc6a9), (0x8705, 0xd3ec), (0x4a07, 0xc30d),
  (0x7890, 0xb989), (0x9f15, 0xb3d9), (0x8d9e, 0xc791), (0x7121, 0xbb34), (0x50a0, 0xbc8c),
  (0x862f, 0xd0d5), (0x4931, 0xc11c), (0x77ba, 0xd68c), (0x9e3f, 0xd64d), (0x8cc8, 0xac00),
  (0x704b, 0xbc95), (0x4fca, 0xc900), (0x3f55, 0xc720), (0x8559, 0xd61c), (0x485b, 0xc5ed),
  (0x76e4, 0xbc18), (0x9d69, 0xbcf5), (0x8bf2, 0xd68c), (0x6f75, 0xc0b0), (0x4ef4, 0xc6d4),
  (0x3e7f, 0xd0c1), (0x6806, 0xc870), (0x4c89, 0xc0ac), (0x978f, 0xacf5), (0x4016, 0xcc9c),
  (0x699b, 0xc9c4), (0x8b1c, 0xc6d0), (0x5826, 0xacc4), (0x41ab, 0xcc3d), (0x88b1, 0xbcf5),
  (0x7538, 0xc804), (0x59bb, 0xcc98), (0x363a, 0xbc8c), (0x4d48, 0xace1), (0x72cd, 0xd3ec),
  (0x37cf, 0xd568), (0x944e, 0xada4), (0x665a, 0xb9cc), (0x4add, 0xbcf5), (0x95e3, 0xb2f9),
  (0x7e6a, 0xd68c), (0x67ef, 0xac00), (0x8970, 0xb8b0), (0x567a, 0xc2e0), (0x7fff, 0xb3c4),
  (0x4503, 0xc870), (0x8c09, 0xc2ec), (0x738c, 0xaddc), (0x348e, 0xc0bd), (0x5d13, 0xace0),
  (0x4b9c, 0xc0bd), (0x92a2, 0xbcbd), (0x7625, 0xcc44), (0x3b27, 0xd3ec), (0x812b, 0xd0c8),
  (0x64ae, 0xcd2c), (0x4e35, 0xcc29), (0x993b, 0xace0), (0x7cbe, 0xc815), (0x87c4, 0xce69),
  (0x6b47, 0xd5d0), (0x54ce, 0xc560), (0x4357, 0xd604), (0x8a5d, 0xc800), (0x71e0, 0xc6b1),
  (0x5b67, 0xc720), (0x49f0, 0xd63c), (0x90f6, 0xbd80), (0x7479, 0xc11c), (0x397b, 0xcc99),
  (0x928b, 0xc784), (0x6d0a, 0xcc9c), (0x518d, 0xc7ac), (0x3c14, 0xc12d), (0x6097, 0xbb38),
  (0x8618, 0xc591)]

/-- hanja/table.go:8713-8968 -/
def rawTable34 : List (Nat × Nat) := [
  (0x451a, 0xc21c), (0x78a7, 0xbcbd), (0x9e28, 0xbcf4), (0x5d2a, 0xc904), (0x8db5, 0xbc15),
  (0x6c34, 0xc218), (0x50b7, 0xc0c1), (0x3f3e, 0xb85d), (0x63c1, 0xc815), (0x8142, 0xacfc),
  (0x4444, 0xbe44), (0x7bd1, 0xada4), (0x9952, 0xc694), (0x5c54, 0xb2c8), (0x8cdf, 0xc804),
  (0x6f5e, 0xb85c), (0x53e1, 0xc608), (0x3e68, 0xc720), (0x62eb, 0xd754), (0x806c, 0xc639),
  (0x476e, 0xd604), (0x7afb, 0xb975), (0x987c, 0xc6b1), (0x5f7e, 0xb839), (0x6e88, 0xaddc),
  (0x910d, 0xba85), (0x540f, 0xb9ac), (0x3992, 0xb9ac), (0x8396, 0xacbd), (0x6719, 0xba85),
  (0x4698, 0xd615), (0x3623, 0xc120), (0x9ba6, 0xb3d9), (0x7f29, 0xcd95), (0x5ea8, 0xd6a8),
  (0x69b2, 0xc628), (0x9037, 0xc801), (0x5739, 0xad11), (0x38bc, 0xbcc4), (0x82c0, 0xd56d),
  (0x6643, 0xd669), (0x41c2, 0xac74), (0x9ad0, 0xd6a8), (0x7e53, 0xcd2c), (0x59d2, 0xc0ac),
  (0x68dc, 0xc5b4), (0x9361, 0xc678), (0x5663, 0xc8fc), (0x3be6, 0xae30), (0x616d, 0xc740),
  (0x40ec, 0xc678), (0x95fa, 0xaddc), (0x797d, 0xcd40), (0x58fc, 0xace4), (0x4281, 0xc2e0),
  (0x8987, 0xd328), (0x760e, 0xc2ec), (0x5a91, 0xc911), (0x3b10, 0xc9c4), (0x4e1e, 0xc2b9),
  (0x77a3, 0xd658), (0x34a5, 0xd48d), (0x9524, 0xcd94), (0x6b30, 0xc220), (0x4fb3, 0xc88c),
  (0x96b9, 0xcd94), (0x4340, 0xb78c), (0x64c5, 0xcc9c), (0x8a46, 0xc800), (0x5b50, 0xc790),
  (0x7cd5, 0xace0), (0x8bdb, 0xc8fc), (0x7062, 0xb0ad), (0x54e5, 0xac00), (0x3564, 0xad6c),
  (0x4872, 0xc0b0), (0x71f7, 0xb78c), (0x36f9, 0xbcc0), (0x9778, 0xc0bd), (0x8201, 0xc5ec),
  (0x6584, 0xd0dc), (0x530b, 0xb3c4), (0x9a11, 0xbe44), (0x7d94, 0xd638), (0x849a, 0xb825),
  (0x681d, 0xad04), (0x55a4, 0xd669), (0x9caa, 0xad70), (0x402d, 0xd574), (0x8f33, 0xc8fc),
  (0x72b6, 0xc0c1), (0x37b8, 0xbd88), (0x583d, 0xac15), (0x4ac6, 0xc131), (0x91cc, 0xb9ac),
  (0x754f, 0xc678), (0x3a51, 0xc0bd), (0x67d8, 0xc790), (0x4d5f, 0xac04), (0x9465, 0xb178),
  (0x7fe8, 0xc2dc), (0x3cea, 0xbe44), (0x86ee, 0xb9cc), (0x6a71, 0xc8fc), (0x57f8, 0xc5ed),
  (0x9efe, 0xbbfc), (0x8083, 0xc219), (0x6702, 0xc6b1), (0x4385, 0xbc15), (0x360c, 0xadf9),
  (0x9893, 0xd1f4), (0x7f12, 0xcd94), (0x5b95, 0xd0d5), (0x6a9f, 0xac00), (0x9420, 0xbcf4),
  (0x5722, 0xc815), (0x39a9, 0xc740), (0x87ad, 0xb9ac), (0x662c, 0xd63c), (0x42af, 0xad11),
  (0x3536, 0xac10), (0x7e3c, 0xc120), (0x5abf, 0xad34), (0x69c9, 0xc9c8), (0x8b4a, 0xb1e8),
  (0x564c, 0xc7c1), (0x38d3, 0xcc2c), (0x86d7, 0xbd80), (0x6556, 0xc624), (0x41d9, 0xc778),
  (0x3460, 0xacac), (0x9ee7, 0xb824), (0x7d66, 0xae09), (0x59e9, 0xb144), (0x68f3, 0xc808),
  (0x8a74, 0xc678), (0x5576, 0xc815), (0x3ffd, 0xd61c), (0x6480, 0xad6c), (0x8305, 0xbaa8),
  (0x4e07, 0xb9cc), (0x7c90, 0xd638), (0x9b15, 0xb9c8), (0x899e, 0xc694), (0x7521, 0xc2e0),
  (0x54a0, 0xc9d1), (0x822f, 0xc911), (0x4d31, 0xd0c0), (0x73ba, 0xc0c8), (0x9a3f, 0xc7a5),
  (0x88c8, 0xace4), (0x744b, 0xc704), (0x4bca, 0xac00), (0x3b55, 0xac70), (0x8159, 0xc885),
  (0x4c5b, 0xd601), (0x72e4, 0xae38), (0x9969, 0xd76c), (0x8ff2, 0xac81), (0x6b75, 0xc0c9),
  (0x4af4, 0xae08), (0x3a7f, 0xad74), (0x6c06, 0xbc29), (0x4889, 0xb18d), (0x938f, 0xb958),
  (0x4416, 0xd788), (0x6d9b, 0xb3c4), (0x8f1c, 0xce58), (0x5c26, 0xb8cc), (0x45ab, 0xbc29),
  (0x8cb1, 0xd53c), (0x7138, 0xace0), (0x5dbb, 0xc808), (0x4948, 0xb9dd), (0x76cd, 0xd569),
  (0x904e, 0xacfc), (0x625a, 0xc791), (0x4edd, 0xb3d9), (0x91e3, 0xc870), (0x7a6a, 0xce6d),
  (0x63ef, 0xae0d), (0x8d70, 0xc8fc), (0x527a, 0xb9ac), (0x7bff, 0xc804), (0x4103, 0xc559),
  (0x8809, 0xd604), (0x778c, 0xac11), (0x5913, 0xd558), (0x4f9c, 0xc8fc), (0x96a2, 0xc694),
  (0x7225, 0xcd09), (0x3f27, 0xb3d9), (0x852b, 0xc5b8), (0x60ae, 0xc624), (0x4a35, 0xb2f4),
  (0x9d3b, 0xd64d), (0x78be, 0xb144), (0x83c4, 0xb3d9), (0x6f47, 0xc18c), (0x50ce, 0xc120),
  (0x9bd4, 0xce58), (0x4757, 0xd734), (0x8e5d, 0xc0ac), (0x75e0, 0xc0b0), (0x36e2, 0xc218),
  (0x5f67, 0xc6b1), (0x94f6, 0xc740), (0x7079, 0xd0c0), (0x3d7b, 0xd734), (0x968b, 0xc218),
  (0x690a, 0xc878), (0x558d, 0xc7ac), (0x3814, 0xbc30), (0x6497, 0xad11), (0x8218, 0xad00),
  (0x411a, 0xc870), (0x37a1, 0xc804), (0x7ca7, 0xc7a5), (0x9a28, 0xd0c4), (0x592a, 0xd0dc),
  (0x89b5, 0xd55c), (0x6834, 0xc804), (0x54b7, 0xb3c4), (0x3b3e, 0xc758), (0x67c1, 0xd0c0),
  (0x8542, 0xc2b9), (0x4044, 0xd589), (0x36cb, 0xc774), (0x7fd1, 0xad6c), (0x9d52, 0xc695),
  (0x5854, 0xd0d1), (0x88df, 0xc0ac), (0x6b5e, 0xc74d), (0x57e1, 0xc624), (0x3a68, 0xd61c),
  (0x66eb, 0xb780), (0x846c, 0xc7a5), (0x436e, 0xc870), (0x7efb, 0xad8c), (0x9c7c, 0xc5b4),
  (0x5b7e, 0xc601), (0x6a88, 0xc120), (0x950d, 0xb958), (0x500f, 0xc219), (0x3d92, 0xc2ec),
  (0x8796, 0xd65c), (0x6319, 0xac70), (0x4298, 0xc8fc), (0x7b29, 0xd328), (0x5aa8, 0xc720),
  (0x6db2, 0xc561), (0x9437, 0xc5fd), (0x5339, 0xd544), (0x3cbc, 0xc608), (0x86c0, 0xc8fc),
  (0x6243, 0xacbd)]

/-- hanja/table.go:8969-9224 -/
def rawTable35 : List (Nat × Nat) := [
  (0x45c2, 0xd638), (0x354d, 0xd1f4), (0x9ed0, 0xb9ac), (0x7a53, 0xc775), (0x5dd2, 0xb9cc),
  (0x6cdc, 0xc9c0), (0x9761, 0xbbf8), (0x5263, 0xac80), (0x3fe6, 0xb155), (0x656d, 0xc591),
  (0x44ec, 0xd0c1), (0x3477, 0xd0dc), (0x91fa, 0xcc9c), (0x7d7d, 0xb824), (0x5cfc, 0xd638),
  (0x4681, 0xce68), (0x8d87, 0xc2ed), (0x720e, 0xb8cc), (0x5e91, 0xbb34), (0x3f10, 0xd3b8),
  (0x4a1e, 0xc6b0), (0x73a3, 0xbcc0), (0x9124, 0xb9cc), (0x6f30, 0xbd95), (0x4bb3, 0xbc88),
  (0x92b9, 0xc218), (0x4740, 0xb958), (0x60c5, 0xc815), (0x8e46, 0xd1f4), (0x5f50, 0xacc4),
  (0x78d5, 0xac1c), (0x8fdb, 0xc9c4), (0x7462, 0xc6a9), (0x50e5, 0xc694), (0x4c72, 0xc5f0),
  (0x75f7, 0xc554), (0x9378, 0xd638), (0x8601, 0xc624), (0x6184, 0xce58), (0x570b, 0xad6d),
  (0x9e11, 0xc545), (0x7994, 0xc81c), (0x809a, 0xb450), (0x6c1d, 0xb0b4), (0x51a4, 0xc6d0),
  (0x98aa, 0xd48d), (0x442d, 0xccb4), (0x8b33, 0xad6c), (0x76b6, 0xc0ac), (0x5c3d, 0xc9c4),
  (0x4ec6, 0xbd80), (0x95cc, 0xb780), (0x714f, 0xd53d), (0x3e51, 0xc0ac), (0x63d8, 0xd669),
  (0x495f, 0xc54c), (0x9065, 0xc694), (0x7be8, 0xc800), (0x38ea, 0xc644), (0x82ee, 0xc120),
  (0x6e71, 0xd68d), (0x53f8, 0xc0ac), (0x9afe, 0xc18c), (0x8c83, 0xb9e5), (0x6b02, 0xbc15),
  (0x4f85, 0xd574), (0x3a0c, 0xad6c), (0x9493, 0xc870), (0x7312, 0xc5fc), (0x5795, 0xd6c4),
  (0x669f, 0xac1c), (0x9820, 0xc704), (0x5b22, 0xc591), (0x35a9, 0xcd94), (0x8bad, 0xd6c8),
  (0x6a2c, 0xcd1d), (0x4eaf, 0xd5a5), (0x3936, 0xbc29), (0x93bd, 0xbd09), (0x723c, 0xc870),
  (0x56bf, 0xd68d), (0x65c9, 0xbd80), (0x874a, 0xc815), (0x5a4c, 0xc219), (0x34d3, 0xb0a8),
  (0x8ad7, 0xc2ec), (0x6956, 0xc990), (0x3860, 0xc815), (0x92e7, 0xd604), (0x7166, 0xd6c4),
  (0x55e9, 0xc1c4), (0x64f3, 0xc990), (0x8674, 0xcc45), (0x5976, 0xb0b4), (0x6880, 0xc18d),
  (0x8f05, 0xb85c), (0x4207, 0xc870), (0x7090, 0xbc29), (0x9715, 0xb454), (0x859e, 0xc190),
  (0x7921, 0xbc15), (0x58a0, 0xc120), (0x8e2f, 0xcc99), (0x4131, 0xbc29), (0x7fba, 0xb204),
  (0x963f, 0xc544), (0x84c8, 0xb791), (0x784b, 0xc560), (0x47ca, 0xac70), (0x3755, 0xb155),
  (0x8d59, 0xbd80), (0x405b, 0xadc0), (0x7ee4, 0xaca9), (0x9569, 0xcc2c), (0x83f2, 0xbe44),
  (0x6775, 0xc800), (0x46f4, 0xae30), (0x367f, 0xd76c), (0x6006, 0xcc3d), (0x4489, 0xbb34),
  (0x9f8f, 0xacf5), (0x4816, 0xc790), (0x619b, 0xb2f4), (0x831c, 0xcc9c), (0x5026, 0xad8c),
  (0x49ab, 0xc601), (0x80b1, 0xad49), (0x7d38, 0xc8fc), (0x51bb, 0xb3d9), (0x3e3a, 0xc0ac),
  (0x4548, 0xcca9), (0x7acd, 0xc2ed), (0x3fcf, 0xad70), (0x9c4e, 0xad50), (0x6e5a, 0xc778),
  (0x42dd, 0xc601), (0x9de3, 0xc74c), (0x766a, 0xc801), (0x6fef, 0xd0c1), (0x8170, 0xc694),
  (0x5e7a, 0xc694), (0x77ff, 0xad11), (0x4d03, 0xb1e8), (0x8409, 0xbe44), (0x7b8c, 0xc870),
  (0x3c8e, 0xb8e8), (0x5513, 0xcc28), (0x439c, 0xd63c), (0x9aa2, 0xcd1d), (0x7e25, 0xc9c4),
  (0x892b, 0xce58), (0x6cae, 0xc800), (0x4635, 0xb85d), (0x913b, 0xb828), (0x74be, 0xc81c),
  (0x8fc4, 0xd758), (0x6347, 0xd601), (0x5cce, 0xc740), (0x97d4, 0xd560), (0x4b57, 0xc601),
  (0x825d, 0xc124), (0x79e0, 0xbe44), (0x3ae2, 0xac70), (0x5367, 0xc640), (0x41f0, 0xc99d),
  (0x98f6, 0xd544), (0x7c79, 0xc5ec), (0x9a8b, 0xbe59), (0x650a, 0xb825), (0x598d, 0xc5f0),
  (0x3414, 0xace8), (0x6897, 0xacbd), (0x8e18, 0xad6d), (0x4d1a, 0xac15), (0x3ba1, 0xad00),
  (0x70a7, 0xd0c0), (0x9628, 0xc561), (0x552a, 0xbd09), (0x85b5, 0xc8fc), (0x6434, 0xac74),
  (0x58b7, 0xd654), (0x373e, 0xd574), (0x6bc1, 0xd6fc), (0x8942, 0xc0bc), (0x4c44, 0xac1c),
  (0x3acb, 0xc804), (0x73d1, 0xb871), (0x9152, 0xc8fc), (0x5454, 0xd0dc), (0x84df, 0xacc4),
  (0x675e, 0xae30), (0x5be1, 0xacfc), (0x3668, 0xae30), (0x6aeb, 0xc800), (0x886c, 0xce5c),
  (0x4f6e, 0xd569), (0x72fb, 0xc0b0), (0x907c, 0xb8cc), (0x577e, 0xc800), (0x6688, 0xd6c8),
  (0x990d, 0xc5fc), (0x5c0f, 0xc18c), (0x8b96, 0xcc38), (0x6f19, 0xb2e8), (0x4e98, 0xae0d),
  (0x3e23, 0xc5c5), (0x93a6, 0xb958), (0x7729, 0xd604), (0x56a8, 0xb871), (0x61b2, 0xd5cc),
  (0x9837, 0xc554), (0x5f39, 0xd0c4), (0x8ac0, 0xbe44), (0x6e43, 0xbc30), (0x49c2, 0xc870),
  (0x394d, 0xae30), (0x92d0, 0xd6a1), (0x7653, 0xbbf8), (0x51d2, 0xc758), (0x60dc, 0xc11d),
  (0x9b61, 0xc870), (0x5e63, 0xd3d0), (0x696d, 0xc5c5), (0x48ec, 0xacfc), (0x3877, 0xbcf8),
  (0x9dfa, 0xb85c), (0x717d, 0xc120), (0x50fc, 0xd48d), (0x4a81, 0xbcf5), (0x8187, 0xcd94),
  (0x7e0e, 0xace8), (0x5291, 0xc81c), (0x461e, 0xb9c8), (0x7fa3, 0xad70), (0x3ca5, 0xb2f9),
  (0x9d24, 0xc885), (0x6330, 0xc815), (0x47b3, 0xbcf5), (0x9eb9, 0xbd80), (0x4b40, 0xc2e0),
  (0x6cc5, 0xc218), (0x8246, 0xb791), (0x5350, 0xb9cc), (0x74d5, 0xc0c8), (0x83db, 0xbb38),
  (0x7862, 0xc5ec), (0x5ce5, 0xc7c1), (0x3d64, 0xc0bd), (0x4072, 0xb9e4), (0x79f7, 0xc9c8),
  (0x3ef9, 0xd604), (0x9f78, 0xc775), (0x8a01, 0xc5b8), (0x6d84, 0xbe59), (0x5b0b, 0xc120),
  (0x9211, 0xd310)]

/-- hanja/table.go:9225-9480 -/
def rawTable36 : List (Nat × Nat) := [
  (0x7594, 0xc815), (0x8c9a, 0xb2e8), (0x601d, 0xc0ac), (0xfa21, 0xc0dd), (0x5da4, 0xc694),
  (0x94aa, 0xd56d), (0x482d, 0xb8b0), (0x8733, 0xc724), (0x7ab6, 0xad6c), (0x3fb8, 0xace0),
  (0x503d, 0xc0ac), (0x42c6, 0xd638), (0x99cc, 0xc6d0), (0x7d4f, 0xc124), (0x6fd8, 0xb155),
  (0x455f, 0xd765), (0x9c65, 0xada4), (0x77e8, 0xc601), (0x34ea, 0xb791), (0x8eee, 0xc559),
  (0x6271, 0xae09), (0x5ff8, 0xb274), (0x96fe, 0xbb34), (0x8883, 0xc81c), (0x6f02, 0xd45c),
  (0x4b85, 0xc220), (0x3e0c, 0xacfd), (0x9093, 0xb4f1), (0x7712, 0xc2e0), (0x5395, 0xce21),
  (0x629f, 0xb2e8), (0x9c20, 0xc18c), (0x5f22, 0xb3c4), (0x8fad, 0xc0ac), (0x6e2c, 0xce21),
  (0x4aaf, 0xc601), (0x3d36, 0xac01), (0x97bd, 0xad50), (0x763c, 0xb9c9), (0x52bf, 0xd575),
  (0x61c9, 0xc751), (0x834a, 0xd615), (0x5e4c, 0xd669), (0x8ed7, 0xc218), (0x6d56, 0xb82c),
  (0x49d9, 0xb989), (0x3c60, 0xace0), (0x96e7, 0xc9d1), (0x7566, 0xd734), (0x51e9, 0xbaa9),
  (0x60f3, 0xc0c1), (0x8274, 0xbd88), (0x5d76, 0xc57d), (0x37fd, 0xd45c), (0x6c80, 0xc11c),
  (0x8b05, 0xcd08), (0x4607, 0xbb38), (0x7490, 0xb85c), (0x9315, 0xace4), (0x819e, 0xc804),
  (0x7d21, 0xbc29), (0x5ca0, 0xac70), (0x8a2f, 0xc0ac), (0x4531, 0xc74d), (0x7bba, 0xc900),
  (0x923f, 0xc804), (0x80c8, 0xbc1c), (0x7c4b, 0xc12d), (0x43ca, 0xb871), (0x8959, 0xc870),
  (0x445b, 0xc9c0), (0x7ae4, 0xad49), (0x9169, 0xba85), (0x87f2, 0xcda9), (0x6375, 0xc804),
  (0x42f4, 0xb274), (0x6406, 0xad6c), (0x4089, 0xd6c4), (0x9b8f, 0xc131), (0x4c16, 0xcc2c),
  (0x659b, 0xace1), (0x871c, 0xbc00), (0x5426, 0xbd80), (0x4dab, 0xc5c4), (0x84b1, 0xd3ec),
  (0x7938, 0xcc30), (0x55bb, 0xc720), (0x3a3a, 0xba74), (0x4148, 0xc6d0), (0x7ecd, 0xc18c),
  (0x3bcf, 0xd615), (0x984e, 0xc545), (0x6a5a, 0xc219), (0x46dd, 0xb178), (0x99e3, 0xc870),
  (0x726a, 0xc5b8), (0x6bef, 0xb2f4), (0x8570, 0xc628), (0x5a7a, 0xbb34), (0x73ff, 0xcc29),
  (0x4903, 0xc74c), (0x8009, 0xad6c), (0x7f8c, 0xac15), (0x388e, 0xc811), (0x5113, 0xb300),
  (0x479c, 0xbd80), (0x9ea2, 0xb839), (0x7a25, 0xd5a5), (0x3727, 0xc6d4), (0x8d2b, 0xbe48),
  (0x68ae, 0xad6d), (0x4235, 0xc639), (0x953b, 0xb2e8), (0x70be, 0xd669), (0x8bc4, 0xd3c9),
  (0x6747, 0xc624), (0x58ce, 0xd6c8), (0x93d4, 0xc778), (0x4f57, 0xd0c0), (0x865d, 0xd638),
  (0x7de0, 0xccb4), (0x3ee2, 0xc2dc), (0x5767, 0xcc99), (0x45f0, 0xad00), (0x9cf6, 0xc5f0),
  (0x7879, 0xc22d), (0x357b, 0xd22c), (0x9e8b, 0xbbf8), (0x610a, 0xd54d), (0x5d8d, 0xc2b5),
  (0x6c97, 0xcca8), (0x8a18, 0xae30), (0x491a, 0xb9ac), (0x3fa1, 0xac01), (0x74a7, 0xbcbd),
  (0x9228, 0xc6d0), (0x512a, 0xc6b0), (0x81b5, 0xcdcc), (0x6034, 0xc6d4), (0x5cb7, 0xbbfc),
  (0x6fc1, 0xd0c1), (0x8d42, 0xb8b0), (0x4844, 0xada4), (0x3ecb, 0xb784), (0x77d1, 0xb85c),
  (0x9552, 0xc77c), (0x5054, 0xc545), (0x80df, 0xbb34), (0x635e, 0xb85c), (0x5fe1, 0xcda9),
  (0x6eeb, 0xc218), (0x8c6c, 0xc800), (0x4b6e, 0xbd88), (0x76fb, 0xd61c), (0x947c, 0xb77c),
  (0x537e, 0xc545), (0x6288, 0xc6d4), (0x9d0d, 0xbb38), (0x580f, 0xbc29), (0x3592, 0xc81c),
  (0x8f96, 0xd560), (0x6b19, 0xb958), (0x4a98, 0xc704), (0x3a23, 0xc639), (0x97a6, 0xcd94),
  (0x7329, 0xc131), (0x52a8, 0xb3d9), (0x65b2, 0xcc29), (0x9c37, 0xc870), (0x5b39, 0xd765),
  (0x34bc, 0xb9cc), (0x8ec0, 0xad6c), (0x6a43, 0xbc8c), (0x3d4d, 0xbb38), (0x96d0, 0xd638),
  (0x7253, 0xbc29), (0x55d2, 0xd0d1), (0x64dc, 0xc54c), (0x9f61, 0xb839), (0x5a63, 0xc778),
  (0x37e6, 0xc6b4), (0x6d6d, 0xacbd), (0x4cec, 0xc5ed), (0x3c77, 0xc9d1), (0x99fa, 0xb791),
  (0x757d, 0xd1a4), (0x54fc, 0xd615), (0x4e81, 0xac74), (0x8587, 0xbbf8), (0x7a0e, 0xc138),
  (0x5691, 0xd6c8), (0x3710, 0xc218), (0x421e, 0xb3c5), (0x7ba3, 0xcc45), (0x38a5, 0xb3d9),
  (0x9924, 0xb2f4), (0x6730, 0xbab0), (0x43b3, 0xc6d4), (0x9ab9, 0xad50), (0x4f40, 0xc0ac),
  (0x68c5, 0xbcd1), (0x8646, 0xb958), (0x5750, 0xc88c), (0x70d5, 0xd608), (0x87db, 0xd33d),
  (0x7c62, 0xb834), (0x58e5, 0xc804), (0x3964, 0xae0d), (0x4472, 0xb3c4), (0x7df7, 0xd63c),
  (0x3af9, 0xc18c), (0x9b78, 0xd3b8), (0x8e01, 0xacbd), (0x6984, 0xb78c), (0x5f0b, 0xc775),
  (0x9611, 0xb780), (0x7194, 0xc6a9), (0x889a, 0xbc1c), (0x641d, 0xad6c), (0x59a4, 0xc5ec),
  (0x90aa, 0xc0ac), (0x4c2d, 0xc720), (0x8333, 0xac15), (0x7eb6, 0xb95c), (0x3bb8, 0xc1a1),
  (0x543d, 0xd6c4), (0x46c6, 0xc8fc), (0x9dcc, 0xb9c8), (0x794f, 0xc11d), (0x3651, 0xc6b0),
  (0x6bd8, 0xbe44), (0x415f, 0xc0bc), (0x9865, 0xd638), (0x73e8, 0xd569), (0x8aee, 0xc790),
  (0x6671, 0xc12c), (0x5bf8, 0xcd0c), (0x92fe, 0xb3c4), (0x9483, 0xcd09), (0x7302, 0xd55c),
  (0x5785, 0xb871), (0x8c93, 0xbb18), (0x6b12, 0xb780), (0x4f95, 0xc774), (0x3599, 0xac13),
  (0x7e9f, 0xba71), (0x8020, 0xd569), (0x4322, 0xb839), (0x93ad, 0xc9c4), (0x722c, 0xd30c),
  (0x56af, 0xd559), (0x8bbd, 0xd48d), (0x6a3c, 0xc9c4), (0x4ebf, 0xc5b5), (0x34c3, 0xd0c0),
  (0x7dc9, 0xb7c9)]

/-- hanja/table.go:9481-9736 -/
def rawTable37 : List (Nat × Nat) := [
  (0x9f4a, 0xc81c), (0x424c, 0xc218), (0x92d7, 0xd604), (0x7156, 0xb09c), (0x55d9, 0xbc29),
  (0x8ae7, 0xd574), (0x6966, 0xd6e4), (0x7cf3, 0xcc29), (0x9e74, 0xc0c1), (0x4176, 0xb204),
  (0x7080, 0xc591), (0x9705, 0xc0bd), (0x5a07, 0xad50), (0x3f8a, 0xc0c9), (0x6890, 0xd3d0),
  (0x8f15, 0xacbd), (0x381b, 0xd655), (0x9d9e, 0xcd98), (0x6121, 0xcd1d), (0x40a0, 0xc2dc),
  (0x962f, 0xc9c0), (0x5931, 0xc2e4), (0x3eb4, 0xbc1c), (0x67ba, 0xb9d0), (0x8e3f, 0xc871),
  (0x3745, 0xb204), (0x9cc8, 0xcc9c), (0x604b, 0xb828), (0x5fca, 0xc815), (0x9559, 0xb77c),
  (0x585b, 0xb960), (0x3dde, 0xd6c4), (0x66e4, 0xd655), (0x8d69, 0xd601), (0x366f, 0xc608),
  (0x9bf2, 0xc5b4), (0x7f75, 0xb9e4), (0x5ef4, 0xc778), (0x7806, 0xbd80), (0x5c89, 0xbb3c),
  (0x3d08, 0xc740), (0x878f, 0xc9c8), (0x5016, 0xd589), (0x799b, 0xc9c4), (0x3a9d, 0xb828),
  (0x9b1c, 0xac04), (0x4826, 0xc9c0), (0x51ab, 0xbe59), (0x98b1, 0xd0dc), (0x6538, 0xc720),
  (0x49bb, 0xc790), (0x5d48, 0xc644), (0x62cd, 0xbc15), (0x844e, 0xb960), (0x765a, 0xb2f4),
  (0x5add, 0xac15), (0x3b5c, 0xc735), (0x85e3, 0xd53c), (0x6e6a, 0xb2e8), (0x77ef, 0xad50),
  (0x38f1, 0xc0c9), (0x9970, 0xc2dd), (0x467a, 0xb834), (0x6fff, 0xb840), (0x5503, 0xace1),
  (0x9c09, 0xd669), (0x638c, 0xc7a5), (0x4d13, 0xc0ac), (0x5b9c, 0xc758), (0x82a2, 0xc778),
  (0x6625, 0xcd98), (0x912b, 0xc99d), (0x74ae, 0xb2e8), (0x39b0, 0xcca8), (0x5e35, 0xc644),
  (0x893b, 0xc124), (0x6cbe, 0xcca8), (0x97c4, 0xd68d), (0x7b47, 0xacf5), (0x3c49, 0xc5c5),
  (0x44ce, 0xcc29), (0x8fd4, 0xbc18), (0x5357, 0xb0a8), (0x9a5d, 0xd0c1), (0x61e0, 0xc81c),
  (0x4b67, 0xbbf8), (0x59f0, 0xc21c), (0x80f6, 0xd6a8), (0x6479, 0xbaa8), (0x3404, 0xacfc),
  (0x828b, 0xc6b0), (0x7d0a, 0xbb38), (0x418d, 0xb871), (0x7097, 0xad11), (0x9618, 0xd0d1),
  (0x551a, 0xce68), (0x68a7, 0xc624), (0x8e28, 0xc885), (0x4d2a, 0xb85d), (0x372e, 0xb78c),
  (0x9db5, 0xcd94), (0x7c34, 0xac70), (0x40b7, 0xad34), (0x73c1, 0xc790), (0x9142, 0xcc2c),
  (0x5444, 0xaca9), (0x6bd1, 0xc790), (0x8952, 0xbcc4), (0x4c54, 0xc870), (0x3658, 0xc694),
  (0x9cdf, 0xc900), (0x7f5e, 0xbaa8), (0x43e1, 0xc2dc), (0x72eb, 0xb85c), (0x906c, 0xc18d),
  (0x576e, 0xb300), (0x3df5, 0xbb35), (0x6afb, 0xc575), (0x887c, 0xc9c0), (0x4f7e, 0xc77c),
  (0x7e88, 0xd790), (0x810d, 0xd68c), (0x440f, 0xc900), (0x9396, 0xc1c4), (0x7719, 0xc774),
  (0x5698, 0xc6b0), (0x8ba6, 0xc54c), (0x6f29, 0xc120), (0x4ea8, 0xd615), (0x79b2, 0xb824),
  (0x8037, 0xd0d1), (0x4739, 0xc18c), (0x92c0, 0xb450), (0x7643, 0xb96d), (0x51c2, 0xb9e4),
  (0x8ad0, 0xac74), (0x6e53, 0xbd84), (0x49d2, 0xb798), (0x78dc, 0xccb4), (0x8361, 0xd0d5),
  (0x4663, 0xc0bd), (0x716d, 0xb82c), (0x50ec, 0xcd08), (0x85fa, 0xb9b0), (0x697d, 0xc545),
  (0x48fc, 0xb7c9), (0x5281, 0xcd08), (0x9987, 0xc0ac), (0x660e, 0xba85), (0x4a91, 0xd0c0),
  (0x5e1e, 0xb9e5), (0x67a3, 0xc870), (0x8524, 0xbc00), (0x7b30, 0xbd88), (0x5fb3, 0xb355),
  (0x3832, 0xbe44), (0x86b9, 0xbd80), (0x5340, 0xad6c), (0x74c5, 0xb825), (0x39c7, 0xbaa8),
  (0x9a46, 0xd544), (0x4b50, 0xc591), (0x6cd5, 0xbc95), (0x9bdb, 0xc870), (0x6062, 0xd68c),
  (0x44e5, 0xb784), (0x5872, 0xc7a5), (0x61f7, 0xd68c), (0x8778, 0xc640), (0x9201, 0xbc29),
  (0x7584, 0xb9b0), (0x3a86, 0xc800), (0x430b, 0xb2f5), (0x8a11, 0xc774), (0x6d94, 0xc7a0),
  (0x949a, 0xbe44), (0x781d, 0xac81), (0x3d1f, 0xd6c4), (0x45a4, 0xc6d0), (0x8caa, 0xd0d0),
  (0x502d, 0xc65c), (0x9f33, 0xaca9), (0x62b6, 0xc9c8), (0x483d, 0xd574), (0x5ac6, 0xc6a9),
  (0x81cc, 0xace0), (0x654f, 0xbbfc), (0x77d8, 0xb2f9), (0x34da, 0xacf5), (0x5d5f, 0xd1f4),
  (0x8465, 0xc804), (0x6fe8, 0xc790), (0x96ee, 0xbaa9), (0x7a71, 0xc791), (0x3f73, 0xd6c4),
  (0x47f8, 0xaddc), (0x8efe, 0xc2dd), (0x9083, 0xc218), (0x7702, 0xc2dc), (0x5385, 0xccad),
  (0x8893, 0xc800), (0x6f12, 0xac15), (0x4b95, 0xcca0), (0x7a9f, 0xad74), (0x8420, 0xbd95),
  (0x4722, 0xd5cc), (0x97ad, 0xd3b8), (0x762c, 0xc7a5), (0x52af, 0xc800), (0x8fbd, 0xb8cc),
  (0x6e3c, 0xbbf8), (0x4abf, 0xc2e0), (0x79c9, 0xbcd1), (0x9b4a, 0xc5ed), (0x464c, 0xad34),
  (0x96d7, 0xd55c), (0x7556, 0xc640), (0x51d9, 0xd0c1), (0x8ee7, 0xc800), (0x6d66, 0xd3ec),
  (0x49e9, 0xac10), (0x37ed, 0xbbfc), (0x78f3, 0xc99d), (0x9a74, 0xb824), (0x4576, 0xd638),
  (0x7480, 0xcd5c), (0x9305, 0xb9ac), (0x5e07, 0xb151), (0x3b8a, 0xbb34), (0x6c90, 0xbaa9),
  (0x8b15, 0xc81c), (0x3c1b, 0xc57d), (0x999e, 0xbc1c), (0x6521, 0xb9ac), (0x44a0, 0xbd09),
  (0x922f, 0xb3cc), (0x5d31, 0xc989), (0x3ab4, 0xd560), (0x63ba, 0xc12c), (0x8a3f, 0xc790),
  (0x98c8, 0xd45c), (0x644b, 0xc0b4), (0x5bca, 0xc815), (0x9159, 0xc9d0), (0x5c5b, 0xbcd1),
  (0x39de, 0xbc1c), (0x62e4, 0xc7a1), (0x8969, 0xcd09), (0x7b75, 0xc5f0), (0x5af4, 0xace0),
  (0x7c06, 0xad6c), (0x5889, 0xc6a9), (0x3908, 0xc2ec), (0x838f, 0xc0ac), (0x5416, 0xc544),
  (0x7d9b, 0xc774)]

/-- hanja/table.go:9737-9992 -/
def rawTable38 : List (Nat × Nat) := [
  (0x3e9d, 0xd568), (0x9f1c, 0xcc99), (0x4c26, 0xbe44), (0x55ab, 0xb07d), (0x9cb1, 0xbe44),
  (0x6138, 0xc815), (0x5948, 0xb0b4), (0x66cd, 0xd638), (0x804e, 0xc870), (0x725a, 0xd0f1),
  (0x5edd, 0xc2dc), (0x3f5c, 0xc6d0), (0x81e3, 0xc2e0), (0x6a6a, 0xc5f0), (0x73ef, 0xb85c),
  (0x3cf1, 0xc591), (0x9d70, 0xc870), (0x427a, 0xd64d), (0x6bff, 0xc0b0), (0x5103, 0xcc9c),
  (0x9809, 0xc774), (0x678c, 0xbd84), (0x4913, 0xbabd), (0x3717, 0xcc38), (0x5f9c, 0xc0c1),
  (0x86a2, 0xd56d), (0x6225, 0xb4f1), (0x952b, 0xbd80), (0x70ae, 0xd3ec), (0x3db0, 0xd568),
  (0x5a35, 0xcd94), (0x8d3b, 0xc774), (0x68be, 0xb798), (0x93c4, 0xb2e8), (0x7f47, 0xc900),
  (0x3849, 0xd604), (0x40ce, 0xcc28), (0x8bd4, 0xb8b0), (0x5757, 0xad34), (0x9e5d, 0xc5ed),
  (0x65e0, 0xbb34), (0x4f67, 0xce74), (0x356b, 0xbc29), (0x5df0, 0xad6c), (0x84f6, 0xc720),
  (0x6079, 0xc5fc), (0x868b, 0xc608), (0x790a, 0xaca9), (0x458d, 0xac74), (0x7497, 0xd0d5),
  (0x9218, 0xc758), (0x511a, 0xb9f9), (0x6ca7, 0xcc3d), (0x8a28, 0xc9c0), (0x492a, 0xd0c0),
  (0x99b5, 0xc8fc), (0x7834, 0xd30c), (0x44b7, 0xad04), (0x77c1, 0xcd94), (0x9542, 0xb8e8),
  (0x5044, 0xb09c), (0x6fd1, 0xb8b0), (0x8d52, 0xc8fc), (0x4854, 0xacc4), (0x98df, 0xc2dd),
  (0x7b5e, 0xcc45), (0x47e1, 0xc9c0), (0x76eb, 0xc554), (0x946c, 0xac10), (0x536e, 0xce58),
  (0x39f5, 0xbd80), (0x6efb, 0xc0b0), (0x8c7c, 0xbe44), (0x4b7e, 0xd0dc), (0x3582, 0xc608),
  (0x7a88, 0xc694), (0x850d, 0xb85d), (0x400f, 0xd604), (0x9796, 0xc1e0), (0x7319, 0xc7c1),
  (0x5298, 0xb9c8), (0x8fa6, 0xd310), (0x6b29, 0xcd08), (0x4aa8, 0xbc15), (0x34ac, 0xc655),
  (0x7db2, 0xb9dd), (0x8437, 0xc18c), (0x4339, 0xacbd), (0x96c0, 0xc791), (0x7243, 0xcca9),
  (0x55c2, 0xc694), (0x8ed0, 0xc120), (0x6a53, 0xc21c), (0x37d6, 0xb871), (0x7cdc, 0xbbf8),
  (0x8761, 0xc724), (0x4263, 0xc0ac), (0x756d, 0xc5ec), (0x54ec, 0xd558), (0x81fa, 0xb300),
  (0x6d7d, 0xc218), (0x4cfc, 0xad6c), (0x5681, 0xc801), (0x3700, 0xc0c1), (0x9d87, 0xb3d9),
  (0x620e, 0xc735), (0x4e91, 0xc6b4), (0x5a1e, 0xb1cc), (0x63a3, 0xccb4), (0x8124, 0xc2e0),
  (0x7f30, 0xac15), (0x5bb3, 0xd574), (0x3c32, 0xc6b1), (0x82b9, 0xadfc), (0x5740, 0xc9c0),
  (0x70c5, 0xd73c), (0x3dc7, 0xd68c), (0x9e46, 0xc695), (0x4f50, 0xc88c), (0x68d5, 0xc885),
  (0x6462, 0xd638), (0x40e5, 0xb2f9), (0x5c72, 0xc815), (0x65f7, 0xad11), (0x8378, 0xbc1c),
  (0x9601, 0xac01), (0x7184, 0xc2dd), (0x3e86, 0xc790), (0x470b, 0xd68c), (0x8e11, 0xae30),
  (0x6994, 0xb791), (0x909a, 0xc5ec), (0x7c1d, 0xb8cc), (0x391f, 0xacf5), (0x41a4, 0xcc9c),
  (0x88aa, 0xac70), (0x542d, 0xd56d), (0x9b33, 0xad8c), (0x66b6, 0xc120), (0x4c3d, 0xd328),
  (0x3641, 0xb9e4), (0x5ec6, 0xc678), (0x85cc, 0xbc00), (0x614f, 0xba85), (0x73d8, 0xc8fc),
  (0x595f, 0xae0d), (0x8065, 0xad6c), (0x6be8, 0xc120), (0x92ee, 0xc131), (0x7e71, 0xcd1d),
  (0x3b73, 0xd6a8), (0x43f8, 0xc5b4), (0x8afe, 0xb77d), (0x9c83, 0xd30c), (0x7b02, 0xd658),
  (0x5f85, 0xb300), (0x8493, 0xc21c), (0x6312, 0xb82c), (0x4795, 0xc720), (0x3d99, 0xc720),
  (0x769f, 0xcc45), (0x8820, 0xbc00), (0x4b22, 0xb3c4), (0x9bad, 0xd574), (0x7a2c, 0xb098),
  (0x5eaf, 0xd3ec), (0x83bd, 0xb9dd), (0x623c, 0xbb18), (0x46bf, 0xc74c), (0x3cc3, 0xc26c),
  (0x75c9, 0xacbd), (0x974a, 0xd48d), (0x4a4c, 0xcd08), (0x9ad7, 0xb85c), (0x7956, 0xc870),
  (0x5dd9, 0xb178), (0x82e7, 0xc800), (0x6166, 0xad6c), (0x45e9, 0xcc99), (0x3bed, 0xb85c),
  (0x74f3, 0xd638), (0x9674, 0xbe44), (0x4976, 0xb825), (0x7880, 0xc7c1), (0x9f05, 0xc9c0),
  (0x5207, 0xc808), (0x378a, 0xc220), (0x6090, 0xcc99), (0x8715, 0xd0dc), (0x959e, 0xbcc0),
  (0x6921, 0xb3c4), (0x48a0, 0xc1a1), (0x9e2f, 0xc559), (0x5131, 0xb871), (0x36b4, 0xd3ec),
  (0x6fba, 0xc5b5), (0x863f, 0xb77c), (0x3f45, 0xb4f1), (0x94c8, 0xc2dc), (0x684b, 0xc774),
  (0x57ca, 0xc9c0), (0x9d59, 0xaca9), (0x505b, 0xc0bd), (0x35de, 0xd30c), (0x6ee4, 0xb824),
  (0x8569, 0xd0d5), (0x3e6f, 0xd734), (0x93f2, 0xacac), (0x7775, 0xc7ac), (0x56f4, 0xc704),
  (0x7006, 0xb3c5), (0x5489, 0xc559), (0x3508, 0xbe44), (0x8f8f, 0xc8fc), (0x5816, 0xb1cc),
  (0x719b, 0xd45c), (0x931c, 0xb151), (0x4026, 0xace0), (0x59ab, 0xaddc), (0x90b1, 0xad6c),
  (0x6d38, 0xad11), (0x41bb, 0xaddc), (0x5548, 0xd589), (0x6acd, 0xc9c8), (0x8c4e, 0xc218),
  (0x7e5a, 0xb8cc), (0x52dd, 0xc2b9), (0x8de3, 0xc120), (0x666a, 0xc804), (0x7fef, 0xd559),
  (0x9170, 0xc120), (0x4e7a, 0xc194), (0x67ff, 0xc2dc), (0x5d03, 0xb798), (0x9409, 0xc804),
  (0x6b8c, 0xacbd), (0x4513, 0xd5c8), (0x3b17, 0xb144), (0x539c, 0xc218), (0x8aa2, 0xd604),
  (0x6e25, 0xc545), (0x992b, 0xc6b4), (0x7cae, 0xb7c9), (0x5635, 0xd6a8), (0x813b, 0xcca9),
  (0x64be, 0xacfc), (0x7347, 0xac15), (0x3449, 0xc219), (0x4cce, 0xad6c), (0x87d4, 0xbb35),
  (0x5b57, 0xc790), (0x925d, 0xb9bd), (0x69e0, 0xc800), (0x4367, 0xc7a5), (0x396b, 0xb3c8),
  (0x51f0, 0xd669)]

/-- hanja/table.go:9993-10248 -/
def rawTable39 : List (Nat × Nat) := [
  (0x88f6, 0xbe44), (0x6c79, 0xd749), (0x3c04, 0xc804), (0x8a8b, 0xae30), (0x750a, 0xb8e8),
  (0x498d, 0xc62c), (0x7897, 0xc644), (0x9e18, 0xc0c1), (0x5d1a, 0xb989), (0x60a7, 0xb9ac),
  (0x8628, 0xc694), (0x452a, 0xc0c1), (0x3f2e, 0xcc28), (0x95b5, 0xb9b0), (0x7434, 0xae08),
  (0x48b7, 0xb2e8), (0x7bc1, 0xd669), (0x9942, 0xc628), (0x5c44, 0xbe44), (0x63d1, 0xc5f4),
  (0x8152, 0xac70), (0x4454, 0xbc8c), (0x3e58, 0xc720), (0x94df, 0xc778), (0x775e, 0xb798),
  (0x4be1, 0xacb8), (0x7aeb, 0xc815), (0x986c, 0xc720), (0x5f6e, 0xc6a9), (0x35f5, 0xd6cc),
  (0x62fb, 0xd68c), (0x807c, 0xccad), (0x477e, 0xbd80), (0x3982, 0xc0c1), (0x7688, 0xadc0),
  (0x890d, 0xb2e8), (0x4c0f, 0xc81c), (0x9b96, 0xc11d), (0x7f19, 0xc9c4), (0x5e98, 0xc555),
  (0x83a6, 0xc18c), (0x6729, 0xbe48), (0x46a8, 0xbc1c), (0x38ac, 0xd6a1), (0x71b2, 0xacbd),
  (0x8837, 0xad6c), (0x4f39, 0xc800), (0x9ac0, 0xbe44), (0x7e43, 0xbd95), (0x59c2, 0xd54d),
  (0x82d0, 0xc81c), (0x6653, 0xd6a8), (0x41d2, 0xac1c), (0x3bd6, 0xc801), (0x70dc, 0xd6e4),
  (0x8b61, 0xb2f9), (0x4e63, 0xaddc), (0x796d, 0xc81c), (0x58ec, 0xc784), (0x8dfa, 0xd0c0),
  (0x617d, 0xcc99), (0x40fc, 0xbcf5), (0x5a81, 0xc704), (0x3b00, 0xc21c), (0x9187, 0xc21c),
  (0x6e0e, 0xb3c5), (0x4291, 0xd5a5), (0x561e, 0xb975), (0x6fa3, 0xd55c), (0x8d24, 0xd604),
  (0x7330, 0xc54c), (0x57b3, 0xd589), (0x8eb9, 0xad6d), (0x5b40, 0xc0c1), (0x7cc5, 0xc720),
  (0x9246, 0xcca9), (0x4350, 0xd55c), (0x64d5, 0xd734), (0x93db, 0xc0c1), (0x6862, 0xc815),
  (0x4ce5, 0xc7a0), (0x5072, 0xc2dc), (0x69f7, 0xc5bc), (0x8f78, 0xc9c4), (0x9a01, 0xbe59),
  (0x7d84, 0xd658), (0x4b0b, 0xb989), (0x8211, 0xb2f4), (0x6594, 0xc720), (0x9c9a, 0xc81c),
  (0x701d, 0xb825), (0x351f, 0xc138), (0x4da4, 0xd560), (0x84aa, 0xbc15), (0x582d, 0xd669),
  (0x9733, 0xb96d), (0x6ab6, 0xc5fc), (0x403d, 0xc5f0), (0x3a41, 0xac01), (0x52c6, 0xb791),
  (0x89cc, 0xc801), (0x6d4f, 0xb958), (0x7fd8, 0xad50), (0x3cda, 0xd73c), (0x555f, 0xacc4),
  (0x8c65, 0xd574), (0x67e8, 0xd3ec), (0x9eee, 0xb2f4), (0x7271, 0xac00), (0x3773, 0xb300),
  (0x4ff8, 0xbd09), (0x86fe, 0xc544), (0x9883, 0xd56d), (0x7f02, 0xaca9), (0x5b85, 0xd0dd),
  (0x8093, 0xd669), (0x6712, 0xb275), (0x4395, 0xd6a1), (0x3999, 0xc6b0), (0x729f, 0xac15),
  (0x8c20, 0xb2f9), (0x4f22, 0xc544), (0x7e2c, 0xcd95), (0x5aaf, 0xaddc), (0x87bd, 0xc885),
  (0x663c, 0xc8fc), (0x42bf, 0xbd80), (0x38c3, 0xc721), (0x71c9, 0xb3c8), (0x934a, 0xb828),
  (0x4e4c, 0xc624), (0x9ed7, 0xb3c8), (0x7d56, 0xad11), (0x59d9, 0xc784), (0x86e7, 0xb9dd),
  (0x6566, 0xb3c8), (0x41e9, 0xc608), (0x3fed, 0xcc45), (0x70f3, 0xbcf4), (0x9274, 0xac10),
  (0x4d76, 0xad6c), (0x7c80, 0xc7a5), (0x9b05, 0xbd95), (0x5607, 0xc0bc), (0x6490, 0xd0f1),
  (0x8315, 0xacbd), (0x341b, 0xc6b8), (0x919e, 0xc628), (0x6d21, 0xb8b0), (0x4ca0, 0xcd98),
  (0x9a2f, 0xd33d), (0x5531, 0xcc3d), (0x6bba, 0xc0b4), (0x823f, 0xacfc), (0x3b45, 0xc0bc),
  (0x90c8, 0xd6c4), (0x6c4b, 0xc791), (0x53ca, 0xae09), (0x9959, 0xbd84), (0x545b, 0xcc3d),
  (0x6ae4, 0xc804), (0x8169, 0xb0a8), (0x3a6f, 0xd30c), (0x97f2, 0xc81c), (0x7375, 0xb835),
  (0x52f4, 0xb824), (0x7406, 0xb9ac), (0x5089, 0xb179), (0x8b8f, 0xc704), (0x5c16, 0xcca8),
  (0x759b, 0xc8fc), (0x369d, 0xc21c), (0x971c, 0xc0c1), (0x4426, 0xac11), (0x5dab, 0xc5c5),
  (0x94b1, 0xc804), (0x6938, 0xc774), (0x45bb, 0xb958), (0x5148, 0xc120), (0x6ecd, 0xce58),
  (0x884e, 0xac04), (0x7a5a, 0xad50), (0x56dd, 0xac74), (0x375c, 0xc11d), (0x89e3, 0xd574),
  (0x626a, 0xbb38), (0x7bef, 0xc804), (0x34f1, 0xb450), (0x9570, 0xb834), (0x4a7a, 0xc639),
  (0x63ff, 0xd760), (0x5903, 0xace0), (0x9009, 0xc120), (0x6f8c, 0xc2dc), (0x4113, 0xd669),
  (0x3f17, 0xc815), (0x579c, 0xd0c0), (0x8ea2, 0xb2f5), (0x6a25, 0xbd09), (0x9d2b, 0xc804),
  (0x78ae, 0xc81c), (0x35b0, 0xb625), (0x5235, 0xc774), (0x853b, 0xad6c), (0x60be, 0xacf5),
  (0x9bc4, 0xad6c), (0x7747, 0xc81c), (0x48ce, 0xce58), (0x83d4, 0xbcf5), (0x5f57, 0xd61c),
  (0x965d, 0xc12c), (0x6de0, 0xbe44), (0x4767, 0xbbfc), (0x3d6b, 0xc74d), (0x55f0, 0xac1c),
  (0x8cf6, 0xcc3d), (0x6879, 0xb791), (0x3804, 0xc2b5), (0x8e8b, 0xc81c), (0x710a, 0xd55c),
  (0x4d8d, 0xc81c), (0x7c97, 0xc870), (0x9a18, 0xcd1d), (0x591a, 0xb2e4), (0x64a7, 0xc808),
  (0x8228, 0xd310), (0x412a, 0xcd08), (0x3b2e, 0xb09c), (0x91b5, 0xac39), (0x7034, 0xc601),
  (0x4cb7, 0xbaa9), (0x7fc1, 0xc639), (0x9d42, 0xd734), (0x5844, 0xbc29), (0x67d1, 0xac10),
  (0x8552, 0xb9e4), (0x4054, 0xd6e4), (0x3a58, 0xc758), (0x90df, 0xacb9), (0x735e, 0xb3d9),
  (0x4fe1, 0xc2e0), (0x7eeb, 0xb989), (0x9c6c, 0xc720), (0x5b6e, 0xc885), (0x66fb, 0xcc9c),
  (0x847c, 0xc885), (0x437e, 0xc5f0), (0x3d82, 0xd669), (0x7288, 0xad8c), (0x8d0d, 0xc12c),
  (0x480f, 0xacc4), (0x9f96, 0xb2f5), (0x7b19, 0xc0dd), (0x5a98, 0xac1c), (0x87a6, 0xc18c),
  (0x6329, 0xc138)]

/-- hanja/table.go:10249-10504 -/
def rawTable40 : List (Nat × Nat) := [
  (0x42a8, 0xb77c), (0x3cac, 0xcd08), (0x75b2, 0xd53c), (0x8c37, 0xace1), (0x4b39, 0xc9c8),
  (0x9ec0, 0xcd94), (0x7a43, 0xc6a9), (0x5dc2, 0xd734), (0x86d0, 0xace1), (0x6253, 0xd0c0),
  (0x45d2, 0xbcd1), (0x3fd6, 0xb85c), (0x74dc, 0xacfc), (0x8f61, 0xbe44), (0x4a63, 0xb3c4),
  (0x7d6d, 0xad8c), (0x5cec, 0xd3ec), (0x89fa, 0xc758), (0x657d, 0xad50), (0x44fc, 0xb9dd),
  (0x5e81, 0xccad), (0x3f00, 0xb2ec), (0x9587, 0xd3d0), (0x6a0e, 0xcd9c), (0x4691, 0xb9e4),
  (0x521e, 0xcc98), (0x6ba3, 0xadfc), (0x8924, 0xc6d0), (0x7730, 0xc9c8), (0x53b3, 0xc5c4),
  (0x3432, 0xb300), (0x8ab9, 0xbe44), (0x5f40, 0xad6c), (0x78c5, 0xbc29), (0x35c7, 0xd558),
  (0x9646, 0xb959), (0x4750, 0xc218), (0x60d5, 0xcc99), (0x97db, 0xbc30), (0x6c62, 0xd1a0),
  (0x48e5, 0xbe44), (0x5472, 0xc790), (0x6df7, 0xd63c), (0x8b78, 0xc8fc), (0x9e01, 0xb77c),
  (0x7984, 0xb85d), (0x3686, 0xbcf5), (0x4f0b, 0xae09), (0x8611, 0xb9c8), (0x6194, 0xcd08),
  (0x989a, 0xc545), (0x741d, 0xbbfc), (0x49a4, 0xcd40), (0x80aa, 0xbc29), (0x5c2d, 0xc694),
  (0x9333, 0xb9f9), (0x6eb6, 0xc6a9), (0x443d, 0xb9cc), (0x3e41, 0xb7c9), (0x56c6, 0xcc44),
  (0x8dcc, 0xc9c8), (0x694f, 0xaddc), (0x7bd8, 0xcd94), (0x38da, 0xd1b5), (0x515f, 0xc2e0),
  (0x8865, 0xbcf4), (0x63e8, 0xc815), (0x9aee, 0xbc1c), (0x7671, 0xd0c4), (0x4bf8, 0xcc28),
  (0x82fe, 0xd544), (0x8906, 0xc81c), (0x520c, 0xcd0c), (0x768f, 0xd33d), (0x3f95, 0xc2e0),
  (0x4599, 0xc81c), (0x6a1c, 0xc790), (0x94a3, 0xd310), (0x5da9, 0xb18d), (0x8830, 0xc0c1),
  (0x5136, 0xd734), (0x75b9, 0xc9c4), (0x3ebf, 0xc774), (0x44c3, 0xc74d), (0x6946, 0xc694),
  (0x93cd, 0xb77c), (0x5cd3, 0xc774), (0x875a, 0xc720), (0x5060, 0xc694), (0x74e3, 0xd310),
  (0x3de9, 0xd76c), (0x9f6a, 0xcc29), (0x43ed, 0xc8fc), (0x6870, 0xad04), (0x92f7, 0xcd5c),
  (0x5bfd, 0xb960), (0x6101, 0xc218), (0x8684, 0xbc29), (0x4f8a, 0xad11), (0x7911, 0xb2f9),
  (0x9e94, 0xad6c), (0x481b, 0xc694), (0x679a, 0xb9e4), (0x9725, 0xbabd), (0x602b, 0xbd88),
  (0x7faa, 0xb7c9), (0x85ae, 0xc218), (0x4eb4, 0xc6b0), (0x783b, 0xb871), (0x9dbe, 0xd55c),
  (0x4745, 0xd68c), (0x66c4, 0xc5fd), (0x964f, 0xd0c0), (0x5f55, 0xb85d), (0x7ed4, 0xace0),
  (0x84d8, 0xace4), (0x7765, 0xbe44), (0x9ce8, 0xb825), (0x466f, 0xcd95), (0x65ee, 0xc6b1),
  (0x9579, 0xad6c), (0x5e7f, 0xc5c4), (0x7dfe, 0xc804), (0x4d08, 0xc624), (0x718b, 0xb0b4),
  (0x8e0a, 0xc6a9), (0x6518, 0xc591), (0x4a9d, 0xd68d), (0x8f9f, 0xd53c), (0x3826, 0xd48d),
  (0x7d28, 0xbd80), (0x62ad, 0xc720), (0x832c, 0xce58), (0x39bb, 0xc2b5), (0x563a, 0xad50),
  (0x7abd, 0xad00), (0x9b3c, 0xadc0), (0x80c1, 0xd611), (0x6e4a, 0xc8fc), (0x57cf, 0xc5f0),
  (0x98d1, 0xbc15), (0x4b5c, 0xb8cc), (0x6fdf, 0xc81c), (0x8c5e, 0xd6c4), (0x636c, 0xbd80),
  (0x48f1, 0xd6c4), (0x8df3, 0xb3c4), (0x367a, 0xada4), (0x7b7c, 0xc6b4), (0x8180, 0xbc29),
  (0x6605, 0xac81), (0x548e, 0xad6c), (0x9990, 0xc218), (0x3d13, 0xc0ac), (0x7e15, 0xc628),
  (0x4317, 0xbb34), (0x8419, 0xce68), (0x6c9e, 0xc7a1), (0x5b27, 0xc9c4), (0x9c29, 0xc694),
  (0x49b0, 0xad6c), (0x8ab2, 0xacfc), (0x7337, 0xc720), (0x61c0, 0xc678), (0x4c49, 0xc800),
  (0x914b, 0xcd94), (0x34ce, 0xce68), (0x79d0, 0xc6b4), (0x6459, 0xb828), (0x52e2, 0xc138),
  (0x97e4, 0xb9d0), (0x3b67, 0xbc18), (0x7c69, 0xbcc0), (0x416b, 0xc218), (0x826d, 0xc30d),
  (0x6af2, 0xc5ec), (0x597b, 0xb09c), (0x9a7d, 0xb178), (0x4404, 0xd568), (0x6887, 0xb871),
  (0x970e, 0xc0bd), (0x5c14, 0xc774), (0x8a9b, 0xce68), (0x53a1, 0xc6d0), (0x7424, 0xc7c1),
  (0x3d2a, 0xc5bc), (0x472e, 0xb85c), (0x6bb1, 0xc12c), (0x9638, 0xc561), (0x5f3e, 0xd0c4),
  (0x85c5, 0xbc8c), (0x52cb, 0xd6c8), (0x774e, 0xd76c), (0x9dd5, 0xc694), (0x3c54, 0xc0ac),
  (0x4658, 0xcd95), (0x6adb, 0xc990), (0x9162, 0xcd08), (0x5e68, 0xcca8), (0x84ef, 0xcd1d),
  (0x7678, 0xacc4), (0x9cff, 0xc625), (0x3f7e, 0xc62c), (0x4182, 0xb834), (0x6f09, 0xb85d),
  (0x908c, 0xb824), (0x340f, 0xc62c), (0x5992, 0xd22c), (0x891d, 0xb2e8), (0x5623, 0xbd95),
  (0x71a2, 0xbd09), (0x3ea8, 0xc0ac), (0x40ac, 0xacf5), (0x6e33, 0xbbf8), (0x93b6, 0xac00),
  (0x3739, 0xad6c), (0x58bc, 0xaca9), (0x8847, 0xb9e5), (0x514d, 0xba74), (0x70cc, 0xd734),
  (0x39d2, 0xc694), (0x43d6, 0xc778), (0x695d, 0xb828), (0x92e0, 0xc2e0), (0x3663, 0xc7a5),
  (0x5be6, 0xc2e4), (0x8b71, 0xc120), (0x5077, 0xd22c), (0x73f6, 0xc81c), (0x38fc, 0xc778),
  (0x4300, 0xacfc), (0x6783, 0xc9c4), (0x8002, 0xb85c), (0x3a91, 0xc5c5), (0x5b10, 0xc12c),
  (0x7f93, 0xd30c), (0x9812, 0xbc18), (0x8197, 0xcd5c), (0x7320, 0xc804), (0x54a5, 0xd76c),
  (0x99a7, 0xc628), (0x4832, 0xb839), (0x6cb5, 0xb824), (0x8d34, 0xcca9), (0x6042, 0xc21c),
  (0x49c7, 0xc758), (0x8ec9, 0xc625), (0x3b50, 0xb9d0), (0x7852, 0xc11c), (0x61d7, 0xd558),
  (0x8256, 0xcc28), (0x34e5, 0xb2f9), (0x5564, 0xbe44), (0x79e7, 0xc559), (0x9a66, 0xc0c1),
  (0x83eb, 0xadfc)]

/-- hanja/table.go:10505-10760 -/
def rawTable41 : List (Nat × Nat) := [
  (0x6d74, 0xc695), (0x56f9, 0xb839), (0x9bfb, 0xb784), (0x4a86, 0xccb4), (0x8f88, 0xbc30),
  (0x700d, 0xc804), (0xfa11, 0xae30), (0x6296, 0xb450), (0x4d1f, 0xd658), (0x9221, 0xc911),
  (0x35a4, 0xd568), (0x7aa6, 0xb450), (0x652f, 0xc9c0), (0x57b8, 0xc644), (0x94ba, 0xc6d4),
  (0x383d, 0xb3d9), (0x7d3f, 0xd0dc), (0x4241, 0xb839), (0x8743, 0xccb4), (0x6fc8, 0xc999),
  (0x5a51, 0xc720), (0x9f53, 0xce5c), (0x44da, 0xc11c), (0x89dc, 0xc790), (0x7261, 0xbaa8),
  (0x5cea, 0xc695), (0x4f73, 0xac00), (0x8c75, 0xc885), (0x37f8, 0xace0), (0x74fa, 0xc7a5),
  (0x8d06, 0xd45c), (0x560c, 0xd45c), (0x728f, 0xd3b8), (0x3b95, 0xc774), (0x4199, 0xc694),
  (0x6e1c, 0xb09c), (0x90a3, 0xb098), (0x3722, 0xb8e8), (0x59a9, 0xbb34), (0x8c30, 0xb780),
  (0x5536, 0xcc28), (0x71b9, 0xd76c), (0x3abf, 0xc808), (0x40c3, 0xac15), (0x6d46, 0xc7a5),
  (0x97cd, 0xbd88), (0x364c, 0xc18c), (0x58d3, 0xc555), (0x835a, 0xd611), (0x5460, 0xbcf8),
  (0x70e3, 0xd68c), (0x39e9, 0xd328), (0x9b6a, 0xac1c), (0x47ed, 0xc870), (0x6c70, 0xd0dc),
  (0x96f7, 0xb8b0), (0x3576, 0xc740), (0x5ffd, 0xd640), (0x6501, 0xc591), (0x8284, 0xd658),
  (0x4b8a, 0xc774), (0x7d11, 0xbd80), (0x9a94, 0xc885), (0x4c1b, 0xb825), (0x639a, 0xb7c9),
  (0x34a0, 0xd574), (0x9325, 0xc721), (0x642b, 0xbc18), (0x7baa, 0xb2e8), (0x81ae, 0xd6a8),
  (0x4ab4, 0xce68), (0x7c3b, 0xacfc), (0x99be, 0xb2f4), (0x4345, 0xb839), (0x62c4, 0xc8fc),
  (0x924f, 0xc11c), (0x5b55, 0xc789), (0x7ad4, 0xc2b9), (0x80d8, 0xd604), (0x49de, 0xb9c8),
  (0x7365, 0xaca9), (0x98e8, 0xd5a5), (0x426f, 0xd55c), (0x61ee, 0xc6b0), (0x9179, 0xb8b0),
  (0x5a7f, 0xc11c), (0x79fe, 0xb18d), (0x4908, 0xd61c), (0x758b, 0xd544), (0x8a0a, 0xc2e0),
  (0x6118, 0xac00), (0x4e9d, 0xc81c), (0x8b9f, 0xb3c5), (0x3c26, 0xac70), (0x7928, 0xb8b0),
  (0x66ad, 0xd638), (0x872c, 0xd568), (0x3dbb, 0xbd09), (0x523a, 0xc790), (0x7ebd, 0xb274),
  (0x9f3c, 0xaddc), (0x84c1, 0xc9c4), (0x6a4a, 0xb958), (0x53cf, 0xcf8c), (0x9cd1, 0xbc29),
  (0x4f5c, 0xc791), (0x6bdf, 0xbaa8), (0x885e, 0xc704), (0x676c, 0xc6d0), (0x4cf1, 0xbaa9),
  (0x89f3, 0xace1), (0x7f7c, 0xd544), (0x8580, 0xc628), (0x6205, 0xb2f9), (0x508e, 0xc804),
  (0x9d90, 0xc220), (0x3913, 0xbd84), (0x7a15, 0xc900), (0x4717, 0xd760), (0x8019, 0xd30c),
  (0x689e, 0xae30), (0x5f27, 0xd638), (0x9829, 0xbcd1), (0x4db0, 0xcd08), (0x8eb2, 0xd0c0),
  (0x7737, 0xad8c), (0x65c0, 0xba70), (0x4849, 0xac15), (0x954b, 0xb2f9), (0x7dd0, 0xbc88),
  (0x6059, 0xc591), (0x56e2, 0xb2e8), (0x93e4, 0xb8e8), (0x3f67, 0xc9c0), (0x7869, 0xcc99),
  (0x456b, 0xae30), (0x866d, 0xb3c4), (0x6ef2, 0xc0bc), (0x5d7b, 0xac15), (0x9e7d, 0xc5fc),
  (0x4004, 0xbabd), (0x6c87, 0xc5f0), (0x358d, 0xb463), (0x930e, 0xd568), (0x5814, 0xc2ec),
  (0x8e9b, 0xc704), (0x57a1, 0xbc8c), (0x7024, 0xd68c), (0xfa28, 0xd589), (0x392a, 0xc6d0),
  (0x432e, 0xc0c1), (0x6fb1, 0xc804), (0x34b7, 0xd765), (0x9238, 0xbc1c), (0x5b3e, 0xb780),
  (0x81c5, 0xcd09), (0x56cb, 0xcc2c), (0x734e, 0xc7a5), (0x99d5, 0xac00), (0x3854, 0xbb34),
  (0x4258, 0xc0c1), (0x6edb, 0xc81c), (0x37e1, 0xad8c), (0x9562, 0xad90), (0x5a68, 0xb860),
  (0x80ef, 0xace0), (0x49f5, 0xc9d0), (0x7278, 0xc790), (0x98ff, 0xb3cc), (0x3b7e, 0xad74),
  (0x4582, 0xb780), (0x6b09, 0xcd1d), (0x948c, 0xc870), (0x5d92, 0xc99d), (0x8d1d, 0xd328),
  (0x5223, 0xc885), (0x75a2, 0xc9c4), (0x3aa8, 0xc120), (0x44ac, 0xb9c9), (0x6a33, 0xc2ec),
  (0x97b6, 0xbc18), (0x5cbc, 0xd3c9), (0x8c47, 0xac15), (0x554d, 0xd1a4), (0x74cc, 0xad34),
  (0x3dd2, 0xc6b0), (0x47d6, 0xc9c0), (0x6d5d, 0xbc29), (0x96e0, 0xc218), (0x5fe6, 0xac1c),
  (0x8f71, 0xace0), (0x5477, 0xd569), (0x77f6, 0xae30), (0x3cfc, 0xd544), (0x4700, 0xb178),
  (0x6383, 0xc18c), (0x8402, 0xd654), (0x3e91, 0xc0bc), (0x5f10, 0xc774), (0x7b93, 0xb85d),
  (0x9c12, 0xbcf5), (0x8597, 0xc6d0), (0x7720, 0xba74), (0x50a5, 0xb2f9), (0x9da7, 0xc601),
  (0x4c32, 0xc54c), (0x68b5, 0xbc94), (0x8934, 0xb78c), (0x6442, 0xc12d), (0x8ac9, 0xc704),
  (0x3f50, 0xd610), (0x7c52, 0xc8fc), (0x65d7, 0xae30), (0x8656, 0xd638), (0x5164, 0xd669),
  (0x7de7, 0xcd94), (0x9e66, 0xc575), (0x87eb, 0xb2f4), (0x6974, 0xccb4), (0x52f9, 0xd3ec),
  (0x4e86, 0xb8cc), (0x8b88, 0xb825), (0x370b, 0xc775), (0x740d, 0xb9ac), (0x6696, 0xb09c),
  (0x491f, 0xce68), (0x9621, 0xcc9c), (0x7ea6, 0xc57d), (0x612f, 0xc1a1), (0x53b8, 0xb9b0),
  (0x90ba, 0xc5c5), (0x3c3d, 0xc5b8), (0x793f, 0xc57d), (0x4641, 0xc794), (0x8343, 0xc804),
  (0x6bc8, 0xb2e8), (0x5e51, 0xd718), (0x9b53, 0xd544), (0x40da, 0xcd09), (0x8ddc, 0xb2c8),
  (0x7661, 0xce58), (0x58ea, 0xb9cc), (0x4b73, 0xc704), (0x8875, 0xc77c), (0x70fa, 0xb791),
  (0x8106, 0xcde8), (0x5a0c, 0xb9ac), (0x7e8f, 0xc804), (0x3795, 0xc124), (0x4d99, 0xac70),
  (0x621c, 0xc9c8), (0x9ca3, 0xacac), (0x3b22, 0xd76c), (0x55a9, 0xc720), (0x8030, 0xc6b0),
  (0x5936, 0xbe44)]

/-- hanja/table.go:10761-11016 -/
def rawTable42 : List (Nat × Nat) := [
  (0x7db9, 0xb958), (0x36bf, 0xd3ec), (0x4cc3, 0xc6d0), (0x6146, 0xb3c4), (0x9bcd, 0xbab8),
  (0x3a4c, 0xbe44), (0x54d3, 0xd6a8), (0x8f5a, 0xaca9), (0x5860, 0xd1f4), (0x7ce3, 0xc0bc),
  (0x35e9, 0xc2b5), (0x976a, 0xc815), (0x4bed, 0xc12c), (0x6070, 0xd761), (0x9af7, 0xace1),
  (0x3976, 0xc0c9), (0x53fd, 0xae30), (0x6901, 0xacfd), (0x8e84, 0xbcbd), (0x478a, 0xc608),
  (0x7111, 0xace4), (0x9694, 0xaca9), (0x401b, 0xb9e4), (0x6f9a, 0xc624), (0x38a0, 0xd615),
  (0x9f25, 0xbc1c), (0x682b, 0xcc9c), (0x77aa, 0xc9d5), (0x8dae, 0xc870), (0x46b4, 0xc648),
  (0x703b, 0xb300), (0x95be, 0xc5ed), (0x4f45, 0xb9e4), (0x6ec4, 0xcc3d), (0x9e4f, 0xbd95),
  (0x5755, 0xacbd), (0x76d4, 0xd68c), (0x8cd8, 0xc7a5), (0x45de, 0xc7a0), (0x7f65, 0xacac),
  (0x94e8, 0xc804), (0x4e6f, 0xc62c), (0x6dee, 0xd68c), (0x9d79, 0xb824), (0x567f, 0xcde8),
  (0x75fe, 0xc544), (0x4508, 0xacf5), (0x798b, 0xc778), (0x860a, 0xc628), (0x6d18, 0xace0),
  (0x429d, 0xc2e4), (0x879f, 0xba85), (0x7528, 0xc6a9), (0x6aad, 0xc740), (0x8b2c, 0xb958),
  (0x5e3a, 0xae30), (0x72bd, 0xc544), (0x933c, 0xb0b4), (0x88c1, 0xc7ac), (0x664a, 0xc9c8),
  (0x5fcf, 0xcc9c), (0x90d1, 0xc815), (0x435c, 0xc870), (0x67df, 0xb0a8), (0x845e, 0xbbf8),
  (0x6b6c, 0xc804), (0x40f1, 0xc12c), (0x85f3, 0xace0), (0x3e7a, 0xd0d1), (0x737c, 0xbbf8),
  (0x8980, 0xc544), (0x6e05, 0xccad), (0x5c8e, 0xbd84), (0x9190, 0xd638), (0x3513, 0xac74),
  (0x7615, 0xd558), (0x4b17, 0xc591), (0x8c19, 0xc554), (0x649e, 0xb2f9), (0x5327, 0xd611),
  (0x9429, 0xc218), (0x41b0, 0xc6b0), (0x82b2, 0xd654), (0x7b37, 0xbb18), (0x69c0, 0xace0),
  (0x4449, 0xc601), (0x994b, 0xada4), (0x3cce, 0xbcc0), (0x71d0, 0xb9b0), (0x6c59, 0xc624),
  (0x5ae2, 0xaddc), (0x7469, 0xd615), (0x496b, 0xcca0), (0x8a6d, 0xada4), (0x62f2, 0xacf5),
  (0x517b, 0xc591), (0x927d, 0xc2dd), (0x4c04, 0xc0c8), (0x6087, 0xc11c), (0x398d, 0xc545),
  (0x9f0e, 0xc815), (0x5414, 0xc57c), (0x829b, 0xc21c), (0x5ba1, 0xc2ec), (0x7c24, 0xb300),
  (0x352a, 0xb85c), (0x4f2e, 0xb178), (0x63b1, 0xc218), (0x38b7, 0xc138), (0x9e38, 0xc774),
  (0x573e, 0xae09), (0x8dc5, 0xd0c1), (0x5acb, 0xb1e8), (0x7f4e, 0xb2f4), (0x95d5, 0xad90),
  (0x3454, 0xc218), (0x4e58, 0xc2b9), (0x62db, 0xcd08), (0x3be1, 0xd3ec), (0x9962, 0xb0ad),
  (0x5668, 0xae30), (0x8cef, 0xd615), (0x45f5, 0xac15), (0x7e78, 0xc218), (0x94ff, 0xac31),
  (0x377e, 0xc88c), (0x4982, 0xc0bc), (0x6709, 0xc720), (0x988c, 0xd569), (0x3c0f, 0xace0),
  (0x5192, 0xbaa8), (0x811d, 0xd615), (0x5e23, 0xad8c), (0x79a2, 0xd0d1), (0x36a8, 0xc2e0),
  (0x48ac, 0xcc9c), (0x6633, 0xc9c8), (0x9bb6, 0xad70), (0x3f39, 0xac15), (0x50bc, 0xd55c),
  (0x8047, 0xc815), (0x594d, 0xc591), (0x78cc, 0xc804), (0x4bd6, 0xb791), (0x615d, 0xd2b9),
  (0x9ae0, 0xace4), (0x3e63, 0xc885), (0x53e6, 0xb839), (0x8371, 0xbbf8), (0x5877, 0xb85c),
  (0x7bf6, 0xc5b8), (0x4b00, 0xc720), (0x6f83, 0xacbd), (0x8802, 0xc12d), (0x5310, 0xbcf5),
  (0x7793, 0xd6c8), (0x9012, 0xccb4), (0x8997, 0xc0ac), (0x7b20, 0xb9bd), (0x5ca5, 0xd30c),
  (0x91a7, 0xc5b4), (0x4032, 0xbaa9), (0x64b5, 0xb828), (0x8534, 0xb9c8), (0x6842, 0xacc4),
  (0x41c7, 0xb9f9), (0x86c9, 0xb839), (0x7052, 0xcc2c), (0x69d7, 0xad50), (0x8a56, 0xd53c),
  (0x3ce5, 0xb871), (0x5d64, 0xd615), (0x71e7, 0xc218), (0x9266, 0xc815), (0x8beb, 0xacc4),
  (0x6574, 0xc815), (0x5ef9, 0xbc15), (0x93fb, 0xb9b0), (0x4286, 0xad6c), (0x8788, 0xc6d0),
  (0x3b0b, 0xd6c4), (0x780d, 0xac10), (0x6a96, 0xc218), (0x451f, 0xc774), (0x9a21, 0xc804),
  (0x3da4, 0xcd08), (0x72a6, 0xbc15), (0x6d2f, 0xacb0), (0x5fb8, 0xc885), (0x9cba, 0xc2ac),
  (0x753f, 0xb9f9), (0x4a41, 0xbe44), (0x8f43, 0xc9c4), (0x67c8, 0xbc18), (0x5251, 0xac80),
  (0x9753, 0xc815), (0x4cda, 0xac04), (0x81dc, 0xc7a0), (0x7a61, 0xc0c9), (0x54ea, 0xb098),
  (0x4773, 0xc794), (0x8475, 0xaddc), (0x3ff8, 0xb9cc), (0x7cfa, 0xaddc), (0x8506, 0xb989),
  (0x5e0c, 0xd76c), (0x7a8f, 0xc624), (0x4999, 0xd788), (0x661c, 0xc591), (0x98a3, 0xb8b0),
  (0x3f22, 0xc774), (0x51a9, 0xc0ac), (0x8430, 0xb828), (0x5d36, 0xbd09), (0x79b9, 0xc6b0),
  (0x48c3, 0xc0ac), (0x6546, 0xac11), (0x3e4c, 0xc0b0), (0x50d3, 0xd1f4), (0x8b5a, 0xb2f4),
  (0x5c60, 0xb3c4), (0x78e3, 0xcc38), (0x936a, 0xbb34), (0x4fed, 0xac80), (0x6470, 0xccb4),
  (0x9ef7, 0xb3c5), (0x3d76, 0xcd2c), (0x57fd, 0xc18c), (0x6d01, 0xae38), (0x8a84, 0xb8b0),
  (0x438a, 0xb77d), (0x7511, 0xc99d), (0x9294, 0xd53c), (0x441b, 0xb2f5), (0x6b9a, 0xd0c4),
  (0x3ca0, 0xb9ac), (0x9b25, 0xb450), (0x6c2b, 0xacbd), (0x73aa, 0xac10), (0x89ae, 0xc601),
  (0x42b4, 0xacb8), (0x743b, 0xae08), (0x91be, 0xbbf8), (0x4b45, 0xace0), (0x6ac4, 0xcd98),
  (0x9a4f, 0xc794), (0x5355, 0xb2e8), (0x72d4, 0xb2c8), (0x88d8, 0xad6c), (0x41de, 0xac10),
  (0x7b65, 0xac70), (0x90e8, 0xbd80), (0x4a6f, 0xadf9), (0x69ee, 0xc0bc), (0x9979, 0xb77d),
  (0x527f, 0xcd08)]

/-- hanja/table.go:11017-11272 -/
def rawTable43 : List (Nat × Nat) := [
  (0x71fe, 0xb3c4), (0x4108, 0xb450), (0x7d8b, 0xad49), (0x820a, 0xad6c), (0x6918, 0xcd08),
  (0x469d, 0xc878), (0x839f, 0xd568), (0x3426, 0xac78), (0x7128, 0xbd09), (0x6ead, 0xc9c1),
  (0x8f2c, 0xb7c9), (0x35bb, 0xb274), (0x5a3a, 0xcd2c), (0x76bd, 0xc804), (0x973c, 0xd76c),
  (0x8cc1, 0xbd84), (0x624a, 0xc5fc), (0x5bcf, 0xd658), (0x94d1, 0xb85c), (0x475c, 0xc0b0),
  (0x63df, 0xc11c), (0x805e, 0xbb38), (0x6f6c, 0xb2e8), (0x44f1, 0xc2dc), (0x81f3, 0xc9c0),
  (0x3a7a, 0xbe44), (0x777c, 0xc81c), (0x8d80, 0xc790), (0x6a05, 0xc885), (0x588e, 0xacfd),
  (0x9590, 0xc0bc), (0x7215, 0xc12d), (0x4f17, 0xc911), (0x8819, 0xbe48), (0x609e, 0xc624),
  (0x5727, 0xc555), (0x9029, 0xbd84), (0x45b0, 0xd328), (0x86b2, 0xd3c9), (0x7f37, 0xc0ac),
  (0x6dc0, 0xc815), (0x4049, 0xacc4), (0x9d4b, 0xae30), (0x38ce, 0xbaa9), (0x75d0, 0xd68c),
  (0x6859, 0xc6b0), (0x5ee2, 0xd3d0), (0x9be4, 0xace4), (0x3767, 0xc628), (0x7069, 0xc5fc),
  (0x4d6b, 0xd6c8), (0x8e6d, 0xce35), (0x66f2, 0xace1), (0x557b, 0xc2dc), (0x967d, 0xc591),
  (0x4804, 0xc804), (0x6487, 0xbcc4), (0x3d8d, 0xc120), (0x9b0e, 0xb784), (0x5014, 0xad74),
  (0x869b, 0xc911), (0x5fa1, 0xc5b4), (0x7824, 0xd0c0), (0x4b2e, 0xc774), (0x67b1, 0xc774),
  (0x3cb7, 0xb2f4), (0x9a38, 0xc120), (0x533e, 0xd3b8), (0x89c5, 0xba71), (0x5ecb, 0xc218),
  (0x7b4e, 0xc5ec), (0x91d5, 0xc870), (0x4a58, 0xc81c), (0x66db, 0xd6c8), (0x3fe1, 0xb450),
  (0x9d62, 0xc2e0), (0x5268, 0xad35), (0x88ef, 0xc8fc), (0x41f5, 0xc740), (0x7a78, 0xc11d),
  (0x90ff, 0xbbf8), (0x4d82, 0xd45c), (0x6309, 0xc548), (0x9c8c, 0xbc31), (0x380f, 0xd654),
  (0x5592, 0xc7a0), (0x851d, 0xbbf8), (0x5a23, 0xc81c), (0x7da2, 0xc8fc), (0x4cac, 0xc9c0),
  (0x6233, 0xcc29), (0x3b39, 0xc7c1), (0x54bc, 0xad18), (0x8447, 0xc720), (0x5d4d, 0xbb34),
  (0x7ccc, 0xcc30), (0x35d2, 0xc560), (0x4fd6, 0xbc30), (0x655d, 0xd3d0), (0x9ee0, 0xd790),
  (0x3a63, 0xd718), (0x57e6, 0xc644), (0x8771, 0xb9f9), (0x5c77, 0xd68c), (0x7ff6, 0xace0),
  (0x34fc, 0xce60), (0x4f00, 0xc885), (0x6b83, 0xc559), (0x8c02, 0xc2ec), (0x3691, 0xb839),
  (0x5710, 0xace0), (0x7393, 0xc801), (0x9412, 0xb85c), (0x8d97, 0xcd09), (0x7f20, 0xc804),
  (0x58a5, 0xb3d9), (0x95a7, 0xd64d), (0x4432, 0xc811), (0x60b5, 0xcc3d), (0x8134, 0xbe44),
  (0x6c42, 0xad6c), (0x45c7, 0xad6d), (0x82c9, 0xd544), (0x3750, 0xc6a9), (0x7452, 0xcc3d),
  (0x6dd7, 0xad6d), (0x8e56, 0xc6a9), (0x38e5, 0xce58), (0x5964, 0xbc18), (0x75e7, 0xc0ac),
  (0x9666, 0xb3c4), (0x8feb, 0xbc15), (0x6174, 0xc2b5), (0x5af9, 0xbb18), (0x97fb, 0xc6b4),
  (0x4686, 0xc601), (0x8388, 0xbab0), (0x3f0b, 0xace0), (0x7c0d, 0xb8e8), (0x6e96, 0xc900),
  (0x411f, 0xccb4), (0x9e21, 0xacc4), (0x39a4, 0xc758), (0x76a6, 0xad50), (0x692f, 0xd0c0),
  (0x5bb8, 0xc2e0), (0x98ba, 0xc591), (0x343d, 0xd48d), (0x713f, 0xacbd), (0x4e41, 0xc774),
  (0x8b43, 0xd6c4), (0x63c8, 0xd6a1), (0x5651, 0xd638), (0x9353, 0xc9d1), (0x48da, 0xb8e8),
  (0x85dc, 0xb824), (0x7e61, 0xc218), (0x50ea, 0xacb0), (0x4373, 0xacb0), (0x8075, 0xc678),
  (0x3bf8, 0xc9c4), (0x78fa, 0xad11), (0x3785, 0xb77c), (0x9906, 0xc694), (0x420c, 0xc800),
  (0x668f, 0xb3c4), (0x5599, 0xd6fc), (0x7a1c, 0xb989), (0x84a3, 0xc11c), (0x4da9, 0xc81c),
  (0x36af, 0xc2ec), (0x9830, 0xd611), (0x4136, 0xd544), (0x65b9, 0xbc29), (0x54c3, 0xb3d9),
  (0x7946, 0xcc9c), (0x83cd, 0xc784), (0x4cd3, 0xb85c), (0x35d9, 0xcd94), (0x975a, 0xc815),
  (0x4060, 0xb834), (0x64e3, 0xb3c4), (0x8f6a, 0xb300), (0x53ed, 0xd314), (0x7870, 0xc0ac),
  (0x82f7, 0xac10), (0x4bfd, 0xbd80), (0x7101, 0xd76c), (0x9684, 0xc81c), (0x3a07, 0xd30c),
  (0x5f8a, 0xd68c), (0x6911, 0xbe44), (0x8e94, 0xc804), (0x581b, 0xbcbd), (0x779a, 0xc21c),
  (0x8725, 0xc11d), (0x702b, 0xace1), (0x6faa, 0xb839), (0x95ae, 0xc815), (0x3931, 0xbd80),
  (0x5eb4, 0xc801), (0x683b, 0xc2dd), (0x8dbe, 0xc9c0), (0x5745, 0xae08), (0x76c4, 0xc870),
  (0x3fca, 0xcc38), (0x864f, 0xb85c), (0x4f55, 0xd558), (0x6ed4, 0xb3c4), (0x94d8, 0xc57c),
  (0x385b, 0xd669), (0x5dde, 0xc8fc), (0x6765, 0xb798), (0x8ce8, 0xc885), (0x566f, 0xc560),
  (0x75ee, 0xc7a5), (0x3ef4, 0xb9cc), (0x8579, 0xc639), (0x4e7f, 0xce58), (0x6dfe, 0xc74c),
  (0x3c89, 0xac01), (0x5d08, 0xd654), (0x618b, 0xbcc4), (0x9e0a, 0xbcbd), (0x7518, 0xac10),
  (0x5a9d, 0xcd94), (0x9f9f, 0xad6c), (0x6d28, 0xd6a8), (0x72ad, 0xacac), (0x932c, 0xb3d9),
  (0x463a, 0xd0c4), (0x6abd, 0xb204), (0x8b3c, 0xd638), (0x90c1, 0xc6b1), (0x3d48, 0xd65c),
  (0x7e4a, 0xc12c), (0x47cf, 0xb825), (0x88d1, 0xc2e0), (0x3add, 0xc800), (0x5b5c, 0xc790),
  (0x7fdf, 0xc801), (0x9c5e, 0xd658), (0x736c, 0xd574), (0x58f1, 0xc77c), (0x9df3, 0xd55c),
  (0x6b7c, 0xc12c), (0x9180, 0xc720), (0x3503, 0xc808), (0x7605, 0xb2e8), (0x448e, 0xb9dd),
  (0x8990, 0xac01), (0x6e15, 0xc5f0), (0x5317, 0xbd81), (0x9419, 0xb4f1), (0x3b9c, 0xc7a5),
  (0x7c9e, 0xc11c)]

/-- hanja/table.go:11273-11528 -/
def rawTable44 : List (Nat × Nat) := [
  (0x4b27, 0xc6d0), (0x8c29, 0xb9cc), (0x59b0, 0xc791), (0x9ab2, 0xbc15), (0x3e35, 0xadc0),
  (0x6337, 0xbc29), (0x71c0, 0xcc9c), (0x5c49, 0xccb4), (0x814b, 0xc561), (0x69d0, 0xad34),
  (0x7459, 0xb178), (0x42e2, 0xbcc4), (0x87e4, 0xc804), (0x6c69, 0xace8), (0x516b, 0xd314),
  (0x926d, 0xb2e8), (0x39f0, 0xb825), (0x7af2, 0xc99d), (0x497b, 0xbb34), (0x8a7d, 0xd604),
  (0x5404, 0xac01), (0x7887, 0xc815), (0x870e, 0xc5f0), (0x4c14, 0xbc18), (0x9a9b, 0xbb34),
  (0x351a, 0xad6c), (0x43a1, 0xb09c), (0x6424, 0xc561), (0x572e, 0xbe44), (0x7bb1, 0xc0c1),
  (0x8638, 0xc7a0), (0x4f3e, 0xbe44), (0x95c5, 0xbb38), (0x3444, 0xbaa8), (0x42cb, 0xbbfc),
  (0x674e, 0xb9ac), (0x8dd5, 0xc811), (0x5658, 0xad90), (0x7adb, 0xb839), (0x8162, 0xc6b0),
  (0x4e68, 0xc2dc), (0x94ef, 0xc0c9), (0x376e, 0xcd5c), (0x5df5, 0xce58), (0x6678, 0xc815),
  (0x8cff, 0xb8cc), (0x5182, 0xacbd), (0x7f09, 0xc9d1), (0x808c, 0xae30), (0x4992, 0xd0d5),
  (0x3698, 0xbc18), (0x991d, 0xc2dd), (0x4623, 0xc790), (0x61a2, 0xd6a8), (0x50ac, 0xcd5c),
  (0x7e33, 0xacac), (0x83b6, 0xb834), (0x48bc, 0xacf5), (0x9847, 0xcdcc), (0x414d, 0xc815),
  (0x60cc, 0xc6d0), (0x53d6, 0xcde8), (0x795d, 0xcd95), (0x82e0, 0xbbfc), (0x4be6, 0xb9d0),
  (0x9b71, 0xd638), (0x4077, 0xac01), (0x63f6, 0xc57c), (0x5300, 0xade0), (0x7783, 0xc62c),
  (0x9002, 0xad04), (0x4b10, 0xc704), (0x6f93, 0xbcf5), (0x8812, 0xacac), (0x9197, 0xbc1c),
  (0x3e1e, 0xc808), (0x6320, 0xc694), (0x44a5, 0xb9cc), (0x89a7, 0xb78c), (0x3fb3, 0xc790),
  (0x5832, 0xc990), (0x7cb5, 0xc6d4), (0x9d34, 0xd589), (0x7042, 0xcc29), (0x59c7, 0xbd80),
  (0x9ec9, 0xd6a1), (0x6852, 0xc0c1), (0x71d7, 0xb780), (0x9256, 0xb3d9), (0x4564, 0xae30),
  (0x69e7, 0xcc38), (0x8a66, 0xc2dc), (0x93eb, 0xb824), (0x3872, 0xd658), (0x7d74, 0xc0c1),
  (0x46f9, 0xd604), (0x8bfb, 0xb3c5), (0x5a86, 0xb208), (0x9f88, 0xac04), (0x600d, 0xc791),
  (0x7296, 0xb77d), (0x5d1f, 0xc74c), (0x8221, 0xac15), (0x6aa6, 0xd45c), (0x752f, 0xb155),
  (0x47b8, 0xbd80), (0x84ba, 0xc9c8), (0x6d3f, 0xc624), (0x5241, 0xd0c0), (0x9743, 0xd655),
  (0x3ac6, 0xbbf8), (0x7fc8, 0xd569), (0x4a51, 0xad49), (0x8f53, 0xbc88), (0x54da, 0xd0c0),
  (0x99dc, 0xd544), (0x3d5f, 0xbbf8), (0x6261, 0xd0c0), (0x4cea, 0xc804), (0x5f73, 0xcc99),
  (0x9c75, 0xce68), (0x64fa, 0xd30c), (0x9d06, 0xc9d0), (0x460c, 0xb2d0), (0x628f, 0xc644),
  (0x5199, 0xc0ac), (0x7e1c, 0xc6b4), (0x80a3, 0xae08), (0x49a9, 0xbb38), (0x9c30, 0xc2e0),
  (0x4536, 0xc81c), (0x61b9, 0xb1cc), (0x50c3, 0xbe44), (0x7d46, 0xbc18), (0x87cd, 0xb9ac),
  (0x48d3, 0xb824), (0x935a, 0xc591), (0x4460, 0xb8cc), (0x60e3, 0xcd1d), (0x8b6a, 0xc560),
  (0x57ed, 0xd0dc), (0x7c70, 0xd655), (0x86f7, 0xad6c), (0x4ffd, 0xd754), (0x7501, 0xbcd1),
  (0x9284, 0xd5a5), (0x3e07, 0xcc2c), (0x5b8a, 0xac00), (0x6d11, 0xbcf4), (0x8a94, 0xc815),
  (0x5c1b, 0xb9c8), (0x739a, 0xcc3d), (0x8325, 0xaddc), (0x742b, 0xbd09), (0x6baa, 0xc5d0),
  (0x91ae, 0xcd08), (0x3d31, 0xc2ec), (0x5ab4, 0xc6d0), (0x6c3b, 0xb975), (0x89be, 0xc2ec),
  (0x5345, 0xc0bd), (0x72c4, 0xc801), (0x3bca, 0xd754), (0x824f, 0xc218), (0x4b55, 0xc7a0),
  (0x6ad4, 0xb840), (0x90d8, 0xb824), (0x3c5b, 0xcc9c), (0x59de, 0xae38), (0x6365, 0xc644),
  (0x88e8, 0xbe44), (0x526f, 0xbd80), (0x71ee, 0xc12d), (0x3af4, 0xd6a8), (0x8179, 0xbcf5),
  (0x4a7f, 0xbd84), (0x69fe, 0xb9cc), (0x3889, 0xd0c0), (0x5908, 0xc7ac), (0x658b, 0xc7ac),
  (0x9a0a, 0xb3c4), (0x3416, 0xd608), (0x7118, 0xb3c4), (0x5e9d, 0xb3d9), (0x9b9f, 0xc548),
  (0x6928, 0xbd80), (0x35ab, 0xb989), (0x76ad, 0xc791), (0x972c, 0xc775), (0x423a, 0xc885),
  (0x6ebd, 0xc695), (0x8f3c, 0xc628), (0x94c1, 0xcca0), (0x3948, 0xcca9), (0x7a4a, 0xae30),
  (0x43cf, 0xd6c4), (0x8cd1, 0xc9c4), (0x3edd, 0xb784), (0x5f5c, 0xc774), (0x7bdf, 0xcc9c),
  (0x985e, 0xb958), (0x776c, 0xcc44), (0x5cf1, 0xb178), (0x99f3, 0xb2e8), (0x6f7c, 0xb3d9),
  (0x9580, 0xbb38), (0x7205, 0xbb35), (0x408e, 0xcc2c), (0x8d90, 0xd608), (0x6a15, 0xc18d),
  (0x5717, 0xb3c4), (0x9019, 0xc800), (0x3f9c, 0xd611), (0x789e, 0xc554), (0x4f27, 0xcc3d),
  (0x8829, 0xc800), (0x5db0, 0xd574), (0x9eb2, 0xd55c), (0x3a35, 0xc804), (0x6737, 0xb3c4),
  (0x75c0, 0xad6c), (0x5849, 0xcc99), (0x854b, 0xc608), (0x6dd0, 0xcc3d), (0x3757, 0xb7c9),
  (0x7059, 0xb2f9), (0x46e2, 0xb3c5), (0x83e4, 0xad8c), (0x6869, 0xc7a5), (0x556b, 0xc790),
  (0x966d, 0xae30), (0x3df0, 0xb9ac), (0x7ef2, 0xace4), (0x4d7b, 0xc138), (0x8e7d, 0xb8cc),
  (0x5004, 0xd6a8), (0x7c87, 0xac15), (0x830e, 0xacbd), (0x4814, 0xc218), (0x9e9b, 0xbbf8),
  (0x47a1, 0xb2e8), (0x6024, 0xbd80), (0x532e, 0xada4), (0x7fb1, 0xc644), (0x8238, 0xac00),
  (0x4b3e, 0xc81c), (0x91c5, 0xc5fc), (0x46cb, 0xc790), (0x634e, 0xc18c), (0x89d5, 0xcd94),
  (0x5258, 0xae30), (0x7edb, 0xac15), (0x8562, 0xad34), (0x4a68, 0xcc3d), (0x90ef, 0xb2f4),
  (0x59f5, 0xd328)]

/-- hanja/table.go:11529-11784 -/
def rawTable45 : List (Nat × Nat) := [
  (0x6278, 0xc11d), (0x88ff, 0xae30), (0x5582, 0xc704), (0x7b09, 0xc2e0), (0x848c, 0xb8e8),
  (0x4d92, 0xc81c), (0x9d1d, 0xad6c), (0x4223, 0xc815), (0x65a2, 0xc8fc), (0x54ac, 0xad50),
  (0x7a33, 0xc740), (0x87b6, 0xac70), (0x4cbc, 0xc0dd), (0x35c2, 0xc0dd), (0x9c47, 0xac15),
  (0x454d, 0xc608), (0x64cc, 0xc0c9), (0x57d6, 0xd654), (0x7d5d, 0xace0), (0x86e0, 0xb824),
  (0x4fe6, 0xc8fc), (0x34ec, 0xace0), (0x9f71, 0xcd94), (0x4477, 0xacac), (0x67f6, 0xc0ac),
  (0x3681, 0xad50), (0x5700, 0xad6d), (0x7383, 0xd655), (0x9402, 0xb958), (0x4f10, 0xbc8c),
  (0x6b93, 0xc5fc), (0x8c12, 0xc54c), (0x9597, 0xb450), (0x3a1e, 0xc18c), (0x6720, 0xc601),
  (0x40a5, 0xbbfc), (0x8da7, 0xc81c), (0x3bb3, 0xc9d0), (0x5c32, 0xac10), (0x78b5, 0xc815),
  (0x9934, 0xbd84), (0x3740, 0xd638), (0x7442, 0xbbf8), (0x5dc7, 0xd76c), (0x9ac9, 0xbc15),
  (0x6c52, 0xb9dd), (0x75d7, 0xb9e4), (0x9656, 0xc900), (0x4164, 0xc9d1), (0x6de7, 0xbc00),
  (0x8e66, 0xbd95), (0x97eb, 0xc628), (0x3c72, 0xc758), (0x7974, 0xac1c), (0x42f9, 0xd3ed),
  (0x8ffb, 0xc774), (0x5e86, 0xacbd), (0x9b88, 0xad6c), (0x640d, 0xc190), (0x7696, 0xd658),
  (0x591f, 0xad6c), (0x8621, 0xc601), (0x6ea6, 0xbbf8), (0x342d, 0xb984), (0x712f, 0xc791),
  (0x43b8, 0xc624), (0x80ba, 0xd3d0), (0x693f, 0xcd98), (0x5641, 0xc624), (0x9343, 0xd640),
  (0x3ec6, 0xc5f0), (0x7bc8, 0xbd09), (0x4e51, 0xc74c), (0x8b53, 0xd61c), (0x50da, 0xb8cc),
  (0x9ddc, 0xb8e8), (0x395f, 0xd734), (0x6661, 0xd3ec), (0x48ea, 0xbc1c), (0x5b73, 0xc790),
  (0x9875, 0xd608), (0x60fa, 0xc131), (0x3f85, 0xc790), (0x9106, 0xc6b4), (0x4a0c, 0xbc15),
  (0x6e8f, 0xb2f9), (0x5d99, 0xb9b0), (0x721c, 0xcd1d), (0x8ca3, 0xd2b9), (0x45a9, 0xd544),
  (0x3eaf, 0xb871), (0x9030, 0xc720), (0x4936, 0xc5c5), (0x6db9, 0xc640), (0x5cc3, 0xd559),
  (0x7146, 0xd558), (0x8bcd, 0xc0ac), (0x44d3, 0xc8fc), (0x3dd9, 0xc804), (0x9f5a, 0xc0c9),
  (0x4860, 0xac31), (0x6ce3, 0xc74d), (0x876a, 0xd0d5), (0x5bed, 0xd61c), (0x7070, 0xd68c),
  (0x8af7, 0xd48d), (0x43fd, 0xbd80), (0x7901, 0xcd08), (0x9e84, 0xcd94), (0x578a, 0xbbfc),
  (0x6111, 0xc6a9), (0x8694, 0xae30), (0x501b, 0xae30), (0x7f9a, 0xb839), (0x8f25, 0xace4),
  (0x782b, 0xc8fc), (0x67aa, 0xcc3d), (0x9dae, 0xd559), (0x56b4, 0xc5c4), (0x603b, 0xcd1d),
  (0x85be, 0xc774), (0x5f45, 0xc804), (0x7ec4, 0xc870), (0x37ca, 0xbd80), (0x8e4f, 0xc81c),
  (0x4755, 0xc811), (0x66d4, 0xacbd), (0x9cd8, 0xbbfc), (0x55de, 0xc790), (0x6f65, 0xc18d),
  (0x84e8, 0xc218), (0x5e6f, 0xc808), (0x7dee, 0xbd80), (0x36f4, 0xb1cc), (0x8d79, 0xacbd),
  (0x467f, 0xbbf8), (0x65fe, 0xcd98), (0x3489, 0xcc3d), (0x5508, 0xc74d), (0x698b, 0xcd94),
  (0x960a, 0xcc3d), (0x3816, 0xc758), (0x7d18, 0xad49), (0x529d, 0xad8c), (0x979f, 0xacfd),
  (0x6528, 0xc640), (0x39ab, 0xcc30), (0x7aad, 0xad6c), (0x9b2c, 0xd22c), (0x4e3a, 0xc704),
  (0x62bd, 0xcd94), (0x833c, 0xb3d9), (0x98c1, 0xc2b5), (0x3548, 0xc758), (0x764a, 0xc74c),
  (0x4fcf, 0xc18c), (0x80d1, 0xc9c0), (0x535c, 0xbcf5), (0x77df, 0xc0ad), (0x945e, 0xb78d),
  (0x7b6c, 0xc131), (0x50f1, 0xace0), (0x95f3, 0xad49), (0x637c, 0xb1cc), (0x9980, 0xc5ec),
  (0x3d03, 0xb8e8), (0x7e05, 0xc704), (0x4c8e, 0xb0b4), (0x8190, 0xb824), (0x6615, 0xd754),
  (0x5b17, 0xc120), (0x9c19, 0xc57d), (0x749e, 0xbc15), (0x4327, 0xc8fc), (0x8429, 0xcd94),
  (0x51b0, 0xbe59), (0x92b2, 0xd55c), (0x3635, 0xd3ec), (0x6b37, 0xd76c), (0x79c0, 0xc218),
  (0x5449, 0xc624), (0x894b, 0xadf9), (0x61d0, 0xd68c), (0x3b57, 0xc6b8), (0x7c59, 0xb85d),
  (0x4ae2, 0xc0ac), (0x8fe4, 0xc774), (0x6469, 0xb9c8), (0x596b, 0xc724), (0x9a6d, 0xc5b4),
  (0x72f2, 0xc190), (0x417b, 0xb9ac), (0x827d, 0xad6c), (0x5c04, 0xc0ac), (0x7087, 0xbc15),
  (0x8f0e, 0xc18c), (0x4414, 0xbcc0), (0x929b, 0xc12c), (0x3d1a, 0xc218), (0x4ba1, 0xd544),
  (0x6c24, 0xc778), (0x5f2e, 0xd658), (0x73b1, 0xcc3d), (0x8e38, 0xce68), (0x473e, 0xc74c),
  (0x9dc5, 0xb960), (0x3c44, 0xd751), (0x4acb, 0xd1f4), (0x6f4e, 0xbcc4), (0x85d5, 0xc6b0),
  (0x5e58, 0xcc45), (0x72db, 0xbc15), (0x8962, 0xb2e8), (0x4668, 0xacfc), (0x9cef, 0xbd09),
  (0x3f6e, 0xc131), (0x55f5, 0xd1b5), (0x6e78, 0xb7c9), (0x84ff, 0xc219), (0x5982, 0xc5ec),
  (0x7709, 0xbbf8), (0x888c, 0xd3ec), (0x4192, 0xad6c), (0x3e98, 0xc7a0), (0x911d, 0xb8cc),
  (0x4e23, 0xc720), (0x69a2, 0xac00), (0x58ac, 0xc9c0), (0x7633, 0xcd94), (0x8bb6, 0xc544),
  (0x40bc, 0xb148), (0x39c2, 0xc804), (0x9047, 0xc6b0), (0x494d, 0xc9c0), (0x68cc, 0xcc44),
  (0x5bd6, 0xce68), (0x715d, 0xbbf8), (0x8ae0, 0xd6e4), (0x43e6, 0xcca8), (0x38ec, 0xc9d1),
  (0x9371, 0xc12d), (0x4877, 0xac1c), (0x6bf6, 0xcc38), (0x3a81, 0xae08), (0x5b00, 0xaddc),
  (0x7f83, 0xba71), (0x9802, 0xc815), (0x4310, 0xba71), (0x6793, 0xb450), (0x8012, 0xb8b0),
  (0x9997, 0xaddc), (0x361e, 0xc790), (0x6b20, 0xd760), (0x4ca5, 0xad6c), (0x81a7, 0xb3d9),
  (0x37b3, 0xb450)]

/-- hanja/table.go:11785-12040 -/
def rawTable46 : List (Nat × Nat) := [
  (0x5032, 0xb3d9), (0x74b5, 0xc5ec), (0x9534, 0xac1c), (0x3b40, 0xc11c), (0x7842, 0xc804),
  (0x51c7, 0xc1a1), (0x96c9, 0xce58), (0x6052, 0xd56d), (0x79d7, 0xc5b4), (0x9a56, 0xcca0),
  (0x4d64, 0xacac), (0x61e7, 0xb098), (0x8266, 0xd568), (0x9beb, 0xcd94), (0x7574, 0xc8fc),
  (0x4ef9, 0xbd09), (0x83fb, 0xb984), (0x5286, 0xb834), (0x9788, 0xd611), (0x680d, 0xc0dd),
  (0x7a96, 0xad50), (0x551f, 0xac83), (0x8a21, 0xc74c), (0x62a6, 0xbcd1), (0x382d, 0xc804),
  (0x7d2f, 0xb8e8), (0x4fb8, 0xb450), (0x8cba, 0xd669), (0x653f, 0xc815), (0x5a41, 0xb8e8),
  (0x9f43, 0xc54c), (0x77c8, 0xba74), (0x4251, 0xbb34), (0x8753, 0xc720), (0x5cda, 0xbc00),
  (0x91dc, 0xbd80), (0x355f, 0xad34), (0x6a61, 0xc0c1), (0x44ea, 0xc5ed), (0x5773, 0xc694),
  (0x9475, 0xad00), (0x6cfa, 0xb77d), (0x3b85, 0xcd94), (0x9506, 0xace0), (0x4e0c, 0xae30),
  (0x6a8f, 0xbc15), (0x5999, 0xbb18), (0x761c, 0xc2dd), (0x88a3, 0xc608), (0x41a9, 0xba85),
  (0x3aaf, 0xac70), (0x9430, 0xc870), (0x4d36, 0xbd09), (0x69b9, 0xc0ac), (0x58c3, 0xac15),
  (0x7546, 0xbb18), (0x8fcd, 0xb454), (0x40d3, 0xad6c), (0x39d9, 0xbe44), (0x9b5a, 0xc5b4),
  (0x4c60, 0xc794), (0x68e3, 0xccb4), (0x836a, 0xc190), (0x5fed, 0xbcc0), (0x7470, 0xad34),
  (0x8ef7, 0xbc1c), (0x47fd, 0xc18c), (0x7d01, 0xcc28), (0x9a84, 0xad50), (0x3607, 0xc601),
  (0x538a, 0xc544), (0x6511, 0xac70), (0x8294, 0xd6fc), (0x541b, 0xad70), (0x7b9a, 0xcc28),
  (0x8b25, 0xcd1d), (0x7c2b, 0xc18c), (0x63aa, 0xc870), (0x99ae, 0xd48d), (0x3531, 0xc720),
  (0x52b4, 0xb85c), (0x643b, 0xb2c9), (0x81be, 0xd68c), (0x5b45, 0xc12c), (0x7ac4, 0xcc2c),
  (0x8a4f, 0xc694), (0x4355, 0xc800), (0x62d4, 0xbc1c), (0x98d8, 0xd45c), (0x345b, 0xc18d),
  (0x51de, 0xd76c), (0x6b65, 0xbcf4), (0x80e8, 0xb3d9), (0x5a6f, 0xb824), (0x79ee, 0xd65c),
  (0x8979, 0xc2dc), (0x427f, 0xd638), (0x61fe, 0xc12d), (0x5108, 0xcf8c), (0x6d8b, 0xb3c5),
  (0x920a, 0xc2ec), (0x3c16, 0xb78c), (0x7918, 0xae09), (0x569d, 0xd6a1), (0x939f, 0xc0c1),
  (0x6128, 0xac01), (0x3dab, 0xb8cc), (0x7ead, 0xc6b4), (0x9f2c, 0xc720), (0x4a3a, 0xd1f4),
  (0x66bd, 0xb9b0), (0x873c, 0xc720), (0x9cc1, 0xc628), (0x724a, 0xc18c), (0x4bcf, 0xad04),
  (0x84d1, 0xc0ac), (0x36dd, 0xd328), (0x575c, 0xb825), (0x73df, 0xc219), (0x905e, 0xccb4),
  (0x7f6c, 0xcca0), (0x54f1, 0xbc1c), (0x91f3, 0xd758), (0x677c, 0xc800), (0x9d80, 0xae30),
  (0x3903, 0xbc29), (0x7a05, 0xc138), (0x488e, 0xae30), (0x8590, 0xb989), (0x6215, 0xc7a5),
  (0x5f17, 0xbd88), (0x9819, 0xcc45), (0x379c, 0xd1f4), (0x709e, 0xbcc0), (0x4727, 0xb178),
  (0x8029, 0xac15), (0x55b0, 0xc2dd), (0x96b2, 0xcc99), (0x6f37, 0xacfd), (0x7dc0, 0xcc98),
  (0x5049, 0xc704), (0x8d4b, 0xbd80), (0x65d0, 0xc870), (0x3f57, 0xbb34), (0x7859, 0xc560),
  (0x4ee2, 0xc791), (0x8be4, 0xc7c1), (0x6069, 0xc740), (0x5d6b, 0xc790), (0x9e6d, 0xb85c),
  (0x35f0, 0xc885), (0x76f2, 0xb9f9), (0x457b, 0xb824), (0x867d, 0xc218), (0x5804, 0xc608),
  (0x7487, 0xc120), (0x8b0e, 0xbbf8), (0x4014, 0xc778), (0x969b, 0xc81c), (0x391a, 0xd56d),
  (0x4fa1, 0xac00), (0x6824, 0xd48d), (0x5b2e, 0xc5fc), (0x77b1, 0xc5fd), (0x8a38, 0xd654),
  (0x433e, 0xb2d8), (0x99c5, 0xc5ed), (0x3844, 0xc21c), (0x4ecb, 0xac1c), (0x6b4e, 0xd0c4),
  (0x81d5, 0xd45c), (0x5a58, 0xad8c), (0x76db, 0xc131), (0x8d62, 0xc601), (0x4268, 0xc758),
  (0x98ef, 0xbc18), (0x3b6e, 0xcd2c), (0x51f5, 0xac10), (0x6a78, 0xc815), (0x80ff, 0xaddc),
  (0x5d82, 0xc7a5), (0x7309, 0xae30), (0x8c8c, 0xbaa8), (0x4592, 0xd76c), (0x3a98, 0xb834),
  (0x951d, 0xb4dd), (0x4a23, 0xbc15), (0x6da2, 0xc6b4), (0x5cac, 0xac11), (0x7233, 0xb8cc),
  (0x8fb6, 0xcc29), (0x44bc, 0xace1), (0x3dc2, 0xc11c), (0x9447, 0xc81c), (0x4d4d, 0xb3c8),
  (0x6ccc, 0xbe44), (0x5fd6, 0xcd0c), (0x755d, 0xbb34), (0x8ee0, 0xc784), (0x47e6, 0xbc1c),
  (0x3cec, 0xc120), (0x9771, 0xc778), (0x4c77, 0xc5b4), (0x6ff6, 0xd65c), (0x3e81, 0xb178),
  (0x5f00, 0xac1c), (0x7b83, 0xcd94), (0x9c02, 0xc989), (0x4710, 0xc218), (0x6393, 0xc219),
  (0x8412, 0xc5b8), (0x9d97, 0xc81c), (0x6f20, 0xb9c9), (0x48a5, 0xc5f0), (0x85a7, 0xace0),
  (0x5432, 0xc2e0), (0x70b5, 0xb3d9), (0x9134, 0xc5c5), (0x3f40, 0xc815), (0x7c42, 0xc2dd),
  (0x55c7, 0xc0c9), (0x92c9, 0xc18d), (0x6452, 0xbcd1), (0x7dd7, 0xc0c1), (0x9e56, 0xac08),
  (0x4964, 0xbc15), (0x65e7, 0xad6c), (0x8666, 0xc794), (0x3472, 0xb0a8), (0x7174, 0xc628),
  (0x4af9, 0xd64d), (0x87fb, 0xc758), (0x5686, 0xd6a8), (0x9388, 0xcc28), (0x6c0d, 0xad6c),
  (0x7e96, 0xc12c), (0x511f, 0xc0c1), (0x8e21, 0xad8c), (0x66a6, 0xb825), (0x3c2d, 0xd6c4),
  (0x792f, 0xc601), (0x4bb8, 0xc54c), (0x88ba, 0xacb0), (0x613f, 0xc6d0), (0x5e41, 0xc218),
  (0x9b43, 0xbc1c), (0x36c6, 0xd0c0), (0x73c8, 0xac00), (0x4651, 0xcd5c), (0x8353, 0xbcd1),
  (0x58da, 0xb85c), (0x95dc, 0xad00), (0x6e61, 0xc6b0), (0x40ea, 0xb2e8), (0x5373, 0xc989),
  (0x9075, 0xc900)]

/-- hanja/table.go:12041-12296 -/
def rawTable47 : List (Nat × Nat) := [
  (0x68fa, 0xad00), (0x8d89, 0xad74), (0x720c, 0xad11), (0x568f, 0xccb4), (0x3b12, 0xb9dd),
  (0x8116, 0xbc1c), (0x6599, 0xb8cc), (0x4a1c, 0xbd95), (0x9926, 0xc7a5), (0x7da9, 0xc6d0),
  (0x8cb3, 0xc774), (0x7136, 0xc5f0), (0x55b9, 0xaddc), (0x3a3c, 0xb7b5), (0x8040, 0xc9c1),
  (0x64c3, 0xb0ad), (0x4946, 0xae08), (0x9850, 0xc6d0), (0x7cd3, 0xace1), (0x8bdd, 0xd654),
  (0x7060, 0xb78c), (0x54e3, 0xd22c), (0x3966, 0xd611), (0x63ed, 0xac8c), (0x4870, 0xac31),
  (0x977a, 0xb9d0), (0x7bfd, 0xc5b4), (0x4101, 0xc608), (0x900b, 0xd3ec), (0x6f8a, 0xcd0c),
  (0x5911, 0xc12d), (0x3890, 0xc544), (0x681b, 0xb824), (0x479a, 0xae30), (0x96a4, 0xd1f4),
  (0x402b, 0xacb9), (0x5faa, 0xc21c), (0x8f35, 0xac08), (0x6eb4, 0xcd94), (0x583b, 0xc9c4),
  (0x37ba, 0xc871), (0x6745, 0xc6b0), (0x46c4, 0xc6d0), (0x95ce, 0xcc9c), (0x7f55, 0xd55c),
  (0x5ed4, 0xb8e8), (0x8e5f, 0xc801), (0x6dde, 0xc1a1), (0x5765, 0xc800), (0x36e4, 0xb9ac),
  (0x666f, 0xacbd), (0x45ee, 0xc0c1), (0x94f8, 0xc8fc), (0x7e7f, 0xb78c), (0x5dfe, 0xac74),
  (0x6d08, 0xc704), (0x518b, 0xacbd), (0x928d, 0xc9c8), (0x4518, 0xc870), (0x861a, 0xc120),
  (0x6a9d, 0xc999), (0x5d28, 0xcca9), (0x9e2a, 0xace0), (0x42ad, 0xb3c4), (0x87af, 0xc624),
  (0x3538, 0xccb4), (0x763a, 0xb8e8), (0x5abd, 0xb9c8), (0x4e4a, 0xd638), (0x934c, 0xc120),
  (0x77cf, 0xba74), (0x6b5c, 0xcd09), (0x4fdf, 0xc0ac), (0x90e1, 0xad70), (0x3e6a, 0xc0b0),
  (0x436c, 0xd3c9), (0x846e, 0xb2e8), (0x68f1, 0xb989), (0x5b7c, 0xc5bc), (0x3fff, 0xc544),
  (0x9c7e, 0xae30), (0x4605, 0xb2a5), (0x8b07, 0xac74), (0x748e, 0xc601), (0x5e15, 0xb9d0),
  (0x6317, 0xacb0), (0x4c9e, 0xb9bd), (0x91a0, 0xc559), (0x3625, 0xc640), (0x7b27, 0xcc45),
  (0x69b0, 0xc9c0), (0x5337, 0xac70), (0x9439, 0xacfc), (0x3cbe, 0xc6b0), (0x41c0, 0xc6a9),
  (0x82c2, 0xc74c), (0x6c49, 0xd55c), (0x59d0, 0xc800), (0x9ad2, 0xc7a5), (0x4459, 0xb2f4),
  (0x895b, 0xb18d), (0x72e2, 0xd559), (0x5c69, 0xad50), (0x616b, 0xc885), (0x4af2, 0xd568),
  (0x8ff4, 0xd68c), (0x3479, 0xd68c), (0x797b, 0xace0), (0x8381, 0xbb34), (0x6404, 0xae0d),
  (0x4887, 0xc6a9), (0x9b91, 0xd3ec), (0x7c14, 0xc0ac), (0x8f1e, 0xb9dd), (0x73a1, 0xc544),
  (0x5424, 0xac1c), (0x38a7, 0xad8c), (0x82ab, 0xc6d0), (0x672e, 0xcd9c), (0x4bb1, 0xcd95),
  (0x9abb, 0xacfc), (0x7f3e, 0xbcd1), (0x8e48, 0xb3c4), (0x72cb, 0xc758), (0x574e, 0xac10),
  (0x3bd1, 0xd0f1), (0x6658, 0xd55c), (0x4adb, 0xd6c4), (0x95e5, 0xb2ec), (0x7e68, 0xb2ec),
  (0x8972, 0xc2b5), (0x6df5, 0xc5f0), (0x5678, 0xd1a4), (0x3afb, 0xace4), (0x8603, 0xc608),
  (0x6182, 0xc6b0), (0x4f09, 0xd56d), (0x9e13, 0xb958), (0x7992, 0xc120), (0x889c, 0xb9d0),
  (0x7623, 0xc678), (0x51a2, 0xcd1d), (0x3f29, 0xc131), (0x812d, 0xc815), (0x60ac, 0xd604),
  (0x4e33, 0xcc2c), (0x993d, 0xada4), (0x78bc, 0xb9c8), (0x8bc6, 0xc2e0), (0x714d, 0xcd08),
  (0x50cc, 0xc6c5), (0x3e53, 0xc694), (0x8057, 0xb835), (0x63d6, 0xc74d), (0x495d, 0xc624),
  (0x9867, 0xace0), (0x7be6, 0xbe44), (0x8af0, 0xc2dc), (0x7077, 0xc120), (0x53f6, 0xd611),
  (0x397d, 0xcc45), (0x6300, 0xbcbd), (0x4783, 0xce58), (0x8485, 0xc5fc), (0x360e, 0xd568),
  (0x7b10, 0xd56d), (0x5f93, 0xc885), (0x9c95, 0xc774), (0x5320, 0xc7a5), (0x37a3, 0xbd84),
  (0x9022, 0xbd09), (0x74a5, 0xacbd), (0x6832, 0xace0), (0x4cb5, 0xc791), (0x91b7, 0xc758),
  (0x4042, 0xd55c), (0x8544, 0xb9f9), (0x69c7, 0xc804), (0x5852, 0xc2dc), (0x3cd5, 0xb780),
  (0x9d54, 0xc900), (0x41d7, 0xc885), (0x86d9, 0xc640), (0x7564, 0xce58), (0x59e7, 0xac04),
  (0x9ee9, 0xb3c5), (0x4d74, 0xc789), (0x9276, 0xd615), (0x76f9, 0xc21c), (0x6a86, 0xc0bc),
  (0x500d, 0xbc30), (0x950f, 0xac04), (0x3d94, 0xbc30), (0x4296, 0xb0a8), (0x8798, 0xc758),
  (0x6d1f, 0xc774), (0x5aa6, 0xc704), (0x452f, 0xace0), (0x8a31, 0xd5c8), (0x77b8, 0xc5fd),
  (0x5d3f, 0xc545), (0x6241, 0xd3b8), (0x4fc8, 0xace1), (0x8cca, 0xc801), (0x354f, 0xc8fc),
  (0x7a51, 0xc0c9), (0x64da, 0xac70), (0x5261, 0xc12c), (0x9763, 0xba74), (0x3fe8, 0xb825),
  (0x7cea, 0xbcbd), (0x81ec, 0xc5bc), (0x6f73, 0xb3c4), (0x54fa, 0xd3ec), (0x99fc, 0xb3c4),
  (0x8989, 0xae30), (0x760c, 0xb784), (0x528f, 0xb2f9), (0x3f12, 0xd0d5), (0x8516, 0xcc28),
  (0x6199, 0xd76c), (0x4e1c, 0xb3d9), (0x9d26, 0xc559), (0x79a9, 0xc0ac), (0x88b3, 0xce58),
  (0x7536, 0xbd88), (0x51b9, 0xbd88), (0x3e3c, 0xbd09), (0x8440, 0xad04), (0x60c3, 0xace4),
  (0x4d46, 0xbabd), (0x9c50, 0xc219), (0x78d3, 0xd1f4), (0x8fdd, 0xc704), (0x7460, 0xb958),
  (0x50e3, 0xcc38), (0x3d66, 0xc218), (0x67ed, 0xbc1c), (0x4c70, 0xb3d9), (0x937a, 0xd0c0),
  (0x7ffd, 0xd670), (0x4501, 0xb960), (0x940b, 0xd0d5), (0x6b8a, 0xc218), (0x5d11, 0xace4),
  (0x3c90, 0xae08), (0x6c1b, 0xbd84), (0x439a, 0xd61c), (0x3521, 0xbcc4), (0x92a4, 0xbbf8),
  (0x442b, 0xc885), (0x5baa, 0xd5cc), (0x8b35, 0xc2b5), (0x6ab4, 0xd655), (0x5c3b, 0xace0),
  (0x6345, 0xd1b5)]

/-- hanja/table.go:12297-12552 -/
def rawTable48 : List (Nat × Nat) := [
  (0x42c4, 0xb9dd), (0x344b, 0xad81), (0x91ce, 0xc57c), (0x7b55, 0xd589), (0x5ad4, 0xbe48),
  (0x8a5f, 0xc12d), (0x69de, 0xb871), (0x5365, 0xc11c), (0x626f, 0xcc28), (0x41ee, 0xc784),
  (0x90f8, 0xb2e8), (0x7a7f, 0xcc9c), (0x59fe, 0xc804), (0x6908, 0xad6d), (0x558b, 0xcca9),
  (0x968d, 0xd669), (0x4118, 0xd33d), (0x821a, 0xcca8), (0x6e9d, 0xad6c), (0x5928, 0xb148),
  (0x9a2a, 0xc218), (0x46ad, 0xd6e4), (0x83af, 0xbaa9), (0x723a, 0xc57c), (0x5ebd, 0xc6b0),
  (0x9bbf, 0xcca9), (0x4a4a, 0xc6d0), (0x36cd, 0xd611), (0x974c, 0xbcf4), (0x73cf, 0xac01),
  (0x6f5c, 0xc7a0), (0x4bdf, 0xb300), (0x94e1, 0xcc30), (0x3a6a, 0xd790), (0x476c, 0xc8fc),
  (0x806e, 0xb828), (0x6cf1, 0xc559), (0x5f7c, 0xd53c), (0x3bff, 0xb835), (0x987e, 0xace0),
  (0x4205, 0xd655), (0x8f07, 0xc804), (0x378c, 0xc789), (0x708e, 0xc5fc), (0x5a15, 0xcc29),
  (0x6717, 0xb791), (0x489e, 0xc220), (0x95a0, 0xc724), (0x7f27, 0xb958), (0x6db0, 0xcca0),
  (0x5737, 0xd558), (0x9039, 0xb2ec), (0x38be, 0xacac), (0x45c0, 0xc99d), (0x86c2, 0xbcc4),
  (0x6849, 0xc548), (0x5dd0, 0xcd08), (0x9ed2, 0xd751), (0x4059, 0xc5b8), (0x8d5b, 0xc0c8),
  (0x35e0, 0xbe44), (0x76e2, 0xd601), (0x5869, 0xc5fc), (0x656b, 0xad50), (0x4ef2, 0xc911),
  (0x8bf4, 0xc124), (0x7d7b, 0xbb38), (0x8781, 0xd1f4), (0x6004, 0xc6b0), (0x4c87, 0xc18d),
  (0x9f91, 0xc5c4), (0x7814, 0xc5f0), (0x8b1e, 0xd559), (0x77a1, 0xaddc), (0x5024, 0xce58),
  (0x3ca7, 0xc18c), (0x86ab, 0xd3ec), (0x632e, 0xccb4), (0x4fb1, 0xc815), (0x9ebb, 0xb9c8),
  (0x7b3e, 0xbcc0), (0x8a48, 0xb9ac), (0x76cb, 0xbc1c), (0x534e, 0xd654), (0x3fd1, 0xc57d),
  (0x6258, 0xd0c1), (0x4edb, 0xd0c1), (0x91e5, 0xcd08), (0x7a68, 0xd1f4), (0x8d72, 0xb825),
  (0x69f5, 0xd658), (0x5278, 0xc804), (0x3efb, 0xb3c8), (0x8203, 0xc11d), (0x6582, 0xb834),
  (0x4b09, 0xd68d), (0x9a13, 0xd5d8), (0x7d92, 0xbd80), (0x8c9c, 0xd655), (0x7223, 0xb2f9),
  (0x55a2, 0xc0bd), (0x3b29, 0xd61c), (0x852d, 0xc74c), (0x64ac, 0xd6a8), (0x4a33, 0xd76c),
  (0x9d3d, 0xc5ec), (0x7cbc, 0xb9b0), (0x8fc6, 0xc774), (0x754d, 0xacc4), (0x54cc, 0xace0),
  (0x3a53, 0xd6fc), (0x8457, 0xc800), (0x67d6, 0xc18c), (0x4d5d, 0xc54c), (0x9c67, 0xb840),
  (0x7fe6, 0xc804), (0x8ef0, 0xbc30), (0x7477, 0xc560), (0x57f6, 0xc608), (0x3d7d, 0xb8b0),
  (0x6700, 0xcd5c), (0x4383, 0xc5fc), (0x8085, 0xc219), (0x7f10, 0xc120), (0x5b93, 0xbcf5),
  (0x9895, 0xc601), (0x5720, 0xc54c), (0x9422, 0xae08), (0x70a5, 0xbd88), (0x6c32, 0xc628),
  (0x48b5, 0xc6b4), (0x95b7, 0xc0b4), (0x4442, 0xc5ec), (0x8144, 0xc218), (0x6dc7, 0xae30),
  (0x5c52, 0xc9c4), (0x38d5, 0xb300), (0x9954, 0xc639), (0x45d7, 0xacac), (0x82d9, 0xb9bd),
  (0x3462, 0xac01), (0x7164, 0xb9e4), (0x5de7, 0xad50), (0x9ae9, 0xbe48), (0x4974, 0xc900),
  (0x35f7, 0xc0c8), (0x9676, 0xb3c4), (0x72f9, 0xd611), (0x6e86, 0xc11c), (0x540d, 0xba85),
  (0x910f, 0xc695), (0x3994, 0xc5fc), (0x4696, 0xc131), (0x8398, 0xc2e0), (0x691f, 0xb3c5),
  (0x5ea6, 0xb3c4), (0x9ba8, 0xc9c0), (0x412f, 0xacac), (0x8e31, 0xd0c1), (0x36b6, 0xc0ac),
  (0x73b8, 0xbd80), (0x593f, 0xd30c), (0x6641, 0xc870), (0x4bc8, 0xc644), (0x88ca, 0xb1e8),
  (0x7e51, 0xad50), (0x60da, 0xd640), (0x5661, 0xcca8), (0x9363, 0xcd08), (0x3be8, 0xc728),
  (0x78ea, 0xcd5c), (0x85ec, 0xd1f4), (0x6b73, 0xc138), (0x50fa, 0xcd08), (0x9dfc, 0xd55c),
  (0x8589, 0xc608), (0x7a0c, 0xb3c4), (0x5e8f, 0xc11c), (0x8916, 0xb2e8), (0x6d99, 0xb8e8),
  (0x421c, 0xce68), (0x9126, 0xd5c8), (0x75a9, 0xcdcc), (0x84b3, 0xb0a9), (0x7936, 0xad00),
  (0x5db9, 0xb3c4), (0x8840, 0xd608), (0x6cc3, 0xad6c), (0x4146, 0xce58), (0x9050, 0xd558),
  (0x74d3, 0xb780), (0x83dd, 0xbc1c), (0x7860, 0xb791), (0x5ce3, 0xc694), (0x6bed, 0xb450),
  (0x4070, 0xd56d), (0x9f7a, 0xcd94), (0x73fd, 0xc815), (0x4901, 0xc2ec), (0x980b, 0xc640),
  (0x678a, 0xc559), (0x5111, 0xc555), (0x601b, 0xb2ec), (0x4f9a, 0xc21c), (0x3921, 0xb840),
  (0x9ea4, 0xcd94), (0x482b, 0xc8fc), (0x57aa, 0xbcd1), (0x8735, 0xc5f0), (0x66b4, 0xd3ed),
  (0x503b, 0xc57c), (0x3fba, 0xb9c8), (0x6f45, 0xad00), (0x4ec4, 0xce21), (0x384b, 0xc5c5),
  (0x9dce, 0xace0), (0x7755, 0xc644), (0x56d4, 0xb0ad), (0x865f, 0xd638), (0x65de, 0xc218),
  (0x5f65, 0xc5b8), (0x3ee4, 0xad6c), (0x6e6f, 0xd0d5), (0x9cf8, 0xd638), (0x767f, 0xac00),
  (0x55fe, 0xc8fc), (0x6508, 0xad70), (0x598b, 0xbd80), (0x9a8d, 0xc131), (0x4d18, 0xccb4),
  (0x8e1a, 0xb95c), (0x629d, 0xc694), (0x5528, 0xc800), (0x962a, 0xd310), (0x4aad, 0xc6d0),
  (0x8faf, 0xbcc0), (0x3d38, 0xc12c), (0x7e3a, 0xb828), (0x52bd, 0xb82c), (0x97bf, 0xae30),
  (0x464a, 0xb300), (0x3acd, 0xc720), (0x9b4c, 0xae30), (0x7fcf, 0xb8cc), (0x635c, 0xc218),
  (0x47df, 0xcd09), (0x98e1, 0xc190), (0x366a, 0xc608), (0x4b6c, 0xacc4), (0x8c6e, 0xbd84),
  (0x60f1, 0xb1cc), (0x537c, 0xc62c), (0x37ff, 0xb9dd), (0x947e, 0xb780), (0x4e05, 0xd558),
  (0x8307, 0xbc1c)]

/-- hanja/table.go:12553-12808 -/
def rawTable49 : List (Nat × Nat) := [
  (0x3b8c, 0xba74), (0x7c8e, 0xcc99), (0x5615, 0xc5b8), (0x6b17, 0xb780), (0x449e, 0xce68),
  (0x99a0, 0xd568), (0x3e25, 0xcc38), (0x7327, 0xc640), (0x61b0, 0xd73c), (0x5b37, 0xb9c8),
  (0x9c39, 0xacac), (0x34be, 0xc2dc), (0x49c0, 0xad49), (0x8ac2, 0xcca8), (0x6449, 0xc218),
  (0x51d0, 0xc778), (0x92d2, 0xbd09), (0x4c59, 0xc219), (0x815b, 0xc545), (0x39e0, 0xc774),
  (0x7ae2, 0xc0ac), (0x5469, 0xae30), (0x696b, 0xc999), (0x42f2, 0xc2b9), (0x87f4, 0xc0ac),
  (0x3c79, 0xb825), (0x717b, 0xb2f9), (0x8b81, 0xc801), (0x6c04, 0xc6a9), (0x4087, 0xb274),
  (0x9391, 0xd0d1), (0x7414, 0xc815), (0x871e, 0xae30), (0x7ba1, 0xad00), (0x5c24, 0xc6b0),
  (0x8aab, 0xc9c4), (0x6f2e, 0xac15), (0x43b1, 0xd30c), (0x92bb, 0xc81c), (0x773e, 0xc911),
  (0x8648, 0xd6a8), (0x7acb, 0xb9bd), (0x5f4e, 0xb9cc), (0x6e58, 0xc0c1), (0x42db, 0xbbf8),
  (0x9de5, 0xc0ac), (0x7668, 0xacfd), (0x8172, 0xc678), (0x65f5, 0xcc38), (0x5e78, 0xd589),
  (0x8e03, 0xc18c), (0x6982, 0xac1c), (0x4709, 0xce60), (0x9613, 0xada4), (0x7192, 0xd615),
  (0x809c, 0xc735), (0x7e23, 0xd604), (0x59a2, 0xbd84), (0x3729, 0xc624), (0x892d, 0xb1e8),
  (0x68ac, 0xc601), (0x4633, 0xae08), (0x913d, 0xc804), (0x70bc, 0xb828), (0x83c6, 0xcd94),
  (0x794d, 0xc784), (0x58cc, 0xc591), (0x3653, 0xaddc), (0x8857, 0xac00), (0x6bd6, 0xbe44),
  (0x415d, 0xacf5), (0x9067, 0xc7a5), (0x73e6, 0xd5a5), (0x82f0, 0xd64d), (0x7877, 0xd5d8),
  (0x5bf6, 0xbcf4), (0x6b00, 0xc591), (0x4f83, 0xac04), (0x8c85, 0xd734), (0x3e0e, 0xc12d),
  (0x7310, 0xac15), (0x5793, 0xd574), (0x9495, 0xb140), (0x5b20, 0xcc38), (0x3fa3, 0xae08),
  (0x9822, 0xad04), (0x7ca5, 0xc8fd), (0x6032, 0xbcd1), (0x44b5, 0xd638), (0x99b7, 0xd328),
  (0x4842, 0xad6c), (0x8d44, 0xc790), (0x61c7, 0xac04), (0x5052, 0xd0d5), (0x34d5, 0xba78),
  (0x9554, 0xbe48), (0x49d7, 0xbcbd), (0x8ed9, 0xc9c4), (0x3862, 0xb9cc), (0x7d64, 0xc120),
  (0x51e7, 0xada4), (0x96e9, 0xc6b0), (0x4574, 0xcc29), (0x39f7, 0xd0c4), (0x9a76, 0xc0ac),
  (0x7ef9, 0xb3c4), (0x6286, 0xbb38), (0x580d, 0xd1a0), (0x9d0f, 0xd2b9), (0x3594, 0xd0c4),
  (0x4a96, 0xbd80), (0x8f98, 0xb85d), (0x651f, 0xad70), (0x52a6, 0xd611), (0x97a8, 0xac08),
  (0x4d2f, 0xd640), (0x8231, 0xcc3d), (0x3ab6, 0xace1), (0x7fb8, 0xb9ac), (0x553f, 0xd640),
  (0x6a41, 0xcd98), (0x47c8, 0xc9c8), (0x84ca, 0xc639), (0x3d4f, 0xcd5c), (0x7251, 0xd3b8),
  (0x6cda, 0xc790), (0x5a61, 0xb798), (0x9f63, 0xcc99), (0x37e8, 0xb2e8), (0x74ea, 0xd310),
  (0x89ec, 0xc608), (0x6773, 0xbb18), (0x5cfa, 0xacbd), (0x91fc, 0xc778), (0x8189, 0xc775),
  (0x7e0c, 0xc5ed), (0x5a8f, 0xb2e8), (0x3712, 0xc608), (0x8d16, 0xc18d), (0x6999, 0xb2f5),
  (0x461c, 0xac74), (0x9526, 0xae08), (0x71a9, 0xd638), (0x80b3, 0xbb38), (0x7d36, 0xac70),
  (0x59b9, 0xb9e4), (0x363c, 0xace0), (0x8c40, 0xd61c), (0x68c3, 0xb9ac), (0x4546, 0xb450),
  (0x9450, 0xc720), (0x70d3, 0xacc4), (0x87dd, 0xac70), (0x7c60, 0xb871), (0x58e3, 0xb9b0),
  (0x3566, 0xd654), (0x6fed, 0xc560), (0x4470, 0xbcf4), (0x9b7a, 0xac00), (0x77fd, 0xc11d),
  (0x4d01, 0xc6b0), (0x9c0b, 0xc5b8), (0x638a, 0xbd80), (0x5511, 0xc11c), (0x3490, 0xc21c),
  (0x641b, 0xb834), (0x4b9a, 0xb989), (0x3d21, 0xd5a5), (0x9aa4, 0xcde8), (0x4c2b, 0xcd08),
  (0x53aa, 0xadfc), (0x8335, 0xc778), (0x62b4, 0xc124), (0x543b, 0xbb38), (0x3bba, 0xbcf8),
  (0x6b45, 0xc778), (0x4ac4, 0xd0c8), (0x3c4b, 0xac01), (0x99ce, 0xcd94), (0x7355, 0xcd5c),
  (0x52d4, 0xba74), (0x825f, 0xb3d9), (0x61de, 0xbabd), (0x5b65, 0xb178), (0x3ae4, 0xcc3d),
  (0x6a6f, 0xb85c), (0x49ee, 0xd5cc), (0x98f8, 0xb3c4), (0x727f, 0xace1), (0x51fe, 0xd568),
  (0x6108, 0xc720), (0x5d8b, 0xb3c4), (0x9e8d, 0xb958), (0x4918, 0xcc38), (0x8a1a, 0xc740),
  (0x669d, 0xba85), (0x5128, 0xc9c8), (0x922a, 0xc561), (0x4ead, 0xc815), (0x8baf, 0xc2e0),
  (0x3938, 0xd601), (0x7a3a, 0xce58), (0x56bd, 0xcca0), (0x93bf, 0xb098), (0x424a, 0xbc18),
  (0x3ecd, 0xc624), (0x9f4c, 0xc81c), (0x7bcf, 0xac10), (0x675c, 0xb450), (0x43df, 0xbcc4),
  (0x9ce1, 0xac10), (0x4f6c, 0xb8cc), (0x886e, 0xace4), (0x64f1, 0xac01), (0x577c, 0xd0c1),
  (0x907e, 0xc11c), (0x4a05, 0xb8cc), (0x8707, 0xcca0), (0x3f8c, 0xc120), (0x788e, 0xc1c4),
  (0x5215, 0xb9ac), (0x6f17, 0xcd1d), (0x409e, 0xc11d), (0x9da0, 0xc5b8), (0x3a25, 0xb0a9),
  (0x7727, 0xcd08), (0x65b0, 0xc2e0), (0x5f37, 0xac15), (0x9839, 0xd1f4), (0x8ec2, 0xb85c),
  (0x6049, 0xc9c0), (0x55d0, 0xd560), (0x96d2, 0xb77d), (0x4859, 0xb791), (0x855b, 0xc81c),
  (0x3de0, 0xb9b0), (0x7ee2, 0xacac), (0x5069, 0xbd80), (0x6d6b, 0xd55c), (0x46f2, 0xba74),
  (0x83f4, 0xc554), (0x3879, 0xc800), (0x757b, 0xc2b9), (0x8f81, 0xc804), (0x6804, 0xc601),
  (0x4487, 0xbd80), (0x9791, 0xb2ec), (0x7014, 0xace1), (0x831e, 0xc2e0), (0x7fa1, 0xc774),
  (0x5824, 0xc81c), (0x34a7, 0xb824), (0x8eab, 0xc2e0), (0x6b2e, 0xad90), (0x47b1, 0xd639),
  (0x96bb, 0xcc99)]

/-- hanja/table.go:12809-13064 -/
def rawTable50 : List (Nat × Nat) := [
  (0x733e, 0xd65c), (0x8248, 0xb958), (0x7ecb, 0xbd88), (0x5b4e, 0xcd09), (0x37d1, 0xbc1c),
  (0x6a58, 0xade4), (0x46db, 0xd68c), (0x99e5, 0xc735), (0x7268, 0xac15), (0x8572, 0xae30),
  (0x61f5, 0xbabd), (0x5a78, 0xd0d5), (0x36fb, 0xacfc), (0x8a03, 0xbd80), (0x6d82, 0xb3c4),
  (0x4309, 0xac15), (0x9213, 0xc784), (0x7592, 0xb141), (0x849c, 0xc0b0), (0x7a23, 0xc18c),
  (0x5da2, 0xc694), (0x8d2d, 0xad6c), (0x6cac, 0xb9e4), (0x4233, 0xd0d1), (0x953d, 0xad49),
  (0x74bc, 0xb78c), (0x87c6, 0xb9c8), (0x7d4d, 0xc784), (0x5ccc, 0xc9c8), (0x8c57, 0xd68c),
  (0x6fd6, 0xc11c), (0x455d, 0xce6d), (0x9467, 0xad00), (0x77e6, 0xd6c4), (0x86f0, 0xce69),
  (0x7c77, 0xcc45), (0x5ff6, 0xd63c), (0x357d, 0xc0ac), (0x6f00, 0xacbd), (0x4b83, 0xad6c),
  (0x8885, 0xb1e8), (0x3a0e, 0xc5f0), (0x7710, 0xc815), (0x5393, 0xc560), (0x9095, 0xc639),
  (0x5f20, 0xc7a5), (0x3ba3, 0xac1c), (0x9c22, 0xb9c8), (0x78a5, 0xd3b8), (0x6432, 0xc640),
  (0x40b5, 0xacf5), (0x9db7, 0xd560), (0x4c42, 0xc720), (0x8944, 0xc591), (0x65c7, 0xd53c),
  (0x5452, 0xbb34), (0x9154, 0xcde8), (0x8ad9, 0xd68c), (0x3c62, 0xb791), (0x7964, 0xc6b0),
  (0x55e7, 0xb95c), (0x92e9, 0xb9dd), (0x4174, 0xc0ad), (0x3df7, 0xc790), (0x9e76, 0xae0d),
  (0x7af9, 0xc8fd), (0x6686, 0xc774), (0x5c0d, 0xb300), (0x990f, 0xc758), (0x4e96, 0xc0ac),
  (0x8b98, 0xc12d), (0x611f, 0xac10), (0x56a6, 0xb825), (0x93a8, 0xc900), (0x492f, 0xd615),
  (0x8631, 0xb958), (0x3eb6, 0xb450), (0x7bb8, 0xc800), (0x513f, 0xc778), (0x6e41, 0xb9bd),
  (0x43c8, 0xb828), (0x80ca, 0xad6c), (0x394f, 0xc804), (0x7651, 0xb18d), (0x68da, 0xbd95),
  (0x5e61, 0xbc88), (0x9b63, 0xc11c), (0x70ea, 0xad00), (0x8dec, 0xaddc), (0x6373, 0xc545),
  (0x58fa, 0xd638), (0x95fc, 0xb2ec), (0x9d89, 0xc21c), (0x620c, 0xc220), (0x468f, 0xb9b0),
  (0x9116, 0xc6b4), (0x7599, 0xd758), (0x5a1c, 0xb098), (0x3e9f, 0xd0c1), (0x8926, 0xb0b4),
  (0x6da9, 0xc0bd), (0x9cb3, 0xcc3d), (0x6136, 0xd611), (0x45b9, 0xc591), (0x9040, 0xc218),
  (0x74c3, 0xb8b0), (0x5946, 0xad8c), (0x3dc9, 0xc704), (0x8850, 0xac70), (0x6cd3, 0xd64d),
  (0x9bdd, 0xace0), (0x6060, 0xad34), (0x44e3, 0xb7c9), (0x73ed, 0xbc18), (0x5870, 0xd574),
  (0x3cf3, 0xadf9), (0x877a, 0xad6c), (0x6bfd, 0xac74), (0x5101, 0xc900), (0x800b, 0xc9c8),
  (0x7f8a, 0xc591), (0x4911, 0xc655), (0x781b, 0xae08), (0x579a, 0xc694), (0x86a4, 0xc870),
  (0x502b, 0xb95c), (0x4faa, 0xc81c), (0x9f35, 0xb3cc), (0x7eb4, 0xc784), (0x483b, 0xad81),
  (0x7745, 0xd658), (0x56c4, 0xb9ac), (0x85ce, 0xc2e0), (0x6f55, 0xbb34), (0x4ed4, 0xc790),
  (0x9e5f, 0xc5ed), (0x7dde, 0xb2e8), (0x4765, 0xd638), (0x766f, 0xad6c), (0x55ee, 0xc1c4),
  (0x3f75, 0xc7a5), (0x84f8, 0xc870), (0x6e7f, 0xc2b5), (0x3806, 0xb2e8), (0x7d08, 0xd658),
  (0x418b, 0xcd94), (0x828d, 0xc791), (0x5518, 0xacc4), (0x399b, 0xc5ec), (0x961a, 0xd568),
  (0x7a9d, 0xc640), (0x4d28, 0xc6d0), (0x8e2a, 0xc885), (0x52ad, 0xcd08), (0x97af, 0xcc9c),
  (0x663a, 0xbcd1), (0x4abd, 0xd638), (0x8fbf, 0xcc9c), (0x5e4a, 0xacf5), (0x834c, 0xc548),
  (0x67cf, 0xbc31), (0x365a, 0xc131), (0x7b5c, 0xb2f9), (0x5fdf, 0xbbfc), (0x80e1, 0xd638),
  (0x536c, 0xc559), (0x37ef, 0xc561), (0x946e, 0xbc15), (0x78f1, 0xb85c), (0x4b7c, 0xae30),
  (0x8c7e, 0xbe44), (0x5605, 0xac1c), (0x9b07, 0xc7c1), (0x648e, 0xc758), (0x4e15, 0xbe44),
  (0x7317, 0xc758), (0x5c9e, 0xc791), (0x81a0, 0xad50), (0x6b27, 0xad6c), (0x34ae, 0xc2dc),
  (0x79b0, 0xb2c8), (0x4337, 0xc8fc), (0x8439, 0xd3b8), (0x51c0, 0xc815), (0x92c2, 0xb9e4),
  (0x3b47, 0xc5f0), (0x7c49, 0xb300), (0x49d0, 0xacfd), (0x8ad2, 0xb7c9), (0x5459, 0xad18),
  (0x995b, 0xbabd), (0x62e2, 0xb871), (0x4c69, 0xb9dd), (0x716b, 0xc218), (0x5af2, 0xb9c8),
  (0x697b, 0xd669), (0x9381, 0xc57c), (0x7404, 0xd604), (0x5887, 0xc7a5), (0x3d0a, 0xc5f0),
  (0x8b91, 0xc694), (0x6c14, 0xae30), (0x9f1e, 0xb2f9), (0x63a1, 0xcc44), (0x4424, 0xcc28),
  (0x92ab, 0xc0c9), (0x772e, 0xb3d9), (0x5bb1, 0xc790), (0x3c34, 0xbd80), (0x8abb, 0xb2f5),
  (0x6f3e, 0xc591), (0x9e48, 0xc81c), (0x62cb, 0xd3ec), (0x474e, 0xb2e8), (0x7658, 0xb824),
  (0x5adb, 0xc608), (0x3f5e, 0xb958), (0x85e5, 0xc57d), (0x6e68, 0xaca9), (0x9972, 0xc0ac),
  (0x7df5, 0xc885), (0x4678, 0xb4dd), (0x9603, 0xace4), (0x7182, 0xd76c), (0x5f09, 0xc7a5),
  (0x3e88, 0xce58), (0x8e13, 0xc720), (0x6992, 0xb158), (0x3719, 0xb85d), (0x989c, 0xc548),
  (0x6623, 0xc9c4), (0x41a2, 0xc5f4), (0x912d, 0xc815), (0x70ac, 0xac70), (0x5e33, 0xc7a5),
  (0x39b2, 0xc7ac), (0x893d, 0xc704), (0x68bc, 0xb3c4), (0x3643, 0xbcd1), (0x9bc6, 0xd3ec),
  (0x614d, 0xc628), (0x40cc, 0xc778), (0x9057, 0xc720), (0x73d6, 0xad11), (0x595d, 0xc870),
  (0x38dc, 0xd615), (0x8867, 0xc6b0), (0x6be6, 0xc774), (0x9af0, 0xccb4), (0x6077, 0xaddc),
  (0x43f6, 0xd53c), (0x7300, 0xc0ac), (0x5783, 0xb784), (0x9485, 0xae08), (0x6b10, 0xb824),
  (0x4f93, 0xb960)]

/-- hanja/table.go:13065-13320 -/
def rawTable51 : List (Nat × Nat) := [
  (0x8c95, 0xd734), (0x4320, 0xac10), (0x8022, 0xb85c), (0x64a5, 0xbc1c), (0x3b30, 0xc720),
  (0x7832, 0xd3ec), (0x5cb5, 0xd638), (0x81b7, 0xd5a5), (0x5042, 0xc804), (0x34c5, 0xc815),
  (0x9544, 0xbe44), (0x79c7, 0xc608), (0x4852, 0xc804), (0x8d54, 0xbc30), (0x51d7, 0xcd5c),
  (0x96d9, 0xc30d), (0x6564, 0xacfc), (0x49e7, 0xc758), (0x8ee9, 0xd0dc), (0x5d74, 0xcc99),
  (0x8276, 0xc5fc), (0x66f9, 0xc870), (0x3584, 0xc8fc), (0x7a86, 0xd3c4), (0x400d, 0xac10),
  (0x850f, 0xc0c1), (0x5296, 0xcc38), (0x9798, 0xcd08), (0x381d, 0xcc2c), (0x7d1f, 0xae08),
  (0x4aa6, 0xd64d), (0x8fa8, 0xbcc0), (0x552f, 0xc720), (0x9a31, 0xd61c), (0x67b8, 0xad6c),
  (0x4d3f, 0xbabd), (0x7241, 0xac00), (0x5fc8, 0xc778), (0x9cca, 0xd3b8), (0x6a51, 0xb8cc),
  (0x37d8, 0xc870), (0x74da, 0xcc2c), (0x4261, 0xb2e8), (0x8763, 0xc720), (0x6cea, 0xb8e8),
  (0x91ec, 0xd55c), (0x3a71, 0xc791), (0x7f73, 0xc2dc), (0x44fa, 0xbbf8), (0x89fc, 0xacb0),
  (0x3702, 0xbd09), (0x9989, 0xace8), (0x660c, 0xcc3d), (0x428f, 0xc0bc), (0x9516, 0xcc3d),
  (0x7199, 0xd76c), (0x5e1c, 0xce58), (0x3a9f, 0xb3c8), (0x8d26, 0xc7a5), (0x69a9, 0xac74),
  (0x362c, 0xbd88), (0x98b3, 0xad04), (0x6536, 0xc218), (0x41b9, 0xcd1d), (0x9440, 0xc560),
  (0x70c3, 0xacbd), (0x5d46, 0xd61c), (0x39c9, 0xc54c), (0x8c50, 0xd48d), (0x68d3, 0xbd80),
  (0x3556, 0xc18c), (0x6460, 0xcd1d), (0x40e3, 0xd6fc), (0x77ed, 0xb2e8), (0x5c70, 0xc5ed),
  (0x38f3, 0xbb34), (0x837a, 0xc724), (0x6ffd, 0xcc2c), (0x5501, 0xc5b8), (0x3480, 0xc801),
  (0x840b, 0xcc98), (0x7b8a, 0xc5b4), (0x4d11, 0xcca9), (0x7c1b, 0xc2dc), (0x539a, 0xd6c4),
  (0xfa1f, 0xc54c), (0x82a4, 0xaddc), (0x542b, 0xd568), (0x4baa, 0xc2b9), (0x9b35, 0xc2ec),
  (0x7ab4, 0xc804), (0x4c3b, 0xc5b4), (0x7345, 0xc0ac), (0x52c4, 0xbbfc), (0x81ce, 0xcde8),
  (0x6b55, 0xbd84), (0x4ad4, 0xacc4), (0x9a5f, 0xcde8), (0x79de, 0xc720), (0x4365, 0xb825),
  (0x726f, 0xace0), (0x51ee, 0xd48d), (0x3b75, 0xc804), (0x80f8, 0xd749), (0x6a7f, 0xac15),
  (0x49fe, 0xc11c), (0x3c06, 0xbc30), (0x7908, 0xcd94), (0x458b, 0xd559), (0x868d, 0xbe44),
  (0x5118, 0xc9c4), (0x3d9b, 0xc5ec), (0x921a, 0xbe44), (0x7e9d, 0xb958), (0x4928, 0xbcbd),
  (0x8a2a, 0xbc29), (0x56ad, 0xbe44), (0x93af, 0xb77c), (0x623a, 0xc0ac), (0x4ebd, 0xb77c),
  (0x8bbf, 0xbc29), (0x5a4a, 0xd45c), (0x874c, 0xacfc), (0x63cf, 0xbb18), (0x7f5c, 0xc8fc),
  (0x5bdf, 0xcc30), (0x84e1, 0xc0bc), (0x576c, 0xacfc), (0x906e, 0xcc28), (0x7cf1, 0xc5bc),
  (0x4f7c, 0xad50), (0x887e, 0xae08), (0x5205, 0xcc3d), (0x9f07, 0xc624), (0x608e, 0xd638),
  (0x4a15, 0xc6b0), (0x7717, 0xad6c), (0x589e, 0xc99d), (0x85a0, 0xbc88), (0x6f27, 0xac74),
  (0x7db0, 0xad00), (0x4737, 0xce68), (0x8039, 0xae08), (0x55c0, 0xd559), (0x96c2, 0xae08),
  (0x3f47, 0xd639), (0x7849, 0xb960), (0x8ed2, 0xd5cc), (0x5059, 0xc81c), (0x9d5b, 0xacbd),
  (0x66e2, 0xb8cc), (0x4869, 0xc9c4), (0x756b, 0xd654), (0x5ef2, 0xb824), (0x9bf4, 0xc2ac),
  (0x6d7b, 0xd615), (0x9781, 0xd53c), (0x7004, 0xc990), (0x5c87, 0xc559), (0x390a, 0xd6a8),
  (0x8f91, 0xc9d1), (0x6814, 0xacc4), (0x3497, 0xb300), (0x9b1e, 0xb18d), (0x67a1, 0xc2b9),
  (0x4024, 0xbb34), (0x96ab, 0xbd84), (0x732e, 0xd5cc), (0x5fb1, 0xd45c), (0x3834, 0xc778),
  (0x8ebb, 0xacf5), (0x6b3e, 0xad00), (0x37c1, 0xc548), (0x9a48, 0xc728), (0x66cb, 0xb2f4),
  (0x434e, 0xcc9c), (0x7258, 0xb3c5), (0x5edb, 0xc804), (0x3b5e, 0xb82c), (0x81e5, 0xc640),
  (0x6a68, 0xbd84), (0x36eb, 0xc11d), (0x9d72, 0xc791), (0x79f5, 0xc778), (0x4278, 0xbcc0),
  (0x9203, 0xacac), (0x7582, 0xcca9), (0x5b09, 0xd76c), (0x3a88, 0xacc4), (0x8a13, 0xd6c8),
  (0x6d92, 0xad70), (0x9c9c, 0xc120), (0x6223, 0xaddc), (0x45a2, 0xbb18), (0x952d, 0xc815),
  (0x74ac, 0xad50), (0x5a33, 0xb9ac), (0x3db2, 0xc6a9), (0x8d3d, 0xc9c0), (0x6cbc, 0xc18c),
  (0x654d, 0xc11c), (0x44cc, 0xc9c0), (0x9457, 0xb824), (0x77d6, 0xb9ac), (0x5d5d, 0xb8e8),
  (0x3cdc, 0xd734), (0x8c67, 0xbd80), (0x6fe6, 0xc740), (0x356d, 0xc694), (0x9ef0, 0xc9c4),
  (0x6477, 0xcd08), (0x47f6, 0xc88c), (0x7700, 0xba85), (0x5383, 0xcca8), (0x9085, 0xc804),
  (0x6f10, 0xce69), (0x4b93, 0xd0c1), (0x8895, 0xc220), (0x4720, 0xc9c8), (0x8422, 0xd3ec),
  (0x60a5, 0xc5b5), (0x3f30, 0xbe44), (0x7c32, 0xbe44), (0x58b5, 0xb2f4), (0x85b7, 0xc720),
  (0x5442, 0xb824), (0x9144, 0xd658), (0x7dc7, 0xce58), (0x4c52, 0xc5c5), (0x8954, 0xb9cc),
  (0x55d7, 0xc648), (0x92d9, 0xc5b4), (0x6164, 0xac01), (0x8ae9, 0xbcf4), (0x5974, 0xb178),
  (0x8676, 0xc6b0), (0x62f9, 0xd611), (0x7e86, 0xbb35), (0x440d, 0xcd94), (0x810f, 0xc7a5),
  (0x5696, 0xd61c), (0x9398, 0xb825), (0x3c1d, 0xc774), (0x791f, 0xd3ec), (0x4ea6, 0xc5ed),
  (0x8ba8, 0xd1a0), (0x512f, 0xb4f1), (0x9e31, 0xce58), (0x63b8, 0xd0c4), (0x493f, 0xacb0),
  (0x7641, 0xbcf5), (0x5bc8, 0xac74), (0x98ca, 0xd45c), (0x6e51, 0xc11c), (0x70da, 0xd569),
  (0x4661, 0xadc0)]

/-- hanja/table.go:13321-13576 -/
def rawTable52 : List (Nat × Nat) := [
  (0x8363, 0xc1a1), (0x68ea, 0xc5fc), (0x95ec, 0xd55c), (0x3e71, 0xc791), (0x7b73, 0xc815),
  (0x40fa, 0xb9c8), (0x8dfc, 0xad6d), (0x3b02, 0xc6b0), (0x9589, 0xd3d0), (0x6a0c, 0xad00),
  (0x4e8f, 0xc6b0), (0x9916, 0xb450), (0x7d99, 0xacc4), (0x521c, 0xbd88), (0x369f, 0xcc29),
  (0x8126, 0xd2b9), (0x65a9, 0xcc38), (0x3a2c, 0xc6d0), (0x94b3, 0xacb8), (0x6936, 0xc885),
  (0x9840, 0xcd94), (0x7cc3, 0xb2f9), (0x5146, 0xc870), (0x35c9, 0xb7b5), (0x8050, 0xc54c),
  (0x64d3, 0xd68c), (0x3956, 0xc885), (0x93dd, 0xb9cc), (0x6860, 0xc544), (0x4ce3, 0xc5f0),
  (0x7bed, 0xb871), (0x5070, 0xc124), (0x34f3, 0xc800), (0x8f7a, 0xcd08), (0x63fd, 0xb78c),
  (0x5901, 0xc77c), (0x3880, 0xc790), (0x880b, 0xcd09), (0x778a, 0xb2f9), (0x4111, 0xd65c),
  (0x701b, 0xc601), (0x5f9a, 0xb828), (0x8ea4, 0xc801), (0x582b, 0xc885), (0x47aa, 0xc7a5),
  (0x9735, 0xc999), (0x76b4, 0xc900), (0x403b, 0xbe59), (0x7f45, 0xd558), (0x5ec4, 0xad6c),
  (0x8dce, 0xd0c0), (0x6755, 0xccb4), (0x46d4, 0xb098), (0x965f, 0xcc99), (0x75de, 0xbe44),
  (0x4f65, 0xcca8), (0x7e6f, 0xd604), (0x5dee, 0xcc28), (0x3775, 0xc560), (0x8cf8, 0xc789),
  (0x667f, 0xcc3d), (0x45fe, 0xd604), (0x7508, 0xacc4), (0x498b, 0xc624), (0x8a8d, 0xc778),
  (0x5d18, 0xb95c), (0x9e1a, 0xc575), (0x729d, 0xb3d9), (0x4528, 0xc639), (0x862a, 0xbbf8),
  (0x5aad, 0xc218), (0x6e3a, 0xbb18), (0x42bd, 0xacb0), (0x87bf, 0xc7a5), (0x564a, 0xc728),
  (0x8b4c, 0xc640), (0x6fcf, 0xc2ac), (0x3e5a, 0xc575), (0x735c, 0xb9b0), (0x57df, 0xc5ed),
  (0x88e1, 0xb9ac), (0x5b6c, 0xc704), (0x3fef, 0xb2f5), (0x9c6e, 0xc11c), (0x70f1, 0xacbd),
  (0x437c, 0xc7a0), (0x847e, 0xc6d0), (0x5e05, 0xc218), (0x9307, 0xbd80), (0x6c8e, 0xd654),
  (0x4615, 0xd56d), (0x7b17, 0xb3d9), (0x549e, 0xd604), (0x89a0, 0xade0), (0x6327, 0xc6b0),
  (0x3cae, 0xd0d1), (0x71b0, 0xad6c), (0x4b37, 0xc0ac), (0x8c39, 0xd6a1), (0x59c0, 0xd654),
  (0x9ac2, 0xac00), (0x7449, 0xbbfc), (0x41d0, 0xb9ac), (0x82d2, 0xc5fc), (0x5c59, 0xc544),
  (0x915b, 0xc6d0), (0x6ae2, 0xc218), (0x4469, 0xace0), (0x796b, 0xd611), (0x52f2, 0xd6c8),
  (0x97f4, 0xc7a1), (0x617b, 0xad8c), (0x9b81, 0xbc1c), (0x7c04, 0xd638), (0x5087, 0xc6a9),
  (0x350a, 0xc804), (0x8391, 0xbd09), (0x6414, 0xc18c), (0x3897, 0xad50), (0x971e, 0xd558),
  (0x6ba1, 0xbe48), (0x4c24, 0xb3d9), (0x9aab, 0xc704), (0x7f2e, 0xc120), (0x53b1, 0xac10),
  (0x3434, 0xbc18), (0x82bb, 0xcd94), (0x673e, 0xc815), (0x3bc1, 0xbc30), (0x9648, 0xc9c4),
  (0x6acb, 0xba74), (0x4f4e, 0xc800), (0x7e58, 0xc728), (0x52db, 0xd6c8), (0x375e, 0xc544),
  (0x8de5, 0xd0c0), (0x6668, 0xc2e0), (0x3aeb, 0xd604), (0x9172, 0xc815), (0x75f5, 0xacc4),
  (0x4e78, 0xb098), (0x9e03, 0xc758), (0x7982, 0xb3c4), (0x5709, 0xc5b4), (0x3688, 0xcc9c),
  (0x8613, 0xc5b4), (0x6192, 0xada4), (0x3f19, 0xcd94), (0x909c, 0xc11d), (0x6e23, 0xc0ac),
  (0x49a2, 0xd65c), (0x992d, 0xd669), (0x78ac, 0xd558), (0x5633, 0xadc0), (0x813d, 0xc218),
  (0x60bc, 0xb3c4), (0x3e43, 0xbe44), (0x93c6, 0xad00), (0x694d, 0xbcf8), (0x48cc, 0xc800),
  (0x9857, 0xc758), (0x7bd6, 0xb2f9), (0x515d, 0xbd84), (0x8067, 0xaddc), (0x63e6, 0xb784),
  (0x396d, 0xd0dc), (0x92f0, 0xb9ac), (0x6877, 0xac01), (0x4bf6, 0xb9cc), (0x7b00, 0xb9dd),
  (0x5f83, 0xc655), (0x9c85, 0xbc1c), (0x6310, 0xb098), (0x4793, 0xc815), (0x8495, 0xc628),
  (0x4b20, 0xbe44), (0x8822, 0xc900), (0x6ca5, 0xb825), (0x7032, 0xb834), (0x54b5, 0xacfc),
  (0x89b7, 0xcc98), (0x5842, 0xd56d), (0x3cc5, 0xb958), (0x9d44, 0xce58), (0x71c7, 0xc874),
  (0x4052, 0xc9d1), (0x8554, 0xbcf4), (0x59d7, 0xc0b0), (0x9ed9, 0xbb35), (0x6d64, 0xad49),
  (0x41e7, 0xccb4), (0x86e9, 0xacf5), (0x5574, 0xd0c4), (0x8a76, 0xc218), (0x6ef9, 0xd638),
  (0x3d84, 0xc5fc), (0x7286, 0xc9c1), (0x480d, 0xd558), (0x8d0f, 0xc601), (0x5a96, 0xc601),
  (0x9f98, 0xb2f5), (0x751f, 0xc0dd), (0x42a6, 0xc5f4), (0x87a8, 0xb9cc), (0x5d2f, 0xc74c),
  (0x9231, 0xbbfc), (0x6fb8, 0xb2f4), (0x453f, 0xc900), (0x7a41, 0xc6a9), (0x57c8, 0xc900),
  (0x94ca, 0xc0ac), (0x6251, 0xbcf5), (0x3fd8, 0xc601), (0x7cda, 0xc7a5), (0x4a61, 0xacb9),
  (0x8f63, 0xb825), (0x64ea, 0xc5fd), (0x99ec, 0xc774), (0x7773, 0xd734), (0x4cfa, 0xc554),
  (0x81fc, 0xad6c), (0x3f02, 0xc5ec), (0x9189, 0xcde8), (0x6e0c, 0xb85d), (0x4a8f, 0xb0a9),
  (0x9d16, 0xbbfc), (0x7999, 0xbc30), (0x561c, 0xb9c8), (0x8526, 0xc870), (0x61a9, 0xac8c),
  (0x3e2c, 0xd328), (0x90b3, 0xbe44), (0x6d36, 0xd749), (0x49b9, 0xc2ed), (0x9c40, 0xae30),
  (0x78c3, 0xc0ac), (0x5546, 0xc0c1), (0x8450, 0xbd84), (0x60d3, 0xad8c), (0x3d56, 0xb140),
  (0x97dd, 0xad6c), (0x6c60, 0xc9c0), (0x48e3, 0xb2f9), (0x7fed, 0xd6c4), (0x5470, 0xc790),
  (0x8b7a, 0xc758), (0x67fd, 0xc815), (0x5d01, 0xac10), (0x3c80, 0xc9c4), (0x8c0b, 0xbaa8),
  (0x738a, 0xc219), (0x4511, 0xc0ac), (0x741b, 0xce68), (0x5b9a, 0xc815), (0x8aa4, 0xc624),
  (0x5c2b, 0xc655)]

/-- hanja/table.go:13577-13832 -/
def rawTable53 : List (Nat × Nat) := [
  (0x43aa, 0xb291), (0x9335, 0xd654), (0x72b4, 0xc548), (0x443b, 0xace0), (0x7b45, 0xc120),
  (0x5ac4, 0xc6d0), (0x89ce, 0xc720), (0x6355, 0xd3ec), (0x42d4, 0xbc30), (0x925f, 0xbe44),
  (0x71de, 0xcd08), (0x4b65, 0xc591), (0x7a6f, 0xc0c9), (0x59ee, 0xd56d), (0x88f8, 0xb77c),
  (0x627f, 0xc2b9), (0x41fe, 0xc5b8), (0x3406, 0xc740), (0x7108, 0xd76c), (0x4d8b, 0xd761),
  (0x8e8d, 0xc57d), (0x5918, 0xc6d0), (0x359b, 0xacf3), (0x9a1a, 0xc804), (0x769d, 0xd669),
  (0x4128, 0xc6b0), (0x822a, 0xd56d), (0x5ead, 0xc815), (0x9baf, 0xd569), (0x6a3a, 0xd654),
  (0x46bd, 0xd638), (0x83bf, 0xc790), (0x524a, 0xc0ad), (0x8f4c, 0xc124), (0x6bcf, 0xb9e4),
  (0x3a5a, 0xbabd), (0x775c, 0xc815), (0x53df, 0xc218), (0x8ce1, 0xac31), (0x5f6c, 0xbe48),
  (0x3bef, 0xacf5), (0x986e, 0xbe48), (0x74f1, 0xbaa8), (0x477c, 0xccad), (0x807e, 0xb871),
  (0x5a05, 0xc544), (0x9707, 0xc9c4), (0x688e, 0xc694), (0x4215, 0xc2dc), (0x7f17, 0xbbfc),
  (0x509e, 0xc0ac), (0x8da0, 0xcd08), (0x6727, 0xb871), (0x38ae, 0xc774), (0x75b0, 0xc8fc),
  (0x4f37, 0xc8fc), (0x8839, 0xb450), (0x5dc0, 0xcc30), (0x9ec2, 0xbd84), (0x3747, 0xc21c),
  (0x7049, 0xc639), (0x45d0, 0xc2dc), (0x86d2, 0xaca9), (0x5859, 0xace0), (0x955b, 0xc6a9),
  (0x6ee2, 0xd615), (0x4069, 0xc5b4), (0x7d6b, 0xb958), (0x56f2, 0xc704), (0x93f4, 0xb85c),
  (0x657b, 0xd604), (0x9f81, 0xd758), (0x7804, 0xacb0), (0x5487, 0xd544), (0x8791, 0xd6c4),
  (0x6014, 0xc815), (0x3c97, 0xbd80), (0x931e, 0xc21c), (0x6fa1, 0xc870), (0x4824, 0xd0c0),
  (0x9eab, 0xba74), (0x7b2e, 0xcc29), (0x57b1, 0xb2f9), (0x86bb, 0xcc30), (0x633e, 0xd611),
  (0x3fc1, 0xace0), (0x9248, 0xc0ac), (0x6ecb, 0xc790), (0x4b4e, 0xc5fd), (0x7a58, 0xd6a8),
  (0x56db, 0xc0ac), (0x89e5, 0xad49), (0x6268, 0xc778), (0x3eeb, 0xd544), (0x9572, 0xcc30),
  (0x71f5, 0xb2ec), (0x4a78, 0xc6a9), (0x9a03, 0xc560), (0x7d82, 0xd1b5), (0x5309, 0xd3c9),
  (0x8213, 0xc9c0), (0x6592, 0xbc18), (0x3b19, 0xc704), (0x949c, 0xac70), (0x6a23, 0xc591),
  (0x4da2, 0xd568), (0x9d2d, 0xd1f4), (0x7cac, 0xace1), (0x5233, 0xace0), (0x35b2, 0xc5ff),
  (0x853d, 0xd3d0), (0x64bc, 0xac10), (0x3a43, 0xac74), (0x97c6, 0xcc9c), (0x6d4d, 0xd68c),
  (0x4ccc, 0xacac), (0x9c57, 0xb9b0), (0x7fd6, 0xd761), (0x555d, 0xd654), (0x34dc, 0xc720),
  (0x8467, 0xbc1c), (0x67e6, 0xb2e8), (0x3d6d, 0xc800), (0x96f0, 0xbd84), (0x6c77, 0xc885),
  (0x4ff6, 0xc219), (0x7f00, 0xcca0), (0x5b83, 0xd0c0), (0x9885, 0xb85c), (0x6710, 0xad6c),
  (0x4393, 0xb2f5), (0x8095, 0xc778), (0x4f20, 0xc804), (0x8c22, 0xc0ac), (0x68a5, 0xc1a1),
  (0x3730, 0xc57d), (0x7432, 0xbc30), (0x50b5, 0xcc44), (0x8db7, 0xd758), (0x5c42, 0xce35),
  (0x38c5, 0xc7a0), (0x9944, 0xb2f9), (0x75c7, 0xc99d), (0x4452, 0xc778), (0x8154, 0xac15),
  (0x5dd7, 0xc554), (0x9ad9, 0xace0), (0x6964, 0xc1a1), (0x45e7, 0xac15), (0x82e9, 0xbc31),
  (0x5174, 0xd765), (0x8e76, 0xad90), (0x6af9, 0xc18c), (0x3984, 0xb9c8), (0x7686, 0xac1c),
  (0x4c0d, 0xd734), (0x890f, 0xc720), (0x5e96, 0xd3ec), (0x9b98, 0xb300), (0x341d, 0xad74),
  (0x711f, 0xc11d), (0x46a6, 0xce58), (0x83a8, 0xb791), (0x592f, 0xd56d), (0x9631, 0xc815),
  (0x6bb8, 0xc131), (0x413f, 0xc608), (0x7e41, 0xbc88), (0x53c8, 0xc6b0), (0x90ca, 0xad50),
  (0x6651, 0xd5a5), (0x3bd8, 0xad00), (0x78da, 0xc804), (0x4e61, 0xd5a5), (0x8b63, 0xd5d8),
  (0x60ea, 0xb355), (0x9dec, 0xd669), (0x3671, 0xd638), (0x7373, 0xb204), (0x48fa, 0xacac),
  (0x85fc, 0xd6e4), (0x6181, 0xcd1d), (0x8604, 0xae30), (0x550e, 0xb9ac), (0x7991, 0xc6b0),
  (0x9e14, 0xbcf5), (0x489b, 0xd615), (0x6d1e, 0xb3d9), (0x91a1, 0xc790), (0x3c28, 0xd76c),
  (0x60ab, 0xac01), (0x852e, 0xada4), (0x5438, 0xd761), (0x78bb, 0xd655), (0x9d3e, 0xbaa8),
  (0x47c5, 0xc7a0), (0x6c48, 0xc870), (0x90cb, 0xd574), (0x3b52, 0xc0ac), (0x5fd5, 0xd0dc),
  (0x8458, 0xce58), (0x5362, 0xb85c), (0x77e5, 0xc9c0), (0x9c68, 0xc0c1), (0x46ef, 0xac70),
  (0x6b72, 0xc138), (0x8ff5, 0xb3d9), (0x3a7c, 0xc9c0), (0x5eff, 0xc785), (0x6403, 0xcd1d),
  (0x8382, 0xbcc4), (0x528c, 0xadc0), (0x7c13, 0xc870), (0x9b92, 0xbd80), (0x4b1d, 0xd6a1),
  (0x6a9c, 0xd68c), (0x9423, 0xc7a5), (0x39a6, 0xd601), (0x632d, 0xacbd), (0x82ac, 0xbd84),
  (0x51b6, 0xc57c), (0x7b3d, 0xba85), (0x9abc, 0xaca9), (0x4a47, 0xc810), (0x69c6, 0xc21c),
  (0x934d, 0xb3c4), (0x38d0, 0xbcc0), (0x6257, 0xc7ac), (0x81d6, 0xd765), (0x50e0, 0xbc88),
  (0x7a67, 0xc81c), (0x99e6, 0xb4f1), (0x4971, 0xc0ac), (0x68f0, 0xcd94), (0x9277, 0xd64d),
  (0x37fa, 0xb8e8), (0x8100, 0xc2b9), (0x4202, 0xbcd1), (0x6685, 0xd658), (0x9910, 0xcc2c),
  (0x5a12, 0xbaa8), (0x7e95, 0xc591), (0x4397, 0xad50), (0x7222, 0xbbf8), (0x96a5, 0xb4f1),
  (0x3724, 0xb2f4), (0x5ba7, 0xc774), (0x8a32, 0xc5b5), (0x4f34, 0xbc18), (0x73b7, 0xc810),
  (0x34b9, 0xc804), (0x6744, 0xcc9c), (0x8bc7, 0xd615), (0x4cc9, 0xb3d9), (0x7f54, 0xb9dd),
  (0x4056, 0xb8e8)]

/-- hanja/table.go:13833-14088 -/
def rawTable54 : List (Nat × Nat) := [
  (0x64d9, 0xc624), (0x9764, 0xd3ec), (0x5866, 0xc9c4), (0x7ce9, 0xad34), (0x41eb, 0xae30),
  (0x7076, 0xc870), (0x94f9, 0xb85c), (0x3578, 0xb9bd), (0x59fb, 0xc778), (0x8886, 0xc704),
  (0x4d88, 0xbc15), (0x770f, 0xc559), (0x3811, 0xc8c4), (0x6598, 0xc2b9), (0x8f1f, 0xcca0),
  (0x5021, 0xcc3d), (0x7da8, 0xae30), (0x3eaa, 0xbc15), (0x6831, 0xacf5), (0x95b8, 0xace4),
  (0x56ba, 0xc218), (0x8041, 0xbd84), (0x4543, 0xc74c), (0x6eca, 0xd5d0), (0x9851, 0xd568),
  (0x5d53, 0xc554), (0x86da, 0xb82c), (0x4bdc, 0xcc99), (0x7563, 0xb2f5), (0x3665, 0xace4),
  (0x9eea, 0xcc38), (0x63ec, 0xb3cc), (0x8d73, 0xaddc), (0x4e75, 0xc5fc), (0x7bfc, 0xb450),
  (0x3cfe, 0xac15), (0x4b06, 0xb960), (0x6f89, 0xac10), (0x900c, 0xc720), (0x3e93, 0xc801),
  (0x6316, 0xc54c), (0x8799, 0xb450), (0x56a3, 0xd6a8), (0x7b26, 0xbd80), (0x4a30, 0xbc15),
  (0x6eb3, 0xc6b4), (0x9336, 0xd45c), (0x39bd, 0xc6b1), (0x6240, 0xc18c), (0x86c3, 0xbcd1),
  (0x51cd, 0xb3d9), (0x7a50, 0xcd94), (0x9ed3, 0xc775), (0x455a, 0xada4), (0x69dd, 0xb3c4),
  (0x9260, 0xc559), (0x38e7, 0xc724), (0x5d6a, 0xace0), (0x81ed, 0xcde8), (0x50f7, 0xc5fd),
  (0x757a, 0xac15), (0x99fd, 0xd604), (0x4484, 0xbd80), (0x720b, 0xd6c8), (0x8d8a, 0xc6d4),
  (0x3d15, 0xc9d1), (0x5c94, 0xcc28), (0x8a1b, 0xc640), (0x5525, 0xb7ad), (0x74a4, 0xd61c),
  (0x47ae, 0xb3c4), (0x6d35, 0xc21c), (0x8cb4, 0xadc0), (0x3c3f, 0xd61c), (0x5fbe, 0xbbf8),
  (0x8545, 0xc6b0), (0x544f, 0xc2b9), (0x77ce, 0xd604), (0x9d55, 0xc900), (0x46d8, 0xc784),
  (0x6c5f, 0xac15), (0x8fde, 0xb828), (0x3f69, 0xcc38), (0x5ee8, 0xd574), (0x846f, 0xc57d),
  (0x5779, 0xd608), (0x76f8, 0xc0c1), (0x9c7f, 0xc6b0), (0x8f08, 0xc8fc), (0x4c0a, 0xbc15),
  (0x708d, 0xbc18), (0x358f, 0xb148), (0x641a, 0xb78d), (0x889d, 0xbd80), (0x4d9f, 0xd568),
  (0x7c2a, 0xc7a0), (0x412c, 0xc774), (0x65af, 0xc0ac), (0x943a, 0xb2f9), (0x593c, 0xcc9c),
  (0x7dbf, 0xba74), (0x42c1, 0xacbd), (0x714c, 0xd669), (0x95cf, 0xd33d), (0x364e, 0xc704),
  (0x5ad1, 0xc694), (0x895c, 0xcca8), (0x4e5e, 0xac78), (0x72e1, 0xad50), (0x37e3, 0xc22d),
  (0x666e, 0xbcf4), (0x8af1, 0xd718), (0x4ff3, 0xbc30), (0x7e7e, 0xacac), (0x4380, 0xd6e8),
  (0x6907, 0xad6c), (0x968e, 0xacc4), (0x5b90, 0xc758), (0x8117, 0xbb38), (0x4619, 0xc704),
  (0x73a0, 0xac1c), (0x9927, 0xc704), (0x5e29, 0xcd08), (0x8bb0, 0xae30), (0x48b2, 0xc641),
  (0x7639, 0xc870), (0x3b3b, 0xd669), (0x60c2, 0xac10), (0x8e49, 0xcc28), (0x534b, 0xc138),
  (0x78d2, 0xc6b4), (0x3dd4, 0xc5fc), (0x6b5b, 0xac10), (0x90e2, 0xc601), (0x55e4, 0xce58),
  (0x836b, 0xc74c), (0x406d, 0xd45c), (0x6df4, 0xc62c), (0x9b7b, 0xd569), (0x587d, 0xc0c1),
  (0x6581, 0xb450), (0x8204, 0xc11d), (0x348b, 0xc2dc), (0x510e, 0xc7ac), (0x7d91, 0xace4),
  (0x9a14, 0xac08), (0x4c9b, 0xbabd), (0x691e, 0xc2ed), (0x95a1, 0xc560), (0x3828, 0xc6b8),
  (0x64ab, 0xbb34), (0x812e, 0xd1f4), (0x5038, 0xcc44), (0x7cbb, 0xc7a5), (0x993e, 0xb958),
  (0x43c5, 0xccb4), (0x6848, 0xc548), (0x94cb, 0xd544), (0x3f52, 0xc0dd), (0x5bd5, 0xb155),
  (0x8058, 0xbe59), (0x5762, 0xbc18), (0x73e5, 0xc774), (0x9868, 0xc190), (0x42ef, 0xacc4),
  (0x6f72, 0xc18c), (0x8bf5, 0xc1a1), (0x3e7c, 0xad6d), (0x5aff, 0xd68d), (0x6003, 0xbb34),
  (0x8782, 0xb791), (0x370d, 0xb2f9), (0x568c, 0xc81c), (0x7813, 0xcca0), (0x9f92, 0xb8e1),
  (0x4f1d, 0xc804), (0x6e9c, 0xb958), (0x9023, 0xb828), (0x3da6, 0xc2e0), (0x672d, 0xcc30),
  (0x86ac, 0xd604), (0x3637, 0xc560), (0x55b6, 0xc601), (0x7f3d, 0xbc1c), (0x9ebc, 0xb9c8),
  (0x4e47, 0xd0c1), (0x6dc6, 0xd6a8), (0x974d, 0xc791), (0x3cd0, 0xcc30), (0x6657, 0xd568),
  (0x85d6, 0xc0b0), (0x3561, 0xd559), (0x54e0, 0xd638), (0x7e67, 0xc6b4), (0x9de6, 0xcd08),
  (0x4d71, 0xd601), (0x6cf0, 0xd0dc), (0x9677, 0xd568), (0x8500, 0xbd80), (0x4602, 0xc810),
  (0x6285, 0xad6c), (0x9d10, 0xac00), (0x5e12, 0xb300), (0x7a95, 0xc870), (0x4797, 0xcc44),
  (0x7622, 0xbc18), (0x92a5, 0xc758), (0x5fa7, 0xd3b8), (0x8e32, 0xb454), (0x4b34, 0xb9d0),
  (0x77b7, 0xd55c), (0x6344, 0xad6c), (0x8fc7, 0xacfc), (0x48c9, 0xc0ac), (0x7b54, 0xb2f5),
  (0x4456, 0xcca9), (0x60d9, 0xcca0), (0x9364, 0xc0bd), (0x5c66, 0xad6c), (0x78e9, 0xcc99),
  (0x45eb, 0xb9c8), (0x7476, 0xc694), (0x90f9, 0xaca9), (0x5dfb, 0xad8c), (0x8c86, 0xd6e4),
  (0x4988, 0xcc28), (0x730f, 0xacac), (0x3c11, 0xc0bc), (0x6198, 0xd76c), (0x8b1f, 0xb3c4),
  (0x5421, 0xd544), (0x79a8, 0xae30), (0x3aaa, 0xc0bd), (0x6c31, 0xc591), (0x91b8, 0xc591),
  (0x52ba, 0xbb34), (0x8441, 0xac15), (0x4143, 0xacf5), (0x6aca, 0xac01), (0x37cc, 0xb9dd),
  (0x9c51, 0xd669), (0x5953, 0xcc28), (0x82da, 0xc6a9), (0x4fdc, 0xbe59), (0x7163, 0xc720),
  (0x9aea, 0xbc1c), (0x67ec, 0xac04), (0x8973, 0xc12c), (0x4a75, 0xc6b4), (0x7ffc, 0xc775),
  (0x38fe, 0xcc28), (0x4f06, 0xbb38), (0x6b89, 0xc21c), (0x940c, 0xc0c1), (0x3a93, 0xc8c4),
  (0x6716, 0xb791)]

/-- hanja/table.go:14089-14344 -/
def rawTable55 : List (Nat × Nat) := [
  (0x8399, 0xad70), (0x3620, 0xbcbd), (0x52a3, 0xb82c), (0x7f26, 0xb9cc), (0x9ba9, 0xbcd1),
  (0x4e30, 0xbd09), (0x6ab3, 0xbe48), (0x9736, 0xbc29), (0x3dbd, 0xacfc), (0x6640, 0xc870),
  (0x82c3, 0xc6b0), (0x55cd, 0xc0ad), (0x7e50, 0xc138), (0x9ad3, 0xc218), (0x415a, 0xad8c),
  (0x6ddd, 0xbe44), (0x9660, 0xd3ec), (0x3ce7, 0xcca9), (0x596a, 0xd0c8), (0x85ed, 0xad81),
  (0x54f7, 0xb82c), (0x717a, 0xd1f4), (0x9dfd, 0xd559), (0x4084, 0xd655), (0x760b, 0xd48d),
  (0x898a, 0xae30), (0x3915, 0xc904), (0x5894, 0xcd5c), (0x8e1b, 0xb959), (0x5125, 0xc721),
  (0x70a4, 0xc18c), (0x43ae, 0xccb4), (0x6935, 0xac00), (0x88b4, 0xace0), (0x383f, 0xc790),
  (0x5bbe, 0xbe48), (0x8145, 0xb2f4), (0x504f, 0xd3b8), (0x73ce, 0xc9c4), (0x9955, 0xb3c4),
  (0x42d8, 0xcd94), (0x685f, 0xc794), (0x8bde, 0xd0c4), (0x3b69, 0xb82c), (0x5ae8, 0xd55c),
  (0x806f, 0xb828), (0x5379, 0xd73c), (0x72f8, 0xb9ac), (0x987f, 0xb3c8), (0x8b08, 0xd3ec),
  (0x480a, 0xbe44), (0x748d, 0xd654), (0x601a, 0xc800), (0x8c9d, 0xd328), (0x499f, 0xc628),
  (0x782a, 0xbaa8), (0x452c, 0xc774), (0x61af, 0xcc38), (0x903a, 0xc6d0), (0x5d3c, 0xc2dc),
  (0x79bf, 0xb3c5), (0x46c1, 0xc5fc), (0x754c, 0xacc4), (0x91cf, 0xb7c9), (0x5ed1, 0xadfc),
  (0x8d5c, 0xc0c9), (0x4a5e, 0xcca9), (0x76e1, 0xc9c4), (0x626e, 0xbd84), (0x8ef1, 0xace0),
  (0x4bf3, 0xc1a1), (0x7a7e, 0xc694), (0x4780, 0xd6c4), (0x6d07, 0xc778), (0x928e, 0xacf5),
  (0x5f90, 0xc11c), (0x8517, 0xc790), (0x4219, 0xc8fc), (0x77a0, 0xb2f9), (0x34a2, 0xc57d),
  (0x9d27, 0xc728), (0x5a29, 0xb9cc), (0x8fb0, 0xc9c4), (0x4cb2, 0xacf5), (0x7239, 0xb2e4),
  (0x3f3b, 0xc7a5), (0x64c2, 0xb8b0), (0x8a49, 0xb178), (0x574b, 0xbd84), (0x7cd2, 0xbe44),
  (0x39d4, 0xad34), (0x6f5b, 0xc7a0), (0x94e2, 0xc218), (0x51e4, 0xbd09), (0x876b, 0xc800),
  (0x446d, 0xc81c), (0x69f4, 0xd638), (0x36f6, 0xd0c4), (0x9f7b, 0xc804), (0x5c7d, 0xd55c),
  (0x6981, 0xc2e4), (0x8e04, 0xbcf4), (0x388b, 0xce58), (0x5d0e, 0xae30), (0x7191, 0xb834),
  (0x9614, 0xd65c), (0x409b, 0xc5ec), (0x651e, 0xb77c), (0x99a1, 0xbe44), (0x3428, 0xc11c),
  (0x68ab, 0xce68), (0x8d2e, 0xc800), (0x5c38, 0xc2dc), (0x70bb, 0xc11d), (0x953e, 0xd658),
  (0x4fc5, 0xad6c), (0x6448, 0xbe48), (0x98cb, 0xc2e4), (0x57d5, 0xc815), (0x8c58, 0xb3c8),
  (0x5b62, 0xd3ec), (0x7fe5, 0xc800), (0x9468, 0xb871), (0x4eef, 0xcd08), (0x6372, 0xad8c),
  (0x87f5, 0xc8fc), (0x56ff, 0xc720), (0x6c03, 0xb3d9), (0x8b82, 0xd604), (0x3b0d, 0xbc15),
  (0x5a8c, 0xbb18), (0x7413, 0xc644), (0x9392, 0xb204), (0x431d, 0xae08), (0x629c, 0xbc1c),
  (0x9c23, 0xc2dc), (0x6b2d, 0xc778), (0x8aac, 0xc124), (0x3a37, 0xadfc), (0x59b6, 0xd604),
  (0x733d, 0xba85), (0x92bc, 0xc88c), (0x4247, 0xc2ec), (0x61c6, 0xc870), (0x9b4d, 0xb9dd),
  (0x6a57, 0xb9f9), (0x89d6, 0xacb0), (0x3961, 0xce58), (0x58e0, 0xb871), (0x7267, 0xbaa9),
  (0x91e6, 0xad6c), (0x4171, 0xc628), (0x60f0, 0xd0c0), (0x9a77, 0xc0ac), (0x3ffa, 0xbc15),
  (0x8900, 0xae30), (0x4a02, 0xcd94), (0x6e85, 0xcc9c), (0x9110, 0xcd95), (0x5212, 0xd654),
  (0x7695, 0xbcbd), (0x4b97, 0xc548), (0x7a22, 0xc6b1), (0x9ea5, 0xb9e5), (0x3f24, 0xacb0),
  (0x53a7, 0xc804), (0x8232, 0xb839), (0x4734, 0xcd94), (0x7bb7, 0xc774), (0x3cb9, 0xae30),
  (0x6f44, 0xc218), (0x83c7, 0xace0), (0x44c9, 0xc57c), (0x7754, 0xace4), (0x4856, 0xac31),
  (0x6cd9, 0xd3c9), (0x9f64, 0xad8c), (0x5066, 0xc11c), (0x74e9, 0xcc9c), (0x49eb, 0xd638),
  (0x7876, 0xc7a0), (0x9cf9, 0xae08), (0x3d78, 0xc57d), (0x51fb, 0xaca9), (0x8086, 0xc0ac),
  (0x4588, 0xd559), (0x7f0f, 0xd3b8), (0x6d98, 0xc0ac), (0x871f, 0xc721), (0x5821, 0xbcf4),
  (0x75a8, 0xc544), (0x36aa, 0xd638), (0x6031, 0xcd1d), (0x9db8, 0xc57d), (0x5eba, 0xc1a1),
  (0x8841, 0xd669), (0x4d43, 0xad49), (0x66ca, 0xbe44), (0x3bcc, 0xcc9c), (0x9051, 0xd669),
  (0x5553, 0xacc4), (0x8eda, 0xb300), (0x43dc, 0xae09), (0x7d63, 0xbcd1), (0x3e65, 0xc8fc),
  (0x96ea, 0xc124), (0x6bec, 0xad6c), (0x8573, 0xac04), (0x4675, 0xaddc), (0x73fc, 0xd328),
  (0x34fe, 0xc11c), (0x4306, 0xadc0), (0x6789, 0xc655), (0x980c, 0xc1a1), (0x3693, 0xb798),
  (0x6b16, 0xb78c), (0x8f99, 0xcca0), (0x3a20, 0xba74), (0x5ea3, 0xc870), (0x7326, 0xd48d),
  (0x97a9, 0xcd08), (0x4230, 0xc18c), (0x66b3, 0xd61c), (0x9b36, 0xaddc), (0x6a40, 0xd61c),
  (0x8ec3, 0xd0c0), (0x59cd, 0xc0b0), (0x7250, 0xc0bd), (0x96d3, 0xc5ec), (0x4d5a, 0xb3c4),
  (0x61dd, 0xc560), (0x9a60, 0xc5f0), (0x556a, 0xbc15), (0x89ed, 0xae30), (0x58f7, 0xd638),
  (0x7d7a, 0xce58), (0x91fd, 0xbcbd), (0x4c84, 0xbbfc), (0x7a0b, 0xc815), (0x858a, 0xacc4),
  (0x3515, 0xae00), (0x5494, 0xc7a1), (0x821b, 0xcc9c), (0x5d25, 0xbe44), (0x7ca4, 0xc6d4),
  (0x4fae, 0xbaa8), (0x6535, 0xbcf5), (0x84b4, 0xc0ad), (0x343f, 0xaca9), (0x57be, 0xd55c),
  (0x8d45, 0xd574), (0x5c4f, 0xbcd1), (0x7fce, 0xb839), (0x9555, 0xc6a9), (0x4ed8, 0xbd80),
  (0x645f, 0xb8e8)]

/-- hanja/table.go:14345-14600 -/
def rawTable56 : List (Nat × Nat) := [
  (0x87de, 0xbcc4), (0x3769, 0xac15), (0x56e8, 0xd3b8), (0x8c6f, 0xd61c), (0x5f79, 0xc5ed),
  (0x7ef8, 0xc8fc), (0x947f, 0xcc29), (0x8708, 0xc624), (0x440a, 0xd63c), (0x788d, 0xc560),
  (0x3d8f, 0xc740), (0x6c1a, 0xcc9c), (0x809d, 0xac04), (0x459f, 0xb9f9), (0x742a, 0xae30),
  (0x492c, 0xc0ac), (0x6daf, 0xc560), (0x9c3a, 0xc18c), (0x513c, 0xc5c4), (0x75bf, 0xbe44),
  (0x4ac1, 0xbe44), (0x794c, 0xcda9), (0x9dcf, 0xc804), (0x3e4e, 0xb8e8), (0x52d1, 0xb798),
  (0x815c, 0xb9e4), (0x465e, 0xb4f1), (0x7ae1, 0xbc31), (0x3fe3, 0xd560), (0x6e6e, 0xc778),
  (0x82f1, 0xc601), (0x47f3, 0xc6b0), (0x767e, 0xbc31), (0x4b80, 0xbc15), (0x6107, 0xc704),
  (0x9e8e, 0xc2e0), (0x5390, 0xb871), (0x8917, 0xc5b8), (0x4e19, 0xbcd1), (0x7ba0, 0xcd94),
  (0x38a2, 0xd3d0), (0x9127, 0xb4f1), (0x5629, 0xd654), (0x83b0, 0xac10), (0x40b2, 0xac81),
  (0x7e39, 0xd45c), (0x68c2, 0xb839), (0x8649, 0xc5ed), (0x5b4b, 0xb9ac), (0x70d2, 0xc2dd),
  (0x35d4, 0xac74), (0x635b, 0xb824), (0x98e2, 0xae30), (0x5de4, 0xb835), (0x8b6b, 0xc12c),
  (0x486d, 0xc218), (0x65f4, 0xc6b0), (0x3af6, 0xc8fc), (0x937b, 0xac08), (0x507d, 0xc704),
  (0x6d81, 0xc0bc), (0x8a04, 0xad6c), (0x3c8b, 0xcc29), (0x590e, 0xc88c), (0x7591, 0xc758),
  (0x9214, 0xcd08), (0x449b, 0xd658), (0x611e, 0xc5f0), (0x9da1, 0xac08), (0x6cab, 0xb9d0),
  (0x892e, 0xd615), (0x5838, 0xd48d), (0x74bb, 0xcde8), (0x913e, 0xc6b0), (0x4bc5, 0xc12d),
  (0x6048, 0xbaa8), (0x9ccb, 0xc18c), (0x3752, 0xac70), (0x53d5, 0xcca0), (0x8858, 0xd568),
  (0x5f62, 0xd615), (0x7be5, 0xb960), (0x9068, 0xc624), (0x4aef, 0xc758), (0x6772, 0xace0),
  (0x83f5, 0xb9dd), (0x367c, 0xb8e8), (0x52ff, 0xbb3c), (0x6803, 0xd68c), (0x8f82, 0xb85c),
  (0x3f0d, 0xb8b0), (0x5e8c, 0xc544), (0xfa0f, 0xace1), (0x7013, 0xc9d5), (0x9792, 0xad50),
  (0x471d, 0xb2e8), (0x669c, 0xbcf4), (0x9823, 0xc2e0), (0x35a6, 0xb3d9), (0x6f2d, 0xb9dd),
  (0x8eac, 0xad81), (0x3e37, 0xc138), (0x5db6, 0xbbf8), (0x773d, 0xb9e5), (0x96bc, 0xc900),
  (0x4647, 0xc5f0), (0x65c6, 0xd328), (0x9f4d, 0xc790), (0x34d0, 0xb959), (0x6e57, 0xbd09),
  (0x8dd6, 0xcc99), (0x3d61, 0xbc15), (0x5ce0, 0xc0c1), (0x7667, 0xb825), (0x95e6, 0xc628),
  (0x4571, 0xb450), (0x64f0, 0xb155), (0x9e77, 0xb839), (0x3bfa, 0xd568), (0x8d00, 0xc704),
  (0x4e02, 0xad50), (0x6a85, 0xc138), (0x9510, 0xc608), (0x5612, 0xd61c), (0x7295, 0xbe44),
  (0x4f97, 0xb3d9), (0x7e22, 0xb4f1), (0x9aa5, 0xae30), (0x3b24, 0xae09), (0x57a7, 0xc0c1),
  (0x8632, 0xb958), (0x4334, 0xb77c), (0x7fb7, 0xb834), (0x38b9, 0xc2e0), (0x6b44, 0xacfc),
  (0x87c7, 0xb9c8), (0x40c9, 0xbbfc), (0x7354, 0xd638), (0x4c56, 0xb958), (0x68d9, 0xb824),
  (0x9b64, 0xd654), (0x5466, 0xc720), (0x70e9, 0xd68c), (0x7c76, 0xc2e0), (0x98f9, 0xb958),
  (0x3978, 0xbbfc), (0x55fb, 0xcc28), (0x8486, 0xacf5), (0x4188, 0xce58), (0x7b0f, 0xd640),
  (0x3411, 0xb3cc), (0x6998, 0xad6c), (0x831f, 0xc728), (0x5c21, 0xace4), (0x71a8, 0xc704),
  (0x6431, 0xce58), (0x99b8, 0xadfc), (0x5aba, 0xbbf8), (0x8c41, 0xd65c), (0x4943, 0xc545),
  (0x62ca, 0xbd80), (0x3fcc, 0xd5d8), (0x9451, 0xac10), (0x5153, 0xce68), (0x8ada, 0xbc94),
  (0x47dc, 0xb20c), (0x7963, 0xb824), (0x3a65, 0xc12c), (0x92ea, 0xd3ec), (0x6fec, 0xc900),
  (0x8173, 0xac01), (0x4275, 0xcc2c), (0x77fc, 0xac15), (0x4706, 0xb9c8), (0x6389, 0xb3c4),
  (0x9c0c, 0xcd94), (0x6f16, 0xad50), (0x8b99, 0xd658), (0x3e20, 0xc870), (0x5aa3, 0xc5fc),
  (0x7726, 0xc790), (0x93a9, 0xc1c4), (0x4630, 0xc120), (0x62b3, 0xb2c8), (0x9f36, 0xc0ac),
  (0x35bd, 0xcc45), (0x6e40, 0xaddc), (0x8ac3, 0xce68), (0x5dcd, 0xc678), (0x7650, 0xad34),
  (0x92d3, 0xcca8), (0x495a, 0xcd08), (0x65dd, 0xad34), (0x9e60, 0xc21c), (0x34e7, 0xd568),
  (0x516a, 0xc720), (0x8ded, 0xd56d), (0x5cf7, 0xc2e0), (0x797a, 0xae30), (0x95fd, 0xbbfc),
  (0x4884, 0xc2dc), (0x7e0b, 0xcd94), (0x818a, 0xbc15), (0x5094, 0xacb8), (0x861b, 0xc721),
  (0x5925, 0xacfc), (0x78a4, 0xc601), (0x4bae, 0xb9e5), (0x6135, 0xb2c9), (0x80b4, 0xd6a8),
  (0x53be, 0xc8fc), (0x8945, 0xd544), (0x584f, 0xac1c), (0x7bce, 0xbb18), (0x9155, 0xbaa8),
  (0x4ad8, 0xd560), (0x605f, 0xd749), (0x83de, 0xb9ac), (0x52e8, 0xc591), (0x886f, 0xbd84),
  (0x5b79, 0xbcbd), (0x7af8, 0xacbd), (0x907f, 0xd53c), (0x8308, 0xc790), (0x400a, 0xad50),
  (0x7c8d, 0xbaa8), (0x398f, 0xc21c), (0x681a, 0xc9d0), (0x849d, 0xc6d0), (0x419f, 0xd569),
  (0x702a, 0xbc88), (0x4d2c, 0xc775), (0x69af, 0xc2dc), (0x983a, 0xd1f4), (0x553c, 0xc0bd),
  (0x71bf, 0xd669), (0x4ec1, 0xc778), (0x7d4c, 0xacbd), (0x99cf, 0xac70), (0x3a4e, 0xc5fd),
  (0x56d1, 0xcd09), (0x855c, 0xbe44), (0x425e, 0xb2f4), (0x7ee1, 0xcd08), (0x3be3, 0xbd84),
  (0x6a6e, 0xb958), (0x86f1, 0xd611), (0x43f3, 0xc808), (0x727e, 0xc624), (0x4f80, 0xd615),
  (0x6507, 0xd5cc), (0x9a8e, 0xce68), (0x5790, 0xc790), (0x8d17, 0xc548), (0x4a19, 0xc74c),
  (0x7fa0, 0xc774)]

/-- hanja/table.go:14601-14856 -/
def rawTable57 : List (Nat × Nat) := [
  (0x3ca2, 0xbcc0), (0x9527, 0xc9c8), (0x5229, 0xb9ac), (0x87b0, 0xb85d), (0x44b2, 0xcc28),
  (0x7a39, 0xc9c4), (0x373b, 0xb828), (0x6cc2, 0xd615), (0x8249, 0xbbf8), (0x5f4b, 0xd6a1),
  (0x74d2, 0xcc2c), (0x675b, 0xad81), (0x9ce2, 0xb840), (0x59e4, 0xad6c), (0x8f6b, 0xc778),
  (0x4c6d, 0xae0d), (0x61f4, 0xcc38), (0x3ef6, 0xd544), (0x977b, 0xc870), (0x547d, 0xba85),
  (0x7181, 0xd611), (0x9604, 0xad6c), (0x450e, 0xc18d), (0x6991, 0xbd80), (0x8e14, 0xd0c1),
  (0x3418, 0xc300), (0x589b, 0xc704), (0x7d1e, 0xb2f4), (0x81a1, 0xc789), (0x70ab, 0xd604),
  (0x952e, 0xac70), (0x3fb5, 0xacc4), (0x4438, 0xd68d), (0x68bb, 0xbd88), (0x8d3e, 0xac00),
  (0x57c5, 0xbc29), (0x7c48, 0xc9c4), (0x80cb, 0xc810), (0x4fd5, 0xc0bc), (0x9458, 0xb8b0),
  (0x3edf, 0xc218), (0x4362, 0xbb34), (0x67e5, 0xc0ac), (0x8c68, 0xd76c), (0x56ef, 0xad6d),
  (0x7b72, 0xc18c), (0x4eff, 0xbc29), (0x7403, 0xad6c), (0x9382, 0xbbf8), (0x428c, 0xbe44),
  (0x6c13, 0xb9f9), (0x8b92, 0xcc38), (0x5b1d, 0xb1e8), (0x7a9c, 0xcc2c), (0x8423, 0xc815),
  (0x732d, 0xcc9c), (0x92ac, 0xace0), (0x41b6, 0xcd94), (0x6b3d, 0xd760), (0x8abc, 0xc758),
  (0x5a47, 0xcc44), (0x79c6, 0xac04), (0x834d, 0xad50), (0x7257, 0xc6a9), (0x91d6, 0xb3c4),
  (0x40e0, 0xc120), (0x6a67, 0xc99d), (0x89e6, 0xcd09), (0x5971, 0xb828), (0x78f0, 0xc120),
  (0x8277, 0xc5fc), (0x9100, 0xc57d), (0x5202, 0xb3c4), (0x7685, 0xd30c), (0x3b87, 0xcca8),
  (0x8910, 0xac08), (0x4a12, 0xc6b0), (0x6e95, 0xbabd), (0x5397, 0xc81c), (0x6222, 0xc9d1),
  (0x86a5, 0xbcf4), (0x4ba7, 0xd55c), (0x9a32, 0xcd08), (0x5f34, 0xb3c8), (0x63b7, 0xcc99),
  (0x7744, 0xcd08), (0x9bc7, 0xd658), (0x3846, 0xd669), (0x5cc9, 0xc561), (0x6f54, 0xacb0),
  (0x5056, 0xcc28), (0x74d9, 0xb3c4), (0x39db, 0xb78c), (0x8764, 0xc720), (0x4866, 0xc0c1),
  (0x6ce9, 0xc0dd), (0x51eb, 0xbd80), (0x6076, 0xc545), (0x84f9, 0xc5b4), (0x49fb, 0xd569),
  (0x9886, 0xb839), (0x5d88, 0xc7a5), (0x670f, 0xad74), (0x7598, 0xacf5), (0x369a, 0xad49),
  (0x9f1f, 0xb4f1), (0x4021, 0xc810), (0x6da8, 0xcc3d), (0x7831, 0xb839), (0x3d33, 0xbabd),
  (0x85b8, 0xd45c), (0x46ba, 0xc694), (0x9041, 0xb454), (0x5543, 0xc2b5), (0x7eca, 0xbc18),
  (0x8851, 0xb839), (0x4d53, 0xb9ac), (0x96da, 0xad00), (0x5bdc, 0xb155), (0x6563, 0xc0b0),
  (0x8eea, 0xc694), (0x73ec, 0xc220), (0x34ee, 0xc870), (0x9d73, 0xacac), (0x5e75, 0xacac),
  (0x6bfc, 0xac08), (0x3683, 0xc6b4), (0x5b06, 0xae09), (0x7f89, 0xb780), (0x800c, 0xc774),
  (0x7316, 0xcc3d), (0x9799, 0xd604), (0x46a3, 0xc81c), (0x6b26, 0xd568), (0x8fa9, 0xbcc0),
  (0x5a30, 0xc0ac), (0x7eb3, 0xb0a9), (0x8336, 0xb2e4), (0x7240, 0xc0c1), (0x96c3, 0xacac),
  (0x3d4a, 0xb151), (0x41cd, 0xcd09), (0x6a50, 0xd0c1), (0x8ed3, 0xbc94), (0x555a, 0xbe44),
  (0x79dd, 0xb825), (0x8260, 0xb4f1), (0x4d6a, 0xace4), (0x91ed, 0xacf5), (0x3c74, 0xc9c0),
  (0x40f7, 0xc601), (0x657a, 0xad6c), (0x89fd, 0xd734), (0x3505, 0xc18c), (0x5484, 0xb3cc),
  (0x620b, 0xc794), (0x9d8a, 0xacbd), (0x4c94, 0xacbd), (0x9a1b, 0xbe44), (0x3f9e, 0xc720),
  (0x4525, 0xc18c), (0x64a4, 0xcca0), (0x342f, 0xc6a9), (0x57ae, 0xacfc), (0x7d35, 0xc800),
  (0x9cb4, 0xace0), (0x4fbe, 0xd6a8), (0x9545, 0xbbf8), (0x3ec8, 0xd6c4), (0x444f, 0xad8c),
  (0x67ce, 0xbd80), (0x8d55, 0xd0d0), (0x3759, 0xc778), (0x56d8, 0xd68c), (0x7c5f, 0xb8b0),
  (0x4ee8, 0xc0bc), (0x946f, 0xcca8), (0x39f2, 0xc0bc), (0x4779, 0xc644), (0x66f8, 0xc11c),
  (0x8c7f, 0xad6c), (0x9f08, 0xbcc4), (0x5c0a, 0xc874), (0x608d, 0xd55c), (0x741a, 0xac70),
  (0x989d, 0xc561), (0x391c, 0xd73c), (0x5d9f, 0xc900), (0x6c2a, 0xadf9), (0x512c, 0xce5c),
  (0x75af, 0xd48d), (0x3ab1, 0xd658), (0x843a, 0xbaa8), (0x493c, 0xc120), (0x6dbf, 0xd0c1),
  (0x52c1, 0xacbd), (0x614c, 0xd669), (0x85cf, 0xc7a5), (0x4ad1, 0xc758), (0x995c, 0xc5fc),
  (0x5e5e, 0xbcf5), (0x62e1, 0xd655), (0x766e, 0xc740), (0x9af1, 0xd3ec), (0x3b70, 0xcd94),
  (0x5ff3, 0xb3c8), (0x6e7e, 0xb9cc), (0x5380, 0xc2ac), (0x7907, 0xc6b1), (0x3e09, 0xc12d),
  (0x868e, 0xc6d4), (0x4b90, 0xacbd), (0x9117, 0xd638), (0x5619, 0xd30c), (0x63a0, 0xb7b5),
  (0x8927, 0xacbd), (0x4e29, 0xad6c), (0x9bb0, 0xd68c), (0x58b2, 0xbb34), (0x6639, 0xc560),
  (0x70c2, 0xb780), (0x35c4, 0xb9cc), (0x9e49, 0xbb34), (0x434b, 0xc218), (0x68d2, 0xbd09),
  (0x7b5b, 0xc0ac), (0x385d, 0xbd09), (0x80e2, 0xac00), (0x45e4, 0xc6a9), (0x936b, 0xcd08),
  (0x506d, 0xba74), (0x7df4, 0xb828), (0x8b7b, 0xc575), (0x487d, 0xcc2c), (0x7581, 0xb958),
  (0x9204, 0xb450), (0x410e, 0xae30), (0x6d91, 0xc18d), (0x8a14, 0xc740), (0x5c9b, 0xb3c4),
  (0x791e, 0xbabd), (0x85a1, 0xc815), (0x74ab, 0xb2f9), (0x912e, 0xbb34), (0x3bb5, 0xc804),
  (0x4038, 0xc81c), (0x6cbb, 0xce58), (0x893e, 0xd45c), (0x3742, 0xc81c), (0x53c5, 0xcc38),
  (0x7848, 0xd560), (0x84cb, 0xac1c), (0x4bd5, 0xc815), (0x9058, 0xad6c), (0x3adf, 0xc5f0),
  (0x4762, 0xb9cc)]

/-- hanja/table.go:14857-15112 -/
def rawTable58 : List (Nat × Nat) := [
  (0x63e5, 0xccb4), (0x8868, 0xd45c), (0x366c, 0xc740), (0x52ef, 0xb2e8), (0x7f72, 0xc11c),
  (0x9bf5, 0xc18c), (0x4aff, 0xcd08), (0x7003, 0xc0ac), (0x9782, 0xac08), (0x468c, 0xace0),
  (0x6813, 0xc804), (0x8f92, 0xc628), (0x3596, 0xc54c), (0x5f1d, 0xd30c), (0x7e9c, 0xb78c),
  (0x8023, 0xb95c), (0x772d, 0xd734), (0x96ac, 0xb2c8), (0x45b6, 0xd68c), (0x6f3d, 0xc81c),
  (0x8ebc, 0xc7a5), (0x34c0, 0xbcf5), (0x5e47, 0xbc29), (0x7dc6, 0xc11d), (0x874d, 0xc989),
  (0x7657, 0xb8b0), (0x95d6, 0xd2c8), (0x44e0, 0xb2f5), (0x6e67, 0xc6a9), (0x8de6, 0xc8fc),
  (0x5d71, 0xc6a9), (0x7cf0, 0xb2e8), (0x8677, 0xac04), (0x9500, 0xc18c), (0x5602, 0xad50),
  (0x7285, 0xac15), (0x3f87, 0xbaa9), (0x8d10, 0xc2e0), (0x4e12, 0xcd95), (0x6a95, 0xacc4),
  (0x5797, 0xc870), (0x6622, 0xbd88), (0x82a5, 0xac1c), (0x4fa7, 0xce21), (0x9e32, 0xad6c),
  (0x5b34, 0xc601), (0x67b7, 0xac00), (0x7344, 0xc625), (0x3c46, 0xd76c), (0x58c9, 0xac70),
  (0x6b54, 0xd5c8), (0x5456, 0xb825), (0x70d9, 0xb77d), (0x3ddb, 0xbcf4), (0x8364, 0xd6c8),
  (0x4c66, 0xcd94), (0x68e9, 0xc5f0), (0x55eb, 0xc12d), (0x6476, 0xb2e8), (0x80f9, 0xc774),
  (0x3401, 0xcca8), (0x9c86, 0xd3c9), (0x5988, 0xb9c8), (0x630f, 0xb3d9), (0x7198, 0xb958),
  (0x9b1f, 0xd658), (0x4421, 0xc81c), (0x69a8, 0xc790), (0x7c31, 0xae30), (0x3933, 0xbc30),
  (0x81b8, 0xc218), (0x42ba, 0xd638), (0x9441, 0xbc88), (0x5143, 0xc6d0), (0x7aca, 0xc808),
  (0x8c51, 0xc9c8), (0x4953, 0xae30), (0x92da, 0xc870), (0x5fdc, 0xc751), (0x6163, 0xad00),
  (0x8aea, 0xc815), (0x77ec, 0xc88c), (0x9973, 0xb3cc), (0x5a75, 0xc120), (0x6ffc, 0xb77d),
  (0x5f06, 0xac70), (0x7b89, 0xad34), (0x840c, 0xb9f9), (0x7716, 0xd669), (0x9399, 0xc0ad),
  (0x42a3, 0xd669), (0x6f26, 0xc2dc), (0x8ba9, 0xc591), (0x35ad, 0xcca8), (0x5e30, 0xadc0),
  (0x7ab3, 0xc720), (0x8736, 0xc194), (0x7640, 0xd669), (0x92c3, 0xb791), (0x394a, 0xbd95),
  (0x45cd, 0xb824), (0x6e50, 0xbc31), (0x8ad3, 0xc804), (0x34d7, 0xacb0), (0x515a, 0xb2f9),
  (0x7ddd, 0xc9d1), (0x8660, 0xad50), (0x496a, 0xd604), (0x95ed, 0xd3d0), (0x3874, 0xb78d),
  (0x44f7, 0xd589), (0x617a, 0xb8e8), (0x8dfd, 0xae30), (0x5084, 0xd560), (0x660b, 0xacc4),
  (0x998a, 0xc218), (0x4894, 0xd569), (0x9e1b, 0xad00), (0x3b9e, 0xc808), (0x4125, 0xb839),
  (0x60a4, 0xcd1d), (0x53ae, 0xc2dc), (0x7935, 0xc0c1), (0x98b4, 0xc120), (0x4bbe, 0xbd09),
  (0x9145, 0xd734), (0x3ac8, 0xc5c9), (0x404f, 0xc694), (0x63ce, 0xc120), (0x8955, 0xb780),
  (0x52d8, 0xac10), (0x785f, 0xcc9c), (0x9bde, 0xcd94), (0x4ae8, 0xc624), (0x906f, 0xb454),
  (0x3df2, 0xb3d9), (0x4379, 0xc804), (0x62f8, 0xce58), (0x887f, 0xae08), (0x9b08, 0xad8c),
  (0x580a, 0xc545), (0x648d, 0xc7a0), (0x701a, 0xd55c), (0x9c9d, 0xc790), (0x3d1c, 0xd3b8),
  (0x599f, 0xc548), (0x682a, 0xc8fc), (0x552c, 0xd638), (0x71af, 0xc120), (0x3eb1, 0xc789),
  (0x803a, 0xc6b4), (0x4d3c, 0xc794), (0x69bf, 0xae30), (0x56c1, 0xc12d), (0x654c, 0xd65c),
  (0x81cf, 0xbe48), (0x4ed1, 0xb95c), (0x9d5c, 0xc81c), (0x5a5e, 0xd589), (0x66e1, 0xcca9),
  (0x726e, 0xcc9c), (0x9ef1, 0xb300), (0x3f70, 0xc11c), (0x5bf3, 0xbcf4), (0x6a7e, 0xc218),
  (0x5780, 0xd638), (0x7d07, 0xd758), (0x3a09, 0xbbfc), (0x828e, 0xad81), (0x4f90, 0xd601),
  (0x9517, 0xd0c0), (0x5219, 0xce59), (0x67a0, 0xd654), (0x8d27, 0xd654), (0x4a29, 0xb839),
  (0x372b, 0xbbf8), (0x5cb2, 0xd56d), (0x6239, 0xc561), (0x74c2, 0xac1c), (0x9a49, 0xd5c8),
  (0x474b, 0xc885), (0x6cd2, 0xace0), (0x7f5b, 0xace0), (0x3c5d, 0xc0ac), (0x84e2, 0xb791),
  (0x41e4, 0xc608), (0x976b, 0xcc44), (0x546d, 0xc608), (0x79f4, 0xd569), (0x8f7b, 0xacbd),
  (0x4c7d, 0xcc3d), (0x7981, 0xae08), (0x9e04, 0xaca9), (0x4d0e, 0xb8e8), (0x6191, 0xbe59),
  (0x8614, 0xb3d9), (0x3c18, 0xc774), (0x509b, 0xc6a9), (0x751e, 0xc0c1), (0x89a1, 0xaca9),
  (0x78ab, 0xb2e8), (0x9d2e, 0xc624), (0x37b5, 0xb3c4), (0x4c38, 0xacf5), (0x60bb, 0xd589),
  (0x853e, 0xb9ac), (0x3b42, 0xcd08), (0x5fc5, 0xd544), (0x7448, 0xc720), (0x88cb, 0xc218),
  (0x47d5, 0xcc28), (0x9c58, 0xc2ec), (0x36df, 0xd658), (0x4b62, 0xb155), (0x6fe5, 0xc778),
  (0x8468, 0xc678), (0x3a6c, 0xd76c), (0x5eef, 0xc120), (0x7372, 0xd68d), (0x97f5, 0xc6b4),
  (0x46ff, 0xaca9), (0x7c03, 0xc774), (0x9b82, 0xc218), (0x4a8c, 0xcc38), (0x6413, 0xcc28),
  (0x8392, 0xac70), (0x3996, 0xbb38), (0x531d, 0xc7a1), (0x729c, 0xb3c8), (0x8c23, 0xc694),
  (0x7b2d, 0xb839), (0x9aac, 0xc6b0), (0x49b6, 0xc7c1), (0x633d, 0xb9cc), (0x82bc, 0xbaa8),
  (0x38c0, 0xc9c4), (0x5247, 0xce59), (0x71c6, 0xad50), (0x8b4d, 0xc751), (0x7a57, 0xc218),
  (0x99d6, 0xb839), (0x48e0, 0xc7a0), (0x6267, 0xc9d1), (0x81e6, 0xad11), (0x5171, 0xacf5),
  (0x70f0, 0xbd80), (0x8a77, 0xb3d9), (0x9900, 0xd574), (0x5a02, 0xd64d), (0x7e85, 0xc57d),
  (0x8110, 0xc81c), (0x4212, 0xb0a8), (0x6695, 0xac04), (0x5b97, 0xc885), (0x6a22, 0xc870),
  (0x8ea5, 0xcc2c)]

/-- hanja/table.go:15113-15368 -/
def rawTable59 : List (Nat × Nat) := [
  (0x43a7, 0xbd80), (0x9232, 0xace0), (0x5734, 0xc791), (0x6bb7, 0xc740), (0x7f44, 0xacbd),
  (0x93c7, 0xc120), (0x54c9, 0xc7ac), (0x6754, 0xd0c1), (0x5856, 0xc790), (0x7cd9, 0xc870),
  (0x8f64, 0xb85c), (0x4066, 0xcc98), (0x64e9, 0xc720), (0x59eb, 0xc9c4), (0x6876, 0xd1b5),
  (0x8cf9, 0xc560), (0x41fb, 0xbbf8), (0x3801, 0xcc38), (0x9086, 0xb4f1), (0x5588, 0xac1c),
  (0x6f0f, 0xb8e8), (0x7d98, 0xbd09), (0x3e9a, 0xb2ec), (0x971f, 0xd64d), (0x4821, 0xcc28),
  (0x65a8, 0xc7a5), (0x7031, 0xacc4), (0x3533, 0xada4), (0x8db8, 0xb3c8), (0x4eba, 0xc778),
  (0x9841, 0xc815), (0x5d43, 0xc5b8), (0x76ca, 0xc775), (0x8051, 0xc811), (0x4553, 0xcc30),
  (0x9eda, 0xacb8), (0x53dc, 0xc218), (0x6d63, 0xc644), (0x86ea, 0xacb0), (0x7bec, 0xcc3d),
  (0x3cee, 0xb1e8), (0x9573, 0xd45c), (0x5675, 0xb3c4), (0x63fc, 0xcc9c), (0x3e83, 0xad6c),
  (0x5306, 0xcd1d), (0x7789, 0xad6c), (0x880c, 0xd0dd), (0x7b16, 0xc774), (0x9f99, 0xb8e1),
  (0x4ea3, 0xb300), (0x6326, 0xc7a0), (0x87a9, 0xc870), (0x39ad, 0xb839), (0x5230, 0xb3c4),
  (0x76b3, 0xad6c), (0x8b36, 0xc791), (0x7a40, 0xace1), (0x9ec3, 0xd669), (0x354a, 0xbd80),
  (0x49cd, 0xadf9), (0x6250, 0xb975), (0x86d3, 0xc790), (0x38d7, 0xd638), (0x5d5a, 0xae08),
  (0x71dd, 0xacbd), (0x8a60, 0xc601), (0x456a, 0xd0dd), (0x99ed, 0xd574), (0x3474, 0xce68),
  (0x48f7, 0xc800), (0x6d7a, 0xcda9), (0x81fd, 0xd568), (0x3d05, 0xc18c), (0x5c84, 0xc6d4),
  (0x6a0b, 0xd1b5), (0x958a, 0xc0b0), (0x4494, 0xbc30), (0x921b, 0xacfc), (0x379e, 0xc1a1),
  (0x4d25, 0xac00), (0x6ca4, 0xad6c), (0x3c2f, 0xb450), (0x5fae, 0xbbf8), (0x7535, 0xc804),
  (0x94b4, 0xace0), (0x47be, 0xce58), (0x9d45, 0xac01), (0x36c8, 0xace0), (0x4c4f, 0xb450),
  (0x6fce, 0xc815), (0x8555, 0xc720), (0x3f59, 0xc724), (0x5ed8, 0xb85d), (0x745f, 0xc2ac),
  (0x97de, 0xc628), (0x46e8, 0xc2e0), (0x9c6f, 0xd654), (0x4f79, 0xada4), (0x6ef8, 0xd638),
  (0x847f, 0xbbf8), (0x9708, 0xd328), (0x540a, 0xc801), (0x688d, 0xc870), (0x7c1a, 0xba71),
  (0x909d, 0xad11), (0x559f, 0xc704), (0x642a, 0xb2f9), (0x592c, 0xcf8c), (0x7daf, 0xb3c4),
  (0x8c3a, 0xd558), (0x413c, 0xcca8), (0x65bf, 0xc720), (0x5ac1, 0xac00), (0x694c, 0xc548),
  (0x8dcf, 0xac00), (0x42d1, 0xbcd1), (0x915c, 0xbd80), (0x565e, 0xc5c4), (0x6ae1, 0xc800),
  (0x7e6e, 0xac15), (0x92f1, 0xd2b9), (0x57f3, 0xac10), (0x667e, 0xb7c9), (0x5b80, 0xba74),
  (0x7107, 0xc18c), (0x3609, 0xc990), (0x8e8e, 0xb144), (0x4390, 0xcd08), (0x9917, 0xc18d),
  (0x5e19, 0xc9c8), (0x6ba0, 0xcd94), (0x8127, 0xcd5c), (0x4629, 0xc21c), (0x3b2b, 0xc5f0),
  (0x93b0, 0xc77c), (0x50b2, 0xc624), (0x6e39, 0xad49), (0x78c2, 0xb958), (0x3dc4, 0xd68c),
  (0x9649, 0xd615), (0x4b4b, 0xd3ec), (0x60d2, 0xd654), (0x735b, 0xbcf5), (0x88e2, 0xb828),
  (0x9b6b, 0xc2ec), (0x586d, 0xc628), (0x75f4, 0xce58), (0x837b, 0xc801), (0x407d, 0xb835),
  (0x7d81, 0xbc29), (0x9a04, 0xb85d), (0x490e, 0xade4), (0x6591, 0xbc18), (0x8214, 0xcca8),
  (0x3818, 0xc11c), (0x549b, 0xb155), (0x711e, 0xb3c8), (0x8da1, 0xc720), (0x7cab, 0xc774),
  (0x992e, 0xcca0), (0x4838, 0xacfc), (0x64bb, 0xb2ec), (0x813e, 0xbe44), (0x3f42, 0xc0bd),
  (0x5bc5, 0xc778), (0x7048, 0xad6c), (0x8ccb, 0xad50), (0x43d5, 0xc784), (0x9858, 0xc6d0),
  (0x4f62, 0xac70), (0x6be5, 0xc21c), (0x8068, 0xb828), (0x3e6c, 0xc0ac), (0x5aef, 0xc624),
  (0x7772, 0xc131), (0x93f5, 0xd654), (0x42ff, 0xc678), (0x7803, 0xb2e8), (0x9f82, 0xc740),
  (0x4e8c, 0xc774), (0x6013, 0xb178), (0x8792, 0xd55c), (0x3d96, 0xc219), (0x571d, 0xb780),
  (0x769c, 0xd638), (0x8823, 0xb824), (0x7f2d, 0xb8cc), (0x9eac, 0xbd80), (0x673d, 0xd6c4),
  (0x86bc, 0xad6c), (0x3cc0, 0xacfc), (0x5647, 0xb2f9), (0x75c6, 0xb2d0), (0x8f4d, 0xcca0),
  (0x7e57, 0xb9b0), (0x9dd6, 0xc608), (0x4ce0, 0xc218), (0x6667, 0xd638), (0x85e6, 0xb9c8),
  (0x5571, 0xc554), (0x74f0, 0xbd84), (0x8e77, 0xad90), (0x9d00, 0xbd80), (0x5e02, 0xc2dc),
  (0x7a85, 0xc694), (0x3787, 0xc678), (0x8510, 0xc801), (0x4612, 0xcd5c), (0x6295, 0xd22c),
  (0x5f97, 0xb4dd), (0x6e22, 0xd48d), (0x8aa5, 0xace0), (0x47a7, 0xd6c4), (0x9632, 0xbc29),
  (0x5334, 0xc0b0), (0x6fb7, 0xb9cc), (0x7b44, 0xc694), (0x97c7, 0xb3c5), (0x3446, 0xc774),
  (0x50c9, 0xcca8), (0x6354, 0xac01), (0x5c56, 0xc11c), (0x78d9, 0xace4), (0x35db, 0xc18c),
  (0x8b64, 0xaca9), (0x4466, 0xad6c), (0x60e9, 0xc9d5), (0x5deb, 0xbb34), (0x6c76, 0xbb38),
  (0x88f9, 0xacfc), (0x45fb, 0xc808), (0x3c01, 0xb77c), (0x9486, 0xad6c), (0x5188, 0xac15),
  (0x6b0f, 0xb77c), (0x7998, 0xccb4), (0x3a9a, 0xc0b0), (0x931f, 0xb2f4), (0x4c21, 0xce58),
  (0x61a8, 0xac10), (0x7431, 0xc870), (0x89b8, 0xac04), (0x4aba, 0xac11), (0x9c41, 0xcd95),
  (0x5943, 0xc800), (0x72ca, 0xaca9), (0x8451, 0xd48d), (0x4153, 0xad6c), (0x9ada, 0xace0),
  (0x57dc, 0xc57c), (0x6963, 0xbbf8), (0x82ea, 0xbcd1), (0x7fec, 0xd718), (0x38ee, 0xb0a8),
  (0x9173, 0xc724)]

/-- hanja/table.go:15369-15624 -/
def rawTable60 : List (Nat × Nat) := [
  (0x5275, 0xcc3d), (0x67fc, 0xc694), (0x3a83, 0xac00), (0x5706, 0xc6d0), (0x7389, 0xc625),
  (0x8c0c, 0xc2ec), (0x7f16, 0xd3b8), (0x9b99, 0xd0d1), (0x4aa3, 0xc81c), (0x6726, 0xbabd),
  (0x83a9, 0xbd80), (0x3dad, 0xc720), (0x5630, 0xae30), (0x72b3, 0xc791), (0x8f36, 0xc720),
  (0x7e40, 0xc1c4), (0x9ac3, 0xc6b0), (0x6650, 0xd574), (0x82d3, 0xb839), (0x3cd7, 0xcc44),
  (0x595a, 0xd574), (0x75dd, 0xb9dd), (0x8e60, 0xcc99), (0x416a, 0xada4), (0x9ded, 0xbc88),
  (0x4cf7, 0xc885), (0x697a, 0xc720), (0x85fd, 0xce5c), (0x3905, 0xc560), (0x5884, 0xcc99),
  (0x6e0b, 0xc0bd), (0x918a, 0xcca0), (0x4094, 0xd589), (0x961b, 0xd658), (0x4925, 0xada4),
  (0x68a4, 0xbd84), (0x382f, 0xc774), (0x5bae, 0xad81), (0x7135, 0xac15), (0x90b4, 0xbcd1),
  (0x43be, 0xace4), (0x9945, 0xb9cc), (0x484f, 0xad49), (0x6bce, 0xb9e4), (0x8155, 0xc644),
  (0x3b59, 0xc801), (0x5ad8, 0xb8e8), (0x705f, 0xcd09), (0x93de, 0xc6a9), (0x42e8, 0xbd80),
  (0x986f, 0xd604), (0x35f2, 0xd68d), (0x4b79, 0xc559), (0x6af8, 0xac70), (0x807f, 0xc728),
  (0x9308, 0xad8c), (0x500a, 0xc885), (0x6c8d, 0xd638), (0x781a, 0xc5f0), (0x949d, 0xb454),
  (0x351c, 0xbc1c), (0x519f, 0xc11d), (0x602a, 0xad34), (0x5d2c, 0xb3d9), (0x79af, 0xb18d),
  (0x36b1, 0xad6c), (0x883a, 0xc7a0), (0x453c, 0xc0bd), (0x61bf, 0xc694), (0x5ec1, 0xce21),
  (0x6d4c, 0xbc8c), (0x89cf, 0xad6c), (0x46d1, 0xbc00), (0x955c, 0xacbd), (0x525e, 0xae30),
  (0x6ee1, 0xb9cc), (0x7a6e, 0xd45c), (0x96f1, 0xbc29), (0x3770, 0xba74), (0x53f3, 0xc6b0),
  (0x627e, 0xc870), (0x5f80, 0xc655), (0x7507, 0xc575), (0x8a8e, 0xc18d), (0x4790, 0xcd98),
  (0x9d17, 0xb9bd), (0x5a19, 0xd615), (0x6fa0, 0xbbfc), (0x8527, 0xc138), (0x4229, 0xac80),
  (0x3f2b, 0xacfc), (0x97b0, 0xc628), (0x54b2, 0xc18c), (0x6a39, 0xc218), (0x7cc2, 0xc0bc),
  (0x39c4, 0xac80), (0x9249, 0xd604), (0x4f4b, 0xc18c), (0x64d2, 0xae08), (0x775b, 0xc815),
  (0x345d, 0xb871), (0x8ce2, 0xd604), (0x49e4, 0xbcf5), (0x9f6b, 0xace4), (0x5c6d, 0xd76c),
  (0x71f4, 0xd68c), (0x877b, 0xb0a8), (0x447d, 0xd0d1), (0x4181, 0xace0), (0x8a87, 0xacfc),
  (0x750e, 0xc804), (0x5991, 0xd30c), (0x689b, 0xb098), (0x4d1e, 0xc801), (0x37a5, 0xc7a0),
  (0x9624, 0xce58), (0x40ab, 0xd64d), (0x89b1, 0xcc38), (0x7438, 0xd0c1), (0x58bb, 0xc7a5),
  (0x67c5, 0xb2c8), (0x4c48, 0xc9c0), (0x36cf, 0xad6c), (0x954e, 0xb098), (0x7fd5, 0xd761),
  (0x88db, 0xc74d), (0x7362, 0xd6a8), (0x57e5, 0xc815), (0x66ef, 0xcd09), (0x4b72, 0xc758),
  (0x35f9, 0xcd08), (0x9478, 0xb8b0), (0x7eff, 0xb85d), (0x4403, 0xade0), (0x8d09, 0xb2f4),
  (0x728c, 0xac00), (0x5c13, 0xc774), (0x6b1d, 0xc6b8), (0x4a9c, 0xcca8), (0x93a2, 0xc624),
  (0x3a27, 0xbd84), (0x432d, 0xcd08), (0x8c33, 0xc5b8), (0x71b6, 0xcc2c), (0x5b3d, 0xc5f0),
  (0x6a47, 0xcde8), (0x49c6, 0xd64d), (0x92cc, 0xc815), (0x3951, 0xc6b0), (0x4257, 0xc74d),
  (0x8b5d, 0xc2b9), (0x70e0, 0xad34), (0x5a67, 0xc815), (0x3fea, 0xd658), (0x6971, 0xc8fc),
  (0x48f0, 0xac39), (0x91f6, 0xc0ac), (0x387b, 0xb8cc), (0x8583, 0xd638), (0x6202, 0xb9c8),
  (0x4685, 0xb798), (0x9d93, 0xbb18), (0x7a12, 0xace0), (0x5e95, 0xc800), (0x3f14, 0xc628),
  (0x6397, 0xc544), (0x9120, 0xd638), (0x5222, 0xb839), (0x7ba7, 0xd611), (0x3ca9, 0xd0d1),
  (0x8eb5, 0xc778), (0x6f34, 0xcda9), (0x53b7, 0xad49), (0x8242, 0xbd09), (0x4744, 0xc30d),
  (0x6cc9, 0xcc9c), (0x9a52, 0xd0c4), (0x5f54, 0xb85d), (0x83d7, 0xc8fc), (0x6056, 0xc0ac),
  (0x44d9, 0xad34), (0x9be7, 0xcc3d), (0x7866, 0xb871), (0x5ce9, 0xc544), (0x3d68, 0xbcbd),
  (0x61eb, 0xce58), (0x8f74, 0xcd95), (0x5076, 0xc6b0), (0x79fb, 0xc774), (0x3afd, 0xb85d),
  (0x6d88, 0xc18c), (0x920d, 0xb454), (0x570f, 0xad8c), (0x8096, 0xcd08), (0x4598, 0xb3c4),
  (0x7021, 0xc218), (0x3523, 0xb8b0), (0x98a6, 0xbe48), (0x5da8, 0xd559), (0x872f, 0xbc29),
  (0x4831, 0xcd09), (0x76ba, 0xcd94), (0x3bbc, 0xc0b0), (0x9f3f, 0xc62c), (0x6543, 0xbbfc),
  (0x8dc8, 0xc804), (0x4eca, 0xae08), (0x7d53, 0xad18), (0x3e55, 0xd658), (0x6bdc, 0xc18c),
  (0x9061, 0xc18c), (0x5563, 0xd568), (0x43ec, 0xbb34), (0x6e75, 0xc720), (0x96fa, 0xbabd),
  (0x5bfc, 0xb3c4), (0x6b06, 0xc30d), (0x4f89, 0xacfc), (0x948f, 0xcc9c), (0x3a10, 0xbd80),
  (0x4316, 0xc9d1), (0x881c, 0xbc88), (0x76a3, 0xc5fd), (0x5b26, 0xc218), (0x6a30, 0xc124),
  (0x4eb3, 0xbc15), (0x97b9, 0xacfd), (0x353a, 0xc138), (0x4240, 0xc11c), (0x8b46, 0xd76c),
  (0x71cd, 0xc0ac), (0x5a50, 0xc640), (0x655a, 0xd0c8), (0x49dd, 0xce58), (0x96e3, 0xb09c),
  (0x3464, 0xbb18), (0x7d6a, 0xc778), (0x8a70, 0xd790), (0x70f7, 0xc644), (0x557a, 0xb2f9),
  (0x8301, 0xc904), (0x6484, 0xc601), (0x520b, 0xcc9c), (0x378e, 0xd30c), (0x9b11, 0xb834),
  (0x7c94, 0xac70), (0x859a, 0xd0d5), (0x7525, 0xc0dd), (0x54a4, 0xd0c0), (0x822b, 0xbc29),
  (0x9daa, 0xaca9), (0x67ae, 0xce68), (0x4d35, 0xbcd1), (0x36b8, 0xc2dc), (0x9a3b, 0xc0c1),
  (0x7fbe, 0xacf5)]

/-- hanja/table.go:15625-15880 -/
def rawTable61 : List (Nat × Nat) := [
  (0x84c4, 0xcd95), (0x744f, 0xcc9c), (0x57ce, 0xc131), (0x9cd4, 0xd45c), (0x66d8, 0xc720),
  (0x4c5f, 0xac70), (0x9565, 0xb178), (0x7ee8, 0xc81c), (0x87ee, 0xc120), (0x7779, 0xb3c4),
  (0x56f8, 0xc77c), (0x938b, 0xd560), (0x6c0a, 0xc804), (0x508d, 0xbc29), (0x8718, 0xc9c0),
  (0x441a, 0xc989), (0x6d9f, 0xb828), (0x9f28, 0xc885), (0x5c2a, 0xc655), (0x80ad, 0xb20c),
  (0x612c, 0xc18c), (0x45af, 0xaddc), (0x98bd, 0xac1c), (0x793c, 0xb840), (0x5dbf, 0xc218),
  (0x3e3e, 0xc778), (0x62c1, 0xac00), (0x8c4a, 0xd48d), (0x514c, 0xd0dc), (0x7ad1, 0xd6a1),
  (0x3fd3, 0xd611), (0x8ddf, 0xadfc), (0x6e5e, 0xc815), (0x52e1, 0xd45c), (0x816c, 0xc720),
  (0x466e, 0xad00), (0x6ff3, 0xc7a0), (0x997c, 0xbcd1), (0x5e7e, 0xae30), (0x6380, 0xd754),
  (0x8405, 0xcd98), (0x4907, 0xc218), (0x7b90, 0xc815), (0x3892, 0xcc28), (0x9c15, 0xd558),
  (0x6619, 0xc695), (0x8e9e, 0xc12d), (0x53a0, 0xce21), (0x7e29, 0xcc44), (0x68b2, 0xd0c8),
  (0x9137, 0xd48d), (0x5639, 0xb8cc), (0x83c0, 0xc6b8), (0x40c2, 0xace4), (0x734b, 0xd638),
  (0x9bd0, 0xc8fc), (0x58d2, 0xc560), (0x8659, 0xbcf5), (0x4b5b, 0xb2f4), (0x75e4, 0xc88c),
  (0x3ae6, 0xd1a0), (0x9e69, 0xb8cc), (0x606d, 0xacf5), (0x88f2, 0xb7c9), (0x787d, 0xc5c4),
  (0x3d7f, 0xd6a8), (0x4581, 0xc5b5), (0x8e87, 0xc800), (0x710e, 0xcca0), (0x5d91, 0xc0c1),
  (0x6c9b, 0xd328), (0x491e, 0xc724), (0x9224, 0xc77c), (0x44ab, 0xb300), (0x8db1, 0xcc2c),
  (0x7038, 0xcca8), (0x5cbb, 0xc9c0), (0x63c5, 0xc5f0), (0x4848, 0xad50), (0x914e, 0xc8fc),
  (0x7bd5, 0xd569), (0x8cdb, 0xcc2c), (0x7762, 0xc218), (0x53e5, 0xad6c), (0x62ef, 0xc99d),
  (0x4f72, 0xba85), (0x9078, 0xc120), (0x7aff, 0xac04), (0x4003, 0xd1f4), (0x8909, 0xc124),
  (0x768c, 0xb9d0), (0x5813, 0xc548), (0x6f1d, 0xc2b5), (0x4e9c, 0xc544), (0x97a2, 0xc12d),
  (0x3e27, 0xac04), (0x472d, 0xc608), (0x8833, 0xc601), (0x75b6, 0xc124), (0x5f3d, 0xc12d),
  (0x6e47, 0xc74d), (0x96cc, 0xc790), (0x3d51, 0xd558), (0x4657, 0xccb4), (0x8f5d, 0xc5ec),
  (0x74e0, 0xd638), (0x5e67, 0xc870), (0x3bea, 0xb839), (0x6d71, 0xc21c), (0x4cf0, 0xbcf4),
  (0x95f6, 0xd56d), (0x3c7b, 0xb77c), (0x8183, 0xc62c), (0x6602, 0xc559), (0x4285, 0xba85),
  (0x9993, 0xc0b0), (0x7e12, 0xcc29), (0x5a95, 0xc554), (0x3b14, 0xd638), (0x6797, 0xb9bc),
  (0x9520, 0xcc3d), (0x5622, 0xc57c), (0x7fa7, 0xcd5c), (0x38a9, 0xc801), (0x8ab5, 0xd6a8),
  (0x6b34, 0xb791), (0x57b7, 0xd604), (0x3436, 0xc0ac), (0x8642, 0xb85c), (0x4344, 0xc810),
  (0x68c9, 0xba74), (0x35cb, 0xd6c4), (0x9e52, 0xacbd), (0x5b54, 0xacf5), (0x87d7, 0xcd94),
  (0x6456, 0xccb4), (0x40d9, 0xb85d), (0x7c66, 0xc885), (0x58e9, 0xd30c), (0x3968, 0xc218),
  (0x65eb, 0xb3c4), (0x8b74, 0xacac), (0x5476, 0xb178), (0x7dfb, 0xce58), (0x3efd, 0xc218),
  (0x6988, 0xb824), (0x960d, 0xd63c), (0x530f, 0xd3ec), (0x8496, 0xc9c4), (0x4198, 0xc555),
  (0x7421, 0xc219), (0x9ca6, 0xc870), (0x59a8, 0xbc29), (0x832f, 0xbcf5), (0x4c31, 0xb839),
  (0x72ba, 0xac15), (0x3fbc, 0xd1f4), (0x9b3f, 0xae30), (0x6143, 0xc559), (0x89c8, 0xb78c),
  (0x4aca, 0xbc30), (0x7953, 0xbd88), (0x3a55, 0xb839), (0x6fdc, 0xc9c4), (0x9461, 0xcc29),
  (0x5163, 0xb9ac), (0x47ec, 0xad6c), (0x6a75, 0xc0b0), (0x3777, 0xc2ec), (0x92fa, 0xc6d0),
  (0x5ffc, 0xac15), (0x6f06, 0xce60), (0x4b89, 0xb824), (0x908f, 0xb77c), (0x3e10, 0xc5f0),
  (0x4716, 0xb2f4), (0x8c1c, 0xbbf8), (0x72a3, 0xb835), (0x5f26, 0xd604), (0x6e30, 0xc5c4),
  (0x4ab3, 0xc724), (0x93b9, 0xc1a1), (0x4640, 0xd33d), (0x8f46, 0xb85d), (0x75cd, 0xc774),
  (0x5e50, 0xb4f1), (0x615a, 0xcc38), (0x92e3, 0xc57c), (0x796a, 0xada4), (0x8e70, 0xc8fc),
  (0x74f7, 0xc790), (0x517a, 0xbfd0), (0x8701, 0xc120), (0x6084, 0xcd08), (0x560b, 0xd6a8),
  (0x9f11, 0xc815), (0x7894, 0xbb34), (0x819a, 0xbd80), (0x7125, 0xc54c), (0x50a4, 0xc7ac),
  (0x862b, 0xb78c), (0x99aa, 0xbe48), (0x63ae, 0xacac), (0x4935, 0xbe44), (0x9e3b, 0xd589),
  (0x7bbe, 0xc18c), (0x80c4, 0xc8fc), (0x704f, 0xd638), (0x53ce, 0xc218), (0x98d4, 0xc2dc),
  (0x62d8, 0xad6c), (0x485f, 0xbe44), (0x35e2, 0xb3d9), (0x9165, 0xc18c), (0x7ae8, 0xc870),
  (0x83ee, 0xacbd), (0x7379, 0xb85c), (0x52f8, 0xad8c), (0x9bfe, 0xd3b8), (0x978b, 0xd61c),
  (0x680a, 0xb871), (0x548d, 0xd574), (0x350c, 0xcd94), (0x8318, 0xb824), (0x401a, 0xc559),
  (0x699f, 0xc7ac), (0x36a1, 0xae30), (0x9b28, 0xd64d), (0x582a, 0xac10), (0x84ad, 0xcd94),
  (0x652c, 0xb78c), (0x41af, 0xcd2c), (0x9cbd, 0xc811), (0x7d3c, 0xbd88), (0x59bf, 0xc544),
  (0x3a3e, 0xc591), (0x66c1, 0xae30), (0x884a, 0xba78), (0x554c, 0xac15), (0x7ed1, 0xbc29),
  (0x3bd3, 0xd0d1), (0x89df, 0xd574), (0x6a5e, 0xd61c), (0x56e1, 0xb2d9), (0x3760, 0xba85),
  (0x856c, 0xc0ac), (0x426e, 0xb9b0), (0x6bf3, 0xcde8), (0x9d7c, 0xacf5), (0x5a7e, 0xc720),
  (0x6780, 0xc1a1), (0x8005, 0xc790), (0x4d07, 0xb839), (0x7f90, 0xc720), (0x3c92, 0xd3ec),
  (0x9815, 0xc810)]

/-- hanja/table.go:15881-16136 -/
def rawTable62 : List (Nat × Nat) := [
  (0x6219, 0xb3d9), (0x8a9e, 0xc5b4), (0x57a0, 0xc740), (0x7a29, 0xae30), (0x6cb2, 0xd0c0),
  (0x9537, 0xc545), (0x5239, 0xcc30), (0x87c0, 0xc194), (0x44c2, 0xc5b8), (0x774b, 0xc544),
  (0x344d, 0xb8b0), (0x5cd2, 0xb3d9), (0x8259, 0xcc3d), (0x4f5b, 0xbd88), (0x71e4, 0xd0dc),
  (0x3ee6, 0xc6b0), (0x9a69, 0xd658), (0x646d, 0xcc99), (0x8cf2, 0xbcf4), (0x49f4, 0xc9c0),
  (0x7c7d, 0xc790), (0x397f, 0xc624), (0x4981, 0xbc29), (0x8287, 0xba74), (0x7d0e, 0xce58),
  (0x5191, 0xc8fc), (0x609b, 0xc804), (0x451e, 0xb960), (0x3fa5, 0xcd95), (0x9e24, 0xc2dc),
  (0x48ab, 0xc218), (0x81b1, 0xc9c1), (0x7c38, 0xd30c), (0x50bb, 0xc0ac), (0x6fc5, 0xce68),
  (0x4448, 0xbc15), (0x3ecf, 0xb839), (0x9d4e, 0xd0c0), (0x77d5, 0xb9cc), (0x80db, 0xac11),
  (0x7b62, 0xd30c), (0x5fe5, 0xd76c), (0x6eef, 0xccb4), (0x4372, 0xc608), (0x3df9, 0xb3c4),
  (0x9c78, 0xb85c), (0x76ff, 0xbbfc), (0x4c03, 0xbcd1), (0x8509, 0xace4), (0x7a8c, 0xad50),
  (0x5413, 0xd601), (0x631d, 0xacfc), (0x429c, 0xb2e8), (0x9ba2, 0xc8fc), (0x4b2d, 0xb3c4),
  (0x8433, 0xb0a8), (0x79b6, 0xcc2c), (0x533d, 0xc5b8), (0x6247, 0xc120), (0x41c6, 0xb450),
  (0x9acc, 0xbe48), (0x4a57, 0xd328), (0x835d, 0xc989), (0x78e0, 0xb1e8), (0x5267, 0xadf9),
  (0x37ea, 0xc704), (0x6171, 0xb2e8), (0x40f0, 0xcc30), (0x99f6, 0xad6d), (0x8d83, 0xc808),
  (0x6a02, 0xb77d), (0x4e85, 0xad90), (0x9593, 0xac04), (0x7212, 0xb8cc), (0x5695, 0xb85c),
  (0x3714, 0xacbd), (0x6b97, 0xc5c5), (0x9920, 0xbcd1), (0x5a22, 0xd568), (0x73a7, 0xc724),
  (0x34a9, 0xb77c), (0x86b5, 0xac00), (0x6734, 0xbc15), (0x5bb7, 0xc2ec), (0x3836, 0xbc94),
  (0x8a42, 0xbd80), (0x4f44, 0xac10), (0x64c9, 0xcc29), (0x39cb, 0xd604), (0x9252, 0xc8fc),
  (0x5754, 0xc9c0), (0x8bd7, 0xc2dc), (0x6856, 0xd608), (0x4cd9, 0xd615), (0x93e7, 0xb871),
  (0x7066, 0xd604), (0x54e9, 0xb9ac), (0x3568, 0xbc94), (0x69eb, 0xb2e8), (0x8774, 0xd638),
  (0x5876, 0xb85d), (0x71fb, 0xd6c8), (0x6588, 0xd559), (0x9a0d, 0xacfc), (0x5f0f, 0xc2dd),
  (0x8896, 0xc218), (0x4d98, 0xb9bd), (0x7821, 0xc625), (0x3d23, 0xc774), (0x90a6, 0xbc29),
  (0x55a8, 0xb7c9), (0x8f2f, 0xc9d1), (0x4031, 0xbd09), (0x7eba, 0xbc29), (0x973f, 0xbabd),
  (0x6d43, 0xd611), (0x85c8, 0xaddc), (0x46ca, 0xd61c), (0x7553, 0xb2f5), (0x3655, 0xad34),
  (0x63dc, 0xc5c4), (0x9861, 0xc758), (0x5d63, 0xb2f9), (0x4bec, 0xb2e4), (0x6675, 0xacc4),
  (0x3b77, 0xb0a8), (0x9efa, 0xbd84), (0x53fc, 0xc870), (0x6306, 0xd0c0), (0x4789, 0xc789),
  (0x9c8f, 0xd53c), (0x4b16, 0xd6a1), (0x801c, 0xc0ac), (0x7ea3, 0xc8fc), (0x5326, 0xada4),
  (0x6230, 0xc804), (0x46b3, 0xce58), (0x3d3a, 0xb798), (0x4a40, 0xbe44), (0x8346, 0xd615),
  (0x79cd, 0xcda9), (0x5250, 0xacfc), (0x6d5a, 0xc900), (0x41dd, 0xcca8), (0x9ee3, 0xb9e4),
  (0x3c64, 0xc11d), (0x756a, 0xbc88), (0x8270, 0xac04), (0x78f7, 0xb9b0), (0x5d7a, 0xad50),
  (0x8b01, 0xc54c), (0x6c84, 0xc6b4), (0x5a0b, 0xc18c), (0x3f8e, 0xc555), (0x9311, 0xb8b0),
  (0x7494, 0xc99d), (0x8d9a, 0xc18d), (0x7d25, 0xcc30), (0x5ca4, 0xd608), (0x8a2b, 0xc2e0),
  (0x95aa, 0xc11c), (0x6fae, 0xd68c), (0x4535, 0xac04), (0x3eb8, 0xd3c9), (0x923b, 0xc0ac),
  (0x77be, 0xc870), (0x8cc4, 0xd68c), (0x7c4f, 0xae30), (0x5fce, 0xc778), (0x94d4, 0xc544),
  (0x6ed8, 0xad50), (0x445f, 0xd669), (0x39e2, 0xc778), (0x9d65, 0xd310), (0x76e8, 0xc218),
  (0x8fee, 0xcc45), (0x7f79, 0xb9ac), (0x5ef8, 0xc801), (0x97fe, 0xc74c), (0x9b8b, 0xc720),
  (0x640a, 0xcd94), (0x588d, 0xae30), (0x390c, 0xac10), (0x8f18, 0xb989), (0x4c1a, 0xbb38),
  (0x659f, 0xc9d0), (0x3aa1, 0xac1c), (0x9728, 0xc704), (0x542a, 0xc640), (0x88ad, 0xc2b5),
  (0x692c, 0xc758), (0x4daf, 0xaddc), (0x90bd, 0xaddc), (0x713c, 0xc18c), (0x55bf, 0xc18c),
  (0x363e, 0xc6b0), (0x6ac1, 0xbc00), (0x844a, 0xc554), (0x594c, 0xc810), (0x72d1, 0xb839),
  (0x37d3, 0xae30), (0x85df, 0xb958), (0x665e, 0xd76c), (0x5ae1, 0xc801), (0x3b60, 0xc120),
  (0x896c, 0xd53c), (0x4e6e, 0xbb20), (0x67f3, 0xb958), (0x917c, 0xd574), (0x567e, 0xc74c),
  (0x6b80, 0xc694), (0x8c05, 0xb7c9), (0x4107, 0xc815), (0x7390, 0xd314), (0x9415, 0xc7a0),
  (0x6e19, 0xd658), (0x869e, 0xbaa9), (0x5ba0, 0xcd1d), (0x7629, 0xd0d1), (0x60b2, 0xbe44),
  (0x9937, 0xc0ac), (0x5e39, 0xc0bd), (0x8bc0, 0xacb0), (0x48c2, 0xb8b0), (0x7b4b, 0xadfc),
  (0x384d, 0xbc31), (0x93d0, 0xb958), (0x50d2, 0xad70), (0x8e59, 0xcd95), (0x435b, 0xace0),
  (0x7de4, 0xc124), (0x9669, 0xd5d8), (0x686d, 0xc9c4), (0x80f2, 0xd574), (0x45f4, 0xc815),
  (0x707d, 0xc7ac), (0x357f, 0xd5a5), (0x4d81, 0xb2f5), (0x8687, 0xcc99), (0x790e, 0xcd08),
  (0x5591, 0xc74c), (0x649b, 0xb9b0), (0x411e, 0xc81c), (0x3ba5, 0xbd84), (0x9a24, 0xc885),
  (0x4cab, 0xad6c), (0x85b1, 0xb300), (0x7838, 0xc7a1), (0x54bb, 0xd734), (0x6bc5, 0xc758),
  (0x4048, 0xacc4), (0x3acf, 0xc694), (0x994e, 0xd76c), (0x73d5, 0xb824), (0x84db, 0xcc45),
  (0x7f62, 0xd30c)]

/-- hanja/table.go:16137-16392 -/
def rawTable63 : List (Nat × Nat) := [
  (0x5be5, 0xc694), (0x6aef, 0xc18c), (0x4772, 0xc2e0), (0x39f9, 0xd2b9), (0x9878, 0xc548),
  (0x72ff, 0xc5f0), (0x4803, 0xb7c9), (0x8109, 0xb9e5), (0x7e8c, 0xc18d), (0x5013, 0xb2f4),
  (0x671d, 0xc870), (0x469c, 0xbe44), (0x9fa2, 0xd654), (0x3627, 0xc11c), (0x4f2d, 0xd604),
  (0x8033, 0xc774), (0x7db6, 0xacfc), (0x573d, 0xbab0), (0x6647, 0xacfc), (0x45c6, 0xad00),
  (0x9ecc, 0xd6a1), (0x3551, 0xc8fc), (0x4e57, 0xc2b9), (0x875d, 0xc5f0), (0x7ce0, 0xac15),
  (0x5667, 0xd670), (0x6571, 0xc560), (0x44f0, 0xc778), (0x9df6, 0xb9e4), (0x347b, 0xb9d0),
  (0x8983, 0xb2f4), (0x6e02, 0xbb38), (0x4a85, 0xcd09), (0x9193, 0xd0d0), (0x7612, 0xc628),
  (0x5295, 0xc9c8), (0x6f97, 0xac04), (0x9d20, 0xb2e8), (0x5e22, 0xac11), (0x77a7, 0xcd08),
  (0x82b5, 0xacb0), (0x6334, 0xb9e4), (0x5fb7, 0xb355), (0x3c36, 0xad6c), (0x8e42, 0xc720),
  (0x4b44, 0xc0ac), (0x60c9, 0xcca8), (0x3dcb, 0xc5fc), (0x9652, 0xada4), (0x5354, 0xd611),
  (0x8fd7, 0xc640), (0x6c56, 0xd30c), (0x48d9, 0xbc30), (0x97e7, 0xc778), (0x7466, 0xc624),
  (0x50e9, 0xd55c), (0x6deb, 0xc74c), (0x8374, 0xbd80), (0x5c76, 0xb3c4), (0x75fb, 0xbbfc),
  (0x36fd, 0xc0b0), (0x6188, 0xd5c8), (0x9e0d, 0xc2dc), (0x5b0f, 0xbc88), (0x8c96, 0xc561),
  (0x4998, 0xd55c), (0x7c21, 0xac04), (0x3923, 0xd33d), (0x94a6, 0xd760), (0x51a8, 0xbd80),
  (0x8b2f, 0xc870), (0x4431, 0xcc44), (0x7aba, 0xaddc), (0x37bc, 0xc2b9), (0x933f, 0xd638),
  (0x6943, 0xc545), (0x81c8, 0xb78d), (0x42ca, 0xc815), (0x7153, 0xb2e8), (0x67dc, 0xac70),
  (0x9c61, 0xc989), (0x5963, 0xc575), (0x4fec, 0xb9ac), (0x6275, 0xc5b4), (0x3f77, 0xc218),
  (0x9afa, 0xad04), (0x57fc, 0xae30), (0x6706, 0xbd84), (0x4389, 0xd73c), (0x988f, 0xd574),
  (0x3610, 0xd45c), (0x4f16, 0xb178), (0x841c, 0xcca9), (0x7aa3, 0xc194), (0x5726, 0xc785),
  (0x6630, 0xd558), (0x42b3, 0xbbf8), (0x9bb9, 0xc18c), (0x393a, 0xd669), (0x4e40, 0xbd88),
  (0x8746, 0xc591), (0x7dcd, 0xbbfc), (0x5650, 0xae30), (0x695a, 0xcd08), (0x45dd, 0xc7a0),
  (0x9ae3, 0xbc29), (0x3864, 0xc5c5), (0x716a, 0xcd94), (0x8670, 0xc815), (0x7cf7, 0xb780),
  (0x597a, 0xad6c), (0x8f01, 0xacf5), (0x6884, 0xc720), (0x5e0b, 0xc9c0), (0x3b8e, 0xbc30),
  (0x9711, 0xc810), (0x7094, 0xacb0), (0x899a, 0xac01), (0x7925, 0xd604), (0x58a4, 0xad34),
  (0x8e2b, 0xbcd1), (0x91aa, 0xb8cc), (0x6bae, 0xb834), (0x4135, 0xb144), (0x3ab8, 0xc9d0),
  (0x963b, 0xc870), (0x73be, 0xac11), (0x88c4, 0xd589), (0x784f, 0xc5f0), (0x5bce, 0xbcd1),
  (0x90d4, 0xc5f0), (0x6ad8, 0xd61c), (0x405f, 0xcc28), (0x3de2, 0xcc28), (0x9965, 0xae30),
  (0x72e8, 0xc735), (0x8bee, 0xcd08), (0x7b79, 0xc8fc), (0x5af8, 0xc120), (0x93fe, 0xc0b0),
  (0x9f8b, 0xc6b0), (0x600a, 0xcd08), (0x5c8d, 0xacac), (0x3d0c, 0xace0), (0x8b18, 0xc9c0),
  (0x481a, 0xc640), (0x619f, 0xc18d), (0x3ea1, 0xb825), (0x9328, 0xbb18), (0x502a, 0xc608),
  (0x8cad, 0xc9c8), (0x6d2c, 0xc18d), (0x49af, 0xce58), (0x94bd, 0xb2e8), (0x753c, 0xc815),
  (0x51bf, 0xcca8), (0x6ec1, 0xc800), (0x804a, 0xb8cc), (0x5d4c, 0xac10), (0x76d1, 0xac10),
  (0x81df, 0xc7a5), (0x625e, 0xd55c), (0x5ee1, 0xbb34), (0x3f60, 0xd611), (0x8d6c, 0xc815),
  (0x4a6e, 0xb85d), (0x63f3, 0xc124), (0x957c, 0xad74), (0x527e, 0xad6c), (0x6f80, 0xc0bd),
  (0x8805, 0xc2b9), (0x4507, 0xae30), (0x7790, 0xb9c9), (0x3492, 0xbcf5), (0x9015, 0xacbd),
  (0x6a19, 0xd45c), (0x829e, 0xac78), (0x5fa0, 0xb798), (0x7229, 0xc6b8), (0x64b2, 0xbc15),
  (0x9d37, 0xb82c), (0x5a39, 0xd604), (0x8fc0, 0xac04), (0x4cc2, 0xc870), (0x7f4b, 0xc639),
  (0x3c4d, 0xb780), (0x97d0, 0xac11), (0x54d2, 0xb2ec), (0x8a59, 0xbc1c), (0x475b, 0xd30c),
  (0x79e4, 0xce6d), (0x36e6, 0xb78c), (0x9269, 0xb151), (0x6c6d, 0xc608), (0x84f2, 0xad6c),
  (0x41f4, 0xc11c), (0x747d, 0xc885), (0x5181, 0xcc9c), (0x9a87, 0xd574), (0x3c08, 0xb828),
  (0x650e, 0xb85c), (0x4991, 0xd608), (0x789b, 0xc801), (0x5d1e, 0xacfd), (0x8624, 0xc704),
  (0x50ab, 0xb8b0), (0x99b1, 0xd0c0), (0x3b32, 0xcca8), (0x6438, 0xc9c4), (0x48bb, 0xc2e0),
  (0x77c5, 0xc694), (0x5c48, 0xad74), (0x854e, 0xad50), (0x6fd5, 0xc2b5), (0x98db, 0xbe44),
  (0x3a5c, 0xb78c), (0x6362, 0xd658), (0x47e5, 0xbabd), (0x76ef, 0xc815), (0x5b72, 0xc544),
  (0x8478, 0xc0ac), (0x6eff, 0xb9cc), (0x5403, 0xd758), (0x3986, 0xd638), (0x9d09, 0xc544),
  (0x628c, 0xce68), (0x4c13, 0xba74), (0x7b1d, 0xb0a9), (0x5a9c, 0xc815), (0x83a2, 0xd611),
  (0x532d, 0xada4), (0x38b0, 0xd53c), (0x9c33, 0xb975), (0x61b6, 0xc5b5), (0x4b3d, 0xc138),
  (0x7a47, 0xc0bc), (0x59c6, 0xbaa8), (0x82cc, 0xc7a5), (0x5257, 0xc794), (0x37da, 0xae30),
  (0x9b5d, 0xacb0), (0x60e0, 0xd61c), (0x4a67, 0xd608), (0x7971, 0xc138), (0x58f0, 0xc131),
  (0x81f6, 0xcc9c), (0x9583, 0xc12c), (0x7202, 0xd45c), (0x5685, 0xc720), (0x3704, 0xc2ec),
  (0x8d93, 0xd0c0), (0x6a12, 0xbc00), (0x4e95, 0xc815), (0x7397, 0xc6b0), (0x3499, 0xba74),
  (0x8120, 0xc804)]

/-- hanja/table.go:16393-16648 -/
def rawTable64 : List (Nat × Nat) := [
  (0x4222, 0xc0c8), (0x6ba7, 0xcd95), (0x9eb5, 0xba74), (0x7f34, 0xaca9), (0x43b7, 0xc8fc),
  (0x9242, 0xc0ac), (0x5744, 0xc5ed), (0x7cc9, 0xc885), (0x8a52, 0xc774), (0x4f54, 0xc810),
  (0x93d7, 0xac31), (0x7056, 0xbbf8), (0x54d9, 0xcf8c), (0x3558, 0xcc38), (0x8be7, 0xd0c0),
  (0x6866, 0xd654), (0x4ce9, 0xc694), (0x71eb, 0xb834), (0x9f74, 0xc5b8), (0x4076, 0xaca9),
  (0x69fb, 0xaddc), (0x7d88, 0xc81c), (0x3e8a, 0xc591), (0x820d, 0xc0ac), (0x470f, 0xd0c0),
  (0x9096, 0xc0b0), (0x5598, 0xcc9c), (0x6021, 0xc774), (0x88a6, 0xad74), (0x4da8, 0xcc38),
  (0x972f, 0xb4f1), (0x5831, 0xbcf4), (0x66ba, 0xd0c4), (0x8f3f, 0xc5ec), (0x7543, 0xc21c),
  (0x3645, 0xbcf4), (0x9dc8, 0xccb4), (0x5eca, 0xb791), (0x6d53, 0xb18d), (0x7bdc, 0xc99d),
  (0x3cde, 0xcda9), (0x8061, 0xcd1d), (0x4563, 0xd560), (0x53ec, 0xc18c), (0x7e75, 0xb2e8),
  (0x86fa, 0xd611), (0x4bfc, 0xc801), (0x7b06, 0xd30c), (0x5f89, 0xc591), (0x848f, 0xc720),
  (0x5316, 0xd654), (0x399d, 0xb9c9), (0x981c, 0xd569), (0x66a3, 0xae30), (0x4b26, 0xb450),
  (0x7a30, 0xc11c), (0x5eb3, 0xbe44), (0x87b9, 0xc810), (0x5240, 0xac1c), (0x38c7, 0xc774),
  (0x9b46, 0xd6cc), (0x61cd, 0xb984), (0x4a50, 0xd640), (0x755a, 0xbd84), (0x59dd, 0xc8fc),
  (0x86e3, 0xae38), (0x6d6a, 0xb791), (0x3bf1, 0xd45c), (0x9a70, 0xce58), (0x60f7, 0xc900),
  (0x457a, 0xcd1d), (0x9301, 0xacfc), (0x7484, 0xc601), (0x420b, 0xb2f5), (0x8b11, 0xd61c),
  (0x6c94, 0xba74), (0x959a, 0xcca8), (0x3c1f, 0xae30), (0x6525, 0xcd2c), (0x44a4, 0xc77c),
  (0x922b, 0xbb38), (0x8daa, 0xd669), (0x77ae, 0xcca0), (0x5d35, 0xc591), (0x8a3b, 0xc8fc),
  (0x6fbe, 0xb2ec), (0x94c4, 0xc0ad), (0x3f49, 0xd568), (0x644f, 0xc6a9), (0x47ce, 0xcc2c),
  (0x8cd4, 0xbe48), (0x76d8, 0xbc18), (0x5c5f, 0xc12d), (0x8565, 0xc544), (0x6ee8, 0xbe48),
  (0x97ee, 0xad6c), (0x3e73, 0xc624), (0x6779, 0xd654), (0x46f8, 0xc810), (0x8ffe, 0xb82c),
  (0x838b, 0xc791), (0x7c0a, 0xae30), (0x408d, 0xbc15), (0x9718, 0xb3d9), (0x541a, 0xc758),
  (0x7d9f, 0xb824), (0x8f28, 0xad00), (0x4c2a, 0xb9e4), (0x90ad, 0xad6c), (0x712c, 0xc11d),
  (0x55af, 0xbd84), (0x362e, 0xcc99), (0x88bd, 0xb140), (0x693c, 0xc5f0), (0x72c1, 0xc724),
  (0x37c3, 0xc0ac), (0x9c4a, 0xc728), (0x414c, 0xacac), (0x6ad1, 0xb8b0), (0x9ddf, 0xc791),
  (0x7e5e, 0xc694), (0x42e1, 0xc11c), (0x916c, 0xc218), (0x566e, 0xc5f0), (0x7ff3, 0xc608),
  (0x3cf5, 0xacc4), (0x897c, 0xc608), (0x4e7e, 0xac74), (0x7380, 0xb77c), (0x9405, 0xbcc4),
  (0x5907, 0xbe44), (0x6b90, 0xc18d), (0x8c15, 0xc720), (0x7619, 0xc18c), (0x3b1b, 0xd761),
  (0x9e9e, 0xc7a5), (0x43a0, 0xc774), (0x6e29, 0xc628), (0x78b2, 0xc81c), (0x3db4, 0xce58),
  (0x8137, 0xb9ac), (0x4639, 0xc26c), (0x93c0, 0xb85c), (0x50c2, 0xb8e8), (0x634b, 0xb784),
  (0x8bd0, 0xd53c), (0x48d2, 0xada4), (0x9659, 0xc21c), (0x5b5b, 0xd328), (0x65e4, 0xd654),
  (0x8e69, 0xbcc4), (0x706d, 0xba78), (0x356f, 0xb20c), (0x98f2, 0xc74c), (0x5df4, 0xd30c),
  (0x687d, 0xc628), (0x5581, 0xc639), (0x9e87, 0xade0), (0x3808, 0xc724), (0x610e, 0xd345),
  (0x4d91, 0xc81c), (0x7c9b, 0xc219), (0x591e, 0xc68b), (0x8224, 0xbc94), (0x54ab, 0xc9c0),
  (0x9db1, 0xac74), (0x3f32, 0xb835), (0x6038, 0xc2e4), (0x4cbb, 0xd604), (0x73c5, 0xc2e0),
  (0x5848, 0xae30), (0x814e, 0xc2e0), (0x6bd5, 0xd544), (0x9cdb, 0xc2b5), (0x3e5c, 0xc740),
  (0x6762, 0xbaa9), (0x43e5, 0xd0d0), (0x72ef, 0xd68c), (0x5f72, 0xb9ac), (0x8078, 0xb2f4),
  (0x6aff, 0xc601), (0x5003, 0xad6c), (0x3d86, 0xc800), (0x9909, 0xd5a5), (0x668c, 0xaddc),
  (0x4813, 0xcd94), (0x3617, 0xad6c), (0x7f1d, 0xbd09), (0x5e9c, 0xbd80), (0x87a2, 0xd615),
  (0x572d, 0xaddc), (0x3cb0, 0xb155), (0x9833, 0xc815), (0x65b6, 0xcd09), (0x4f3d, 0xac00),
  (0x3541, 0xac01), (0x7e47, 0xc694), (0x5dc6, 0xc601), (0x86cc, 0xace0), (0x5657, 0xbc15),
  (0x9f5d, 0xce58), (0x64e0, 0xc81c), (0x4e67, 0xb458), (0x346b, 0xb150), (0x7d71, 0xd1b5),
  (0x5cf0, 0xbd09), (0x85f6, 0xb825), (0x9183, 0xc5c4), (0x7602, 0xc544), (0x5285, 0xd0c1),
  (0x8993, 0xba71), (0x6e12, 0xbe44), (0x4a95, 0xad6d), (0x7797, 0xc870), (0x8520, 0xc885),
  (0x4622, 0xc800), (0x6fa7, 0xb840), (0x9ab5, 0xccb4), (0x7b34, 0xac00), (0x47b7, 0xad74),
  (0x9642, 0xd53c), (0x5344, 0xc785), (0x78c9, 0xc0c1), (0x8e52, 0xb9cc), (0x4b54, 0xd1f4),
  (0x97d7, 0xc6b4), (0x7456, 0xb2e8), (0x50d9, 0xad11), (0x8fe7, 0xc9c4), (0x6c66, 0xc9c0),
  (0x48e9, 0xc900), (0x75eb, 0xac04), (0x36ed, 0xc11d), (0x9b74, 0xbc29), (0x4476, 0xcc9c),
  (0x6dfb, 0xcca8), (0x7988, 0xd718), (0x3a8a, 0xad70), (0x860d, 0xd6c8), (0x430f, 0xbc00),
  (0x9496, 0xc591), (0x5198, 0xc720), (0x6421, 0xc0c1), (0x8ca6, 0xc644), (0x49a8, 0xb780),
  (0x37ac, 0xadfc), (0x932f, 0xcc29), (0x5c31, 0xcde8), (0x62ba, 0xb9e4), (0x8b3f, 0xc870),
  (0x7143, 0xaddc), (0x99c8, 0xad6c), (0x5aca, 0xc18c), (0x6953, 0xd48d), (0x7fdc, 0xc0bd),
  (0x38de, 0xd0c8)]

/-- hanja/table.go:16649-16904 -/
def rawTable65 : List (Nat × Nat) := [
  (0x8461, 0xd3ec), (0x4163, 0xd669), (0x57ec, 0xb3d9), (0x7a75, 0xc54c), (0x82fa, 0xb9e4),
  (0x4ffc, 0xc8fd), (0x3600, 0xc791), (0x7f06, 0xb78c), (0x5b89, 0xc548), (0x808f, 0xc870),
  (0x5716, 0xb3c4), (0x3d9d, 0xc751), (0x9c1c, 0xacb8), (0x62a3, 0xade0), (0x4f26, 0xb95c),
  (0x7e30, 0xc1c4), (0x5ab3, 0xc2dd), (0x83b9, 0xc625), (0x5640, 0xc190), (0x3cc7, 0xbb34),
  (0x9f46, 0xc639), (0x65cd, 0xc815), (0x4e50, 0xc545), (0x715a, 0xacbd), (0x5ddd, 0xcc9c),
  (0x82e3, 0xac70), (0x696a, 0xc811), (0x3ff1, 0xc124), (0x9e70, 0xc751), (0x64f7, 0xd790),
  (0x417a, 0xd45c), (0x9701, 0xc81c), (0x7084, 0xb274), (0x460b, 0xc810), (0x8f11, 0xad70),
  (0x6894, 0xce58), (0x919a, 0xbbf8), (0x381f, 0xb824), (0x6125, 0xc601), (0x40a4, 0xbd80),
  (0x962b, 0xbc30), (0x89aa, 0xce5c), (0x73ae, 0xc704), (0x5935, 0xc5fc), (0x8e3b, 0xacfc),
  (0x6bbe, 0xc900), (0x90c4, 0xadf9), (0x3b49, 0xd654), (0x604f, 0xd638), (0x43ce, 0xd48d),
  (0x88d4, 0xc608), (0x72d8, 0xc6d4), (0x585f, 0xc7a5), (0x8165, 0xc131), (0x6ae8, 0xb85c),
  (0x93ee, 0xac15), (0x3a73, 0xc1a1), (0x6379, 0xbd84), (0x42f8, 0xc21c), (0x8bfe, 0xacfc),
  (0x878b, 0xc218), (0x780a, 0xac15), (0x448d, 0xbc29), (0x9318, 0xcd94), (0x501a, 0xc758),
  (0x799f, 0xb2f9), (0x8b28, 0xbaa8), (0x482a, 0xb2e8), (0x94ad, 0xb450), (0x752c, 0xc6a9),
  (0x51af, 0xd48d), (0x8cbd, 0xc774), (0x6d3c, 0xc640), (0x49bf, 0xc911), (0x76c1, 0xc601),
  (0x984a, 0xc774), (0x454c, 0xce58), (0x6ed1, 0xd65c), (0x99df, 0xc0ac), (0x7a5e, 0xb824),
  (0x46e1, 0xd654), (0x956c, 0xd655), (0x526e, 0xacfc), (0x7bf3, 0xd544), (0x38f5, 0xb2ec),
  (0x8d7c, 0xc790), (0x4a7e, 0xc790), (0x7780, 0xbb34), (0x3482, 0xcc29), (0x9005, 0xd6c4),
  (0x5d07, 0xc22d), (0x6f90, 0xc6b4), (0x8815, 0xc5f0), (0x7219, 0xc591), (0x3f1b, 0xd615),
  (0x9a9e, 0xac74), (0x47a0, 0xcc99), (0x6a29, 0xad8c), (0x7cb2, 0xcc2c), (0x39b4, 0xaca9),
  (0x8537, 0xc7a5), (0x4239, 0xc218), (0x97c0, 0xcc9c), (0x54c2, 0xc2e0), (0x674b, 0xbc94),
  (0x8fd0, 0xc6b4), (0x4cd2, 0xc6d0), (0x36d6, 0xc0ac), (0x9259, 0xc7ac), (0x5f5b, 0xc774),
  (0x61e4, 0xc8fc), (0x8a69, 0xc2dc), (0x746d, 0xb2f9), (0x9cf2, 0xc2dc), (0x59f4, 0xb82c),
  (0x6c7d, 0xae30), (0x5981, 0xc791), (0x9287, 0xb8b0), (0x3408, 0xb458), (0x6d0e, 0xacc4),
  (0x4191, 0xc815), (0x709b, 0xad11), (0x551e, 0xb450), (0x8e24, 0xc878), (0x58ab, 0xc900),
  (0x91b1, 0xbc1c), (0x6c38, 0xc601), (0x40bb, 0xc815), (0x7fc5, 0xc2dc), (0x5448, 0xc815),
  (0x8d4e, 0xc18d), (0x67d5, 0xbb34), (0x90db, 0xbd80), (0x6b62, 0xc9c0), (0x4fe5, 0xac70),
  (0x7eef, 0xbe44), (0x5372, 0xc18c), (0x8c78, 0xce58), (0x66ff, 0xccb4), (0x5c03, 0xbd80),
  (0x9509, 0xc88c), (0x6a8c, 0xc8c4), (0x4413, 0xc720), (0x3a17, 0xcca9), (0x731d, 0xc878),
  (0x529c, 0xc54c), (0x8ba2, 0xc815), (0x5b2d, 0xb0b4), (0x9433, 0xb8b0), (0x69b6, 0xb2f9),
  (0x433d, 0xcc44), (0x3941, 0xb355), (0x7247, 0xd3b8), (0x51c6, 0xc900), (0x8acc, 0xb3d9),
  (0x5a57, 0xc608), (0x3fda, 0xb77c), (0x935d, 0xc6b0), (0x68e0, 0xb2f9), (0x4267, 0xb958),
  (0x386b, 0xc608), (0x7171, 0xacfc), (0x50f0, 0xbd81), (0x89f6, 0xce58), (0x9d83, 0xc5ed),
  (0x7a02, 0xb791), (0x5e85, 0xc800), (0x3f04, 0xae30), (0x8593, 0xc0bc), (0x6212, 0xacc4),
  (0x4695, 0xb9ac), (0x7b97, 0xc0b0), (0x3c99, 0xc218), (0x8920, 0xad6c), (0x4a22, 0xb2f4),
  (0x63a7, 0xacf5), (0x96b5, 0xd76c), (0x7734, 0xc21c), (0x4bb7, 0xb3c5), (0x9a42, 0xcc38),
  (0x5f44, 0xad6c), (0x74c9, 0xcc2c), (0x8252, 0xbaa8), (0x4754, 0xd658), (0x9bd7, 0xc0c1),
  (0x7856, 0xd611), (0x5cd9, 0xce58), (0x3d58, 0xb9cc), (0x83e7, 0xc800), (0x6066, 0xc0c1),
  (0x44e9, 0xc9c0), (0x79eb, 0xcd9c), (0x3aed, 0xc2dc), (0x9774, 0xd654), (0x4876, 0xbe44),
  (0x61fb, 0xae30), (0x7588, 0xbcbd), (0x368a, 0xd574), (0x8a0d, 0xcc28), (0x4f0f, 0xbcf5),
  (0x9896, 0xc601), (0x5d98, 0xc794), (0x6821, 0xad50), (0x80a6, 0xbd84), (0x45a8, 0xc11d),
  (0x3bac, 0xc639), (0x9f2f, 0xc624), (0x5031, 0xd63c), (0x6eba, 0xb2c9), (0x873f, 0xc6d0),
  (0x7d43, 0xd604), (0x3e45, 0xcd1d), (0x95c8, 0xc704), (0x56ca, 0xb0ad), (0x6553, 0xd0c8),
  (0x73dc, 0xc591), (0x34de, 0xac08), (0x8861, 0xd615), (0x4d63, 0xb2ec), (0x5bec, 0xad00),
  (0x7675, 0xb780), (0x8efa, 0xcd08), (0x43fc, 0xc794), (0x3a00, 0xbcd1), (0x7306, 0xbe44),
  (0x5789, 0xd3ec), (0x8c8f, 0xd53c), (0x5b16, 0xd3d0), (0x901c, 0xc624), (0x6ea3, 0xb860),
  (0x4326, 0xb3c4), (0x7230, 0xc6d0), (0x56b3, 0xace1), (0x8fb9, 0xbcc0), (0x5a40, 0xc544),
  (0x9346, 0xbb38), (0x69cd, 0xcc3d), (0x4250, 0xace0), (0x7d5a, 0xae0d), (0x51dd, 0xc751),
  (0x8ee3, 0xad49), (0x656a, 0xcca0), (0x9270, 0xc0ac), (0x68f7, 0xcd94), (0x4d7a, 0xc815),
  (0x9b01, 0xb9ac), (0x7c84, 0xd310), (0x4a0b, 0xd559), (0x8311, 0xc870), (0x6494, 0xd6a1),
  (0x9d9a, 0xc545), (0x341f, 0xae38), (0x6d25, 0xc9c4), (0x4ca4, 0xc8fc), (0x9a2b, 0xac74),
  (0x85aa, 0xc2e0)]

/-- hanja/table.go:16905-17160 -/
def rawTable66 : List (Nat × Nat) := [
  (0x7fae, 0xac31), (0x5535, 0xc554), (0x823b, 0xb85c), (0x67be, 0xc2dc), (0x9cc4, 0xc545),
  (0x3749, 0xc800), (0x6c4f, 0xb300), (0x4fce, 0xc870), (0x84d4, 0xc694), (0x7ed8, 0xd68c),
  (0x545f, 0xd604), (0x8d65, 0xd601), (0x66e8, 0xb871), (0x3673, 0xac10), (0x6f79, 0xc794),
  (0x4ef8, 0xc694), (0x87fe, 0xc12c), (0x8b8b, 0xc12d), (0x740a, 0xc57c), (0x488d, 0xbc29),
  (0x9f18, 0xc5f0), (0x5c1a, 0xc0c1), (0x759f, 0xd559), (0x8728, 0xc811), (0x442a, 0xc804),
  (0x98ad, 0xc810), (0x792c, 0xbc18), (0x5daf, 0xc9d1), (0x3e2e, 0xbd84), (0x80bd, 0xd0dc),
  (0x613c, 0xc2e0), (0x45bf, 0xb9ac), (0x7ac1, 0xcde8), (0x3fc3, 0xccb4), (0x944a, 0xd655),
  (0x494c, 0xc99d), (0x62d1, 0xacb8), (0x95df, 0xd761), (0x765e, 0xb77c), (0x4ae1, 0xc554),
  (0x996c, 0xce59), (0x5e6e, 0xc8fc), (0x77f3, 0xc11d), (0x34f5, 0xc545), (0x817c, 0xba74),
  (0x467e, 0xc2dc), (0x7b80, 0xac04), (0x3882, 0xc5c4), (0x9c05, 0xc639), (0x5107, 0xd604),
  (0x6390, 0xacb9), (0x8415, 0xc81c), (0x7e19, 0xc6a9), (0x969e, 0xc624), (0x4ba0, 0xbcbd),
  (0x6629, 0xb9d0), (0x70b2, 0xd0dc), (0x35b4, 0xd640), (0x8937, 0xc2dc), (0x4e39, 0xb2e8),
  (0x9bc0, 0xace4), (0x58c2, 0xc804), (0x6b4b, 0xc774), (0x83d0, 0xbcf5), (0x40d2, 0xd575),
  (0x3ad6, 0xc9c0), (0x9e59, 0xcd94), (0x535b, 0xc194), (0x6de4, 0xc5b4), (0x8669, 0xd601),
  (0x786d, 0xb9dd), (0x3d6f, 0xbd95), (0x90f2, 0xb798), (0x55f4, 0xac15), (0x607d, 0xc6b4),
  (0x5d81, 0xb8e8), (0x9687, 0xc704), (0x690e, 0xcd94), (0x4591, 0xba71), (0x749b, 0xc219),
  (0x511e, 0xc774), (0x8a24, 0xd6a8), (0x5cab, 0xc218), (0x95b1, 0xc5f4), (0x3732, 0xc601),
  (0x6838, 0xd575), (0x44bb, 0xae30), (0x7bc5, 0xcc9c), (0x5048, 0xac8c), (0x894e, 0xbc88),
  (0x63d5, 0xce68), (0x94db, 0xb2f9), (0x365c, 0xb300), (0x6f62, 0xd669), (0x4be5, 0xc554),
  (0x7aef, 0xb2e8), (0x5772, 0xbd88), (0x8878, 0xac1c), (0x62ff, 0xb098), (0x5803, 0xace4),
  (0x3586, 0xace1), (0x9109, 0xd5a5), (0x6e8c, 0xbc1c), (0x4013, 0xd658), (0x3e17, 0xb3d9),
  (0x771d, 0xc800), (0x569c, 0xbb35), (0x8fa2, 0xb784), (0x5f2d, 0xbbf8), (0x34b0, 0xc804),
  (0x9033, 0xc721), (0x6db6, 0xd0c0), (0x473d, 0xc720), (0x3d41, 0xd669), (0x7647, 0xac04),
  (0x55c6, 0xcc3d), (0x8ecc, 0xada4), (0x5e57, 0xad35), (0x3bda, 0xb2f5), (0x975d, 0xcc9c),
  (0x6ce0, 0xb839), (0x4667, 0xd6c8), (0x3c6b, 0xb780), (0x7571, 0xb958), (0x54f0, 0xb85c),
  (0x8df6, 0xb2ec), (0x9983, 0xacfc), (0x7e02, 0xcd1d), (0x5a85, 0xb2f4), (0x3b04, 0xcc2c),
  (0x8193, 0xc7a5), (0x6612, 0xbb3c), (0x4295, 0xac74), (0x7f97, 0xac15), (0x3899, 0xadfc),
  (0x8d20, 0xc6d0), (0x4e22, 0xc8fc), (0x67a7, 0xacac), (0x92b5, 0xac31), (0x7334, 0xd6c4),
  (0x4fb7, 0xad6d), (0x9e42, 0xb9ac), (0x5b44, 0xb780), (0x70c9, 0xd658), (0x8652, 0xc0ac),
  (0x4354, 0xd6a1), (0x7c56, 0xcca8), (0x58d9, 0xad11), (0x3958, 0xac81), (0x87e7, 0xb85c),
  (0x6466, 0xd654), (0x40e9, 0xb1e8), (0x7deb, 0xcd1d), (0x3eed, 0xc2ac), (0x9374, 0xb2e8),
  (0x4c76, 0xb791), (0x65fb, 0xbbfc), (0x7188, 0xd76c), (0x8e0d, 0xad50), (0x4b0f, 0xbd80),
  (0x9c96, 0xb3d9), (0x5998, 0xc6b4), (0x6c21, 0xb3d9), (0x84a6, 0xd655), (0x41a8, 0xb155),
  (0x3fac, 0xd574), (0x9b2f, 0xcc3d), (0x5431, 0xc9c0), (0x6aba, 0xace0), (0x833f, 0xcd95),
  (0x7943, 0xb9c8), (0x3a45, 0xcd94), (0x91c8, 0xc11d), (0x52ca, 0xadf9), (0x6153, 0xd45c),
  (0x77dc, 0xae0d), (0x8c61, 0xc0c1), (0x4963, 0xcc29), (0x5fec, 0xc5ec), (0x7275, 0xacac),
  (0x8afa, 0xc5b8), (0x47fc, 0xbb34), (0x3e00, 0xb300), (0x7706, 0xbc29), (0x5389, 0xb824),
  (0x888f, 0xc88c), (0x5f16, 0xd638), (0x359d, 0xb057), (0x941c, 0xb300), (0x6aa3, 0xc7a5),
  (0x4726, 0xc21c), (0x7630, 0xb77c), (0x52b3, 0xb85c), (0x8bb9, 0xc640), (0x5e40, 0xc815),
  (0x34c7, 0xc625), (0x9746, 0xccb4), (0x6dcd, 0xc8fc), (0x4650, 0xaca9), (0x795a, 0xc870),
  (0x55dd, 0xaca9), (0x8ae3, 0xacfc), (0x616a, 0xc6b0), (0x37f1, 0xc694), (0x9670, 0xc74c),
  (0x6cf7, 0xb871), (0x497a, 0xc57c), (0x9f01, 0xac70), (0x7884, 0xb9bc), (0x4e0b, 0xd558),
  (0x8711, 0xb2e8), (0x6094, 0xd68c), (0x999a, 0xbd84), (0x6925, 0xc9c0), (0x48a4, 0xc220),
  (0x9e2b, 0xb3d9), (0x81aa, 0xc2dc), (0x7bae, 0xd6e4), (0x5135, 0xc219), (0x863b, 0xacc4),
  (0x63be, 0xc5f0), (0x98c4, 0xd45c), (0x684f, 0xacf5), (0x4bce, 0xac04), (0x80d4, 0xc790),
  (0x7ad8, 0xad6c), (0x505f, 0xd669), (0x8965, 0xbcf5), (0x62e8, 0xbc1c), (0x9bee, 0xc885),
  (0x6b79, 0xc54c), (0x4af8, 0xcd08), (0x83fe, 0xcca8), (0x8f8b, 0xb9dd), (0x700a, 0xbc18),
  (0x4c8d, 0xb4f1), (0x9b18, 0xb9cc), (0x581a, 0xd63c), (0x719f, 0xc219), (0x8328, 0xc790),
  (0x402a, 0xd56d), (0x9cad, 0xccad), (0x7d2c, 0xc8fc), (0x59af, 0xcd95), (0x3a2e, 0xb450),
  (0x84bd, 0xc740), (0x653c, 0xac04), (0x41bf, 0xc608), (0x7ec1, 0xc124), (0x3bc3, 0xce60),
  (0x904a, 0xc720), (0x4d4c, 0xd610), (0x66d1, 0xc0bc), (0x91df, 0xd314), (0x725e, 0xad6c),
  (0x4ee1, 0xd758)]

/-- hanja/table.go:17161-17416 -/
def rawTable67 : List (Nat × Nat) := [
  (0x9d6c, 0xbd95), (0x5a6e, 0xac70), (0x73f3, 0xbb38), (0x857c, 0xc0ac), (0x427e, 0xbe44),
  (0x7f80, 0xb958), (0x3c82, 0xc815), (0x9805, 0xd56d), (0x5507, 0xc9c4), (0x6790, 0xc11d),
  (0x8015, 0xacbd), (0x7a19, 0xc9c1), (0x371b, 0xb208), (0x929e, 0xade0), (0x4fa0, 0xd611),
  (0x6229, 0xc804), (0x74b2, 0xc218), (0x8d37, 0xb300), (0x4a39, 0xc219), (0x5cc2, 0xb3d9),
  (0x6f4b, 0xb834), (0x87d0, 0xc0c1), (0x44d2, 0xad34), (0x3ed6, 0xb300), (0x9a59, 0xb2e8),
  (0x575b, 0xb2e8), (0x69e4, 0xb828), (0x8269, 0xc81c), (0x7c6d, 0xc0ac), (0x396f, 0xc740),
  (0x94f2, 0xc0b0), (0x51f4, 0xbe59), (0x647d, 0xd45c), (0x4c08, 0xcc28), (0x708b, 0xbc30),
  (0x8f0a, 0xc9c0), (0x3991, 0xac10), (0x8297, 0xd5a5), (0x6418, 0xc9c0), (0x57a5, 0xd611),
  (0x9aa7, 0xc591), (0x7c28, 0xc21c), (0x4b32, 0xad6c), (0x6fb5, 0xce5c), (0x8e34, 0xc6a9),
  (0x38bb, 0xc704), (0x81c1, 0xb834), (0x6342, 0xc624), (0x56cf, 0xac04), (0x99d1, 0xb178),
  (0x7b52, 0xd1b5), (0x4a5c, 0xc8fc), (0x6edf, 0xc5fc), (0x8d5e, 0xcc2c), (0x37e5, 0xcc38),
  (0x80eb, 0xacbd), (0x626c, 0xc591), (0x55f9, 0xb828), (0x98fb, 0xcca0), (0x7a7c, 0xc0bc),
  (0x4986, 0xacfd), (0x8c88, 0xd559), (0x730d, 0xb798), (0x3c13, 0xb78c), (0x4217, 0xc1c4),
  (0x6196, 0xc740), (0x8519, 0xc120), (0x5a27, 0xd0dc), (0x79a6, 0xc5b4), (0x9d29, 0xc77c),
  (0x48b0, 0xc801), (0x8bb2, 0xac15), (0x7237, 0xc57c), (0x3b3d, 0xc870), (0x4141, 0xc548),
  (0x60c0, 0xb860), (0x8443, 0xc801), (0x5951, 0xacc4), (0x78d0, 0xbc18), (0x9c53, 0xc120),
  (0x47da, 0xae30), (0x8adc, 0xcca9), (0x7161, 0xd754), (0x3a67, 0xbc15), (0x406b, 0xd640),
  (0x5fea, 0xc885), (0x836d, 0xd64d), (0x587b, 0xb9c9), (0x77fa, 0xd0c1), (0x9b7d, 0xd568),
  (0x4704, 0xc9c0), (0x6b87, 0xc0c1), (0x940e, 0xcd08), (0x3e95, 0xbc88), (0x5f14, 0xc870),
  (0x4499, 0xc0c1), (0x95a3, 0xac01), (0x7724, 0xc774), (0x5ca9, 0xc554), (0x8930, 0xac74),
  (0x5036, 0xad6c), (0x74b9, 0xc219), (0x86c5, 0xc810), (0x6846, 0xad11), (0x51cb, 0xc870),
  (0x9ed5, 0xb2f4), (0x3f54, 0xc720), (0x4558, 0xb839), (0x69db, 0xd568), (0x9262, 0xbc1c),
  (0x3ce9, 0xb2f4), (0x5d68, 0xc624), (0x42ed, 0xc721), (0x93f7, 0xbc15), (0x7578, 0xae30),
  (0x5afd, 0xb8cc), (0x6001, 0xd0dc), (0x8784, 0xc0ac), (0x4e8a, 0xc0ac), (0x370f, 0xc6b4),
  (0x7811, 0xc544), (0x9f94, 0xacf5), (0x669a, 0xc694), (0x8a1d, 0xc544), (0x5523, 0xc870),
  (0x3da8, 0xbc30), (0x7eaa, 0xae30), (0x43ac, 0xd30c), (0x6d33, 0xc5ec), (0x90b6, 0xd328),
  (0x5bbc, 0xad6c), (0x4645, 0xc694), (0x73cc, 0xd544), (0x974f, 0xd559), (0x5e55, 0xb9c9),
  (0x85d8, 0xb824), (0x4cde, 0xbd09), (0x3563, 0xc5f0), (0x7665, 0xc9d5), (0x9de8, 0xd654),
  (0x64ee, 0xc808), (0x8871, 0xac81), (0x5377, 0xad8c), (0x3bfc, 0xac1c), (0x7cfe, 0xaddc),
  (0x4200, 0xc0b0), (0x6683, 0xbe44), (0x8102, 0xc9c0), (0x5a10, 0xbd80), (0x7e93, 0xc601),
  (0x9912, 0xb1cc), (0x499d, 0xd68d), (0x8c9f, 0xc6d0), (0x7220, 0xad6c), (0x3b26, 0xd655),
  (0x61ad, 0xb8cc), (0x802c, 0xb8e8), (0x553a, 0xc804), (0x79bd, 0xae08), (0x983c, 0xb8b0),
  (0x48c7, 0xad6c), (0x8fc9, 0xc11c), (0x6d4a, 0xd0c1), (0x3a50, 0xb3c8), (0x60d7, 0xb151),
  (0x8356, 0xbc30), (0x5464, 0xb839), (0x78e7, 0xc801), (0x9b66, 0xc0ac), (0x4bf1, 0xbe44),
  (0x8ef3, 0xd3ec), (0x6c74, 0xd310), (0x357a, 0xd6a8), (0x8280, 0xcd08), (0x6505, 0xcc2c),
  (0x578e, 0xaca9), (0x9a90, 0xae30), (0x7d15, 0xbe44), (0x4c1f, 0xd63c), (0x6f9e, 0xc6b0),
  (0x9321, 0xae30), (0x34a4, 0xc12d), (0x642f, 0xb3c4), (0x56b8, 0xc810), (0x95ba, 0xbb38),
  (0x7c3f, 0xbd80), (0x4f49, 0xad6c), (0x6ec8, 0xd638), (0x924b, 0xd3ec), (0x37ce, 0xd0c0),
  (0x6759, 0xc775), (0x51e2, 0xbc94), (0x94e4, 0xc815), (0x7f69, 0xc870), (0x4e73, 0xc720),
  (0x69f2, 0xace1), (0x8d75, 0xc870), (0x36f8, 0xc218), (0x8a06, 0xaddc), (0x510c, 0xad50),
  (0x758f, 0xc18c), (0x8b9b, 0xc608), (0x691c, 0xac80), (0x52a1, 0xbb34), (0x3c2a, 0xc65c),
  (0x462e, 0xc0c1), (0x6ab1, 0xae30), (0x9738, 0xd328), (0x3dbf, 0xbc1c), (0x5e3e, 0xb3c4),
  (0x47c3, 0xcc38), (0x90cd, 0xb098), (0x764e, 0xac04), (0x5fd3, 0xac04), (0x845a, 0xc2ec),
  (0x5360, 0xc810), (0x77e3, 0xc758), (0x9c6a, 0xc11c), (0x85ef, 0xc704), (0x6b70, 0xc0bd),
  (0x4cf5, 0xce59), (0x9dff, 0xbcbd), (0x3e7e, 0xd45c), (0x4082, 0xad6c), (0x6e09, 0xc12d),
  (0x918c, 0xace4), (0x5892, 0xc0c1), (0x4b1b, 0xd544), (0x70a2, 0xcd9c), (0x9425, 0xc120),
  (0x632b, 0xc88c), (0x86ae, 0xd2b9), (0x4db4, 0xcde8), (0x3639, 0xc790), (0x7b3b, 0xacf5),
  (0x9ebe, 0xd718), (0x65c4, 0xbaa8), (0x8947, 0xac04), (0x504d, 0xc81c), (0x38d2, 0xc99d),
  (0x7dd4, 0xc0c1), (0x42d6, 0xc728), (0x685d, 0xc2b9), (0x93e0, 0xbd09), (0x5ae6, 0xd56d),
  (0x456f, 0xd45c), (0x72f6, 0xd76c), (0x9679, 0xc2b9), (0x5d7f, 0xc815), (0x4808, 0xb3cc),
  (0x748b, 0xc7a5), (0x8b0a, 0xd669), (0x3d91, 0xb834), (0x8697, 0xacb0), (0x6018, 0xace0),
  (0x53a5, 0xad90)]

/-- hanja/table.go:17417-17672 -/
def rawTable68 : List (Nat × Nat) := [
  (0x9ea7, 0xd758), (0x7828, 0xc561), (0x4f32, 0xd0c1), (0x6bb5, 0xb2e8), (0x8a34, 0xc18c),
  (0x3cbb, 0xb2c9), (0x85c1, 0xace0), (0x6742, 0xc7a1), (0x52cf, 0xbd80), (0x9dd1, 0xae09),
  (0x7f52, 0xb9dd), (0x4e5c, 0xba00), (0x6adf, 0xb825), (0x895e, 0xbcbd), (0x84eb, 0xcd95),
  (0x666c, 0xc218), (0x51f9, 0xc694), (0x9cfb, 0xbc18), (0x7e7c, 0xacc4), (0x4d86, 0xcd94),
  (0x8888, 0xac00), (0x770d, 0xad6c), (0x3813, 0xbabd), (0x4617, 0xd718), (0x6596, 0xbbf8),
  (0x8119, 0xad6c), (0x5e27, 0xc815), (0x7da6, 0xae30), (0x9929, 0xc5b5), (0x4cb0, 0xc6b4),
  (0x8fb2, 0xb18d), (0x7637, 0xc0c9), (0x3f3d, 0xcc3d), (0x4541, 0xbe44), (0x64c0, 0xac04),
  (0x8043, 0xb2f4), (0x5d51, 0xac08), (0x7cd0, 0xbd80), (0x9853, 0xc804), (0x43da, 0xbb18),
  (0x8edc, 0xb0a9), (0x7561, 0xd574), (0x3e67, 0xc559), (0x446b, 0xd33d), (0x5bea, 0xc704),
  (0x876d, 0xc81c), (0x5c7b, 0xc778), (0x73fa, 0xad70), (0x9f7d, 0xae08), (0x4304, 0xacbd),
  (0x6f87, 0xb85c), (0x900e, 0xc8fc), (0x3a95, 0xc791), (0x5b14, 0xbc18), (0x4099, 0xc11d),
  (0x91a3, 0xb2f9), (0x3622, 0xc639), (0x7324, 0xd6c4), (0x58a9, 0xb3c8), (0x8d30, 0xc774),
  (0x37b7, 0xc655), (0x5436, 0xb20c), (0x70b9, 0xc810), (0x82c5, 0xc608), (0x6c46, 0xd0c4),
  (0x55cb, 0xd611), (0x9ad5, 0xbe48), (0x3b54, 0xb85c), (0x4158, 0xb798), (0x6ddb, 0xc81c),
  (0x9662, 0xc6d0), (0x38e9, 0xb9bc), (0x5968, 0xc7a5), (0x46ed, 0xd589), (0x97f7, 0xb825),
  (0x3476, 0xd76c), (0x7178, 0xd3b8), (0x5efd, 0xd68c), (0x6401, 0xac01), (0x8384, 0xacbd),
  (0x4a8a, 0xb871), (0x7c11, 0xc0ac), (0x9b94, 0xac70), (0x629a, 0xbb34), (0x8e1d, 0xacfc),
  (0x5123, 0xad11), (0x39a8, 0xb780), (0x7aaa, 0xc640), (0x47ac, 0xd22c), (0x6933, 0xc678),
  (0x94b6, 0xc544), (0x5fbc, 0xc694), (0x4245, 0xc9d1), (0x77cc, 0xad11), (0x934f, 0xc704),
  (0x5a55, 0xcca9), (0x81d8, 0xb78d), (0x48de, 0xc545), (0x7265, 0xbc29), (0x99e8, 0xc21c),
  (0x60ee, 0xd0c4), (0x8c71, 0xc628), (0x5777, 0xac00), (0x3ffc, 0xc5f0), (0x78fe, 0xc81c),
  (0x4600, 0xbd80), (0x6283, 0xbcc0), (0x8502, 0xb958), (0x5e10, 0xc7a5), (0x7a93, 0xcc3d),
  (0x9d12, 0xb839), (0x4d9d, 0xd611), (0x889f, 0xc9c8), (0x7620, 0xcc99), (0x3f26, 0xacf5),
  (0x65ad, 0xb2e8), (0x842c, 0xb9cc), (0x513a, 0xb098), (0x7dbd, 0xc791), (0x9c3c, 0xc2b5),
  (0x4cc7, 0xbb34), (0x8bc9, 0xc18c), (0x694a, 0xc591), (0x3e50, 0xc1a1), (0x64d7, 0xbcbd),
  (0x8756, 0xd6e4), (0x5064, 0xc720), (0x7ce7, 0xb7c9), (0x9f66, 0xac04), (0x4ff1, 0xad6c),
  (0x8af3, 0xc554), (0x6874, 0xbd80), (0x8680, 0xc2dd), (0x6105, 0xaca9), (0x360b, 0xd604),
  (0x538e, 0xc9c0), (0x9e90, 0xb9b0), (0x7915, 0xbcbd), (0x481f, 0xcca9), (0x6b9e, 0xc6b4),
  (0x9721, 0xb9e5), (0x602f, 0xac81), (0x52b8, 0xc65c), (0x91ba, 0xd6c8), (0x783f, 0xad11),
  (0x4b49, 0xc218), (0x6ac8, 0xb4f1), (0x964b, 0xb8e8), (0x6359, 0xc608), (0x55e2, 0xc62c),
  (0x90e4, 0xadf9), (0x7b69, 0xd1b5), (0x4a73, 0xc218), (0x6df2, 0xd45c), (0x8975, 0xc811),
  (0x8e06, 0xc900), (0x348d, 0xb8e8), (0x550c, 0xb2e8), (0x718f, 0xd6c8), (0x8f9b, 0xc2e0),
  (0x6d1c, 0xb7b5), (0x56a1, 0xd61c), (0x382a, 0xac70), (0x422e, 0xad6c), (0x6eb1, 0xc9c4),
  (0x9338, 0xb798), (0x39bf, 0xd638), (0x5a3e, 0xc560), (0x43c3, 0xba85), (0x94cd, 0xd53c),
  (0x354c, 0xc560), (0x724e, 0xcc3d), (0x5bd3, 0xc6b0), (0x805a, 0xcde8), (0x36e1, 0xc644),
  (0x5760, 0xcd94), (0x73e3, 0xc21c), (0x986a, 0xd6fc), (0x81ef, 0xace0), (0x6f70, 0xada4),
  (0x48f5, 0xc774), (0x99ff, 0xc900), (0x3a7e, 0xcd94), (0x4482, 0xc7a5), (0x6a09, 0xc0c1),
  (0x958c, 0xd56d), (0x5c92, 0xacb8), (0x4f1b, 0xad6c), (0x37a0, 0xb8cc), (0x74a2, 0xb958),
  (0x9025, 0xd68c), (0x672b, 0xb9d0), (0x82ae, 0xc608), (0x49b4, 0xc5ed), (0x7f3b, 0xbd80),
  (0x9abe, 0xacbd), (0x61c4, 0xadfc), (0x8d47, 0xad6c), (0x544d, 0xd6c4), (0x3cd2, 0xbc95),
  (0x79d4, 0xac31), (0x46d6, 0xc608), (0x6c5d, 0xc5ec), (0x97e0, 0xd544), (0x5ee6, 0xbcbd),
  (0x416f, 0xb2f9), (0x76f6, 0xc6d0), (0x9279, 0xce58), (0x597f, 0xbc88), (0x4408, 0xc9c1),
  (0x788b, 0xd558), (0x870a, 0xb9ac), (0x8a97, 0xc810), (0x6c18, 0xb3c4), (0x5fa5, 0xc2dc),
  (0x92a7, 0xad11), (0x7428, 0xace4), (0x4332, 0xd6c8), (0x67b5, 0xd6a8), (0x8634, 0xd48d),
  (0x89c1, 0xacac), (0x6b42, 0xcc9c), (0x5ecf, 0xad6c), (0x91d1, 0xae08), (0x7352, 0xc624),
  (0x425c, 0xce58), (0x66df, 0xc2e0), (0x855e, 0xccb4), (0x3fe5, 0xd559), (0x88eb, 0xc5f0),
  (0x6a6c, 0xc2ec), (0x5df9, 0xadfc), (0x90fb, 0xad50), (0x727c, 0xacbd), (0x4186, 0xc870),
  (0x8488, 0xac1c), (0x7b0d, 0xccb4), (0x3413, 0xac08), (0x4a17, 0xbd80), (0x6996, 0xace1),
  (0x8d19, 0xd604), (0x5227, 0xac81), (0x71a6, 0xc791), (0x9529, 0xad8c), (0x40b0, 0xb78d),
  (0x83b2, 0xb828), (0x7a37, 0xc9c1), (0x4941, 0xd568), (0x68c0, 0xac80), (0x8c43, 0xd568),
  (0x5151, 0xd0dc), (0x70d0, 0xc8fc), (0x9453, 0xacac), (0x4fda, 0xb9ac), (0x82dc, 0xbaa9),
  (0x7961, 0xc2dc)]

/-- hanja/table.go:17673-17928 -/
def rawTable69 : List (Nat × Nat) := [
  (0x486b, 0xbd09), (0x57ea, 0xacf5), (0x8b6d, 0xd6fc), (0x507b, 0xb8e8), (0x7ffa, 0xace0),
  (0x937d, 0xd3b8), (0x4f04, 0xc870), (0x6387, 0xcca0), (0x9c0e, 0xac74), (0x3695, 0xbd88),
  (0x5714, 0xc555), (0x4c99, 0xc808), (0x9da3, 0xd3b8), (0x3a22, 0xd53c), (0x7f24, 0xbe48),
  (0x54a9, 0xbbf8), (0x8130, 0xb450), (0x3bb7, 0xacc4), (0x5836, 0xd0c0), (0x7cb9, 0xc218),
  (0x8ec5, 0xc548), (0x6046, 0xd56d), (0x59cb, 0xc2dc), (0x96d5, 0xc870), (0x3754, 0xc694),
  (0x4d58, 0xc0c8), (0x61db, 0xb300), (0x9a62, 0xb824), (0x34e9, 0xd6e4), (0x5568, 0xc815),
  (0x4aed, 0xd68c), (0x9bf7, 0xc81c), (0x3876, 0xc9c0), (0x7d78, 0xacac), (0x52fd, 0xbb38),
  (0x6801, 0xb958), (0x8f84, 0xcca9), (0x468a, 0xacac), (0x3f0f, 0xb1cc), (0x7011, 0xd3ed),
  (0x9794, 0xb9cc), (0x6e9a, 0xb2f5), (0x821d, 0xd560), (0x5d23, 0xc704), (0x35a8, 0xb85d),
  (0x76aa, 0xb825), (0x4bac, 0xb9c9), (0x6533, 0xc2ec), (0x98b6, 0xad6c), (0x53bc, 0xba70),
  (0x4e45, 0xad6c), (0x7bcc, 0xd6c4), (0x9f4f, 0xc81c), (0x5655, 0xc704), (0x8dd8, 0xbc18),
  (0x44de, 0xb824), (0x3d63, 0xac08), (0x7e65, 0xd76c), (0x95e8, 0xbb38), (0x6cee, 0xbc18),
  (0x8071, 0xc624), (0x5b77, 0xb9ac), (0x74fe, 0xb9f9), (0x4a00, 0xc801), (0x6e83, 0xada4),
  (0x8902, 0xad18), (0x5210, 0xb2e8), (0x7693, 0xd638), (0x9112, 0xcd94), (0x419d, 0xd608),
  (0x849f, 0xad6c), (0x7a20, 0xc870), (0x69ad, 0xc0ac), (0x882c, 0xb8e1), (0x5d3a, 0xc774),
  (0x71bd, 0xc18c), (0x903c, 0xd54d), (0x40c7, 0xba74), (0x87c9, 0xb8cc), (0x654a, 0xcd95),
  (0x68d7, 0xc870), (0x8b56, 0xcc38), (0x5c64, 0xce35), (0x70e7, 0xc18c), (0x9366, 0xc0ac),
  (0x43f1, 0xad6d), (0x86f3, 0xc0ac), (0x6474, 0xc800), (0x3d7a, 0xbe44), (0x8a80, 0xc774),
  (0x6d05, 0xc7ac), (0x3a0b, 0xcc28), (0x5f8e, 0xc815), (0x9290, 0xccb4), (0x7515, 0xc639),
  (0x441f, 0xad6c), (0x679e, 0xc885), (0x9b21, 0xb155), (0x3ca4, 0xc1e0), (0x6c2f, 0xb85d),
  (0x5eb8, 0xc6a9), (0x9dba, 0xcc99), (0x743f, 0xd63c), (0x4749, 0xbabd), (0x66c8, 0xb3d9),
  (0x9a4b, 0xbc1c), (0x3fce, 0xbd84), (0x6f59, 0xaddc), (0x59e2, 0xc5f0), (0x9ce4, 0xad00),
  (0x7769, 0xb85d), (0x4673, 0xd45c), (0x61f2, 0xc9d5), (0x8575, 0xc190), (0x3ef8, 0xc7a0),
  (0x8206, 0xc5ec), (0x388d, 0xc601), (0x590c, 0xb989), (0x7d8f, 0xc218), (0x839b, 0xc815),
  (0x611c, 0xd611), (0x5aa1, 0xb828), (0x342a, 0xcc9c), (0x4e2e, 0xadf9), (0x62b1, 0xd3ec),
  (0x9f38, 0xacb8), (0x35bf, 0xc0ac), (0x563e, 0xb2f4), (0x4fc3, 0xcd09), (0x98cd, 0xd734),
  (0x394c, 0xad6d), (0x7e4e, 0xc5f0), (0x57d3, 0xb784), (0x8c5a, 0xb3c8), (0x3ae1, 0xb3d9),
  (0x5b60, 0xc0ac), (0x7fe3, 0xc0bd), (0x946a, 0xb85c), (0x8def, 0xb85c), (0x6370, 0xc640),
  (0x44f5, 0xbd80), (0x95ff, 0xac1c), (0x367e, 0xac01), (0x4882, 0xb9bd), (0x6609, 0xbc29),
  (0x998c, 0xc5fd), (0x5092, 0xd61c), (0x431b, 0xc694), (0x3ba0, 0xc601), (0x78a2, 0xd0c0),
  (0x9c25, 0xd658), (0x6b2b, 0xaca9), (0x8eae, 0xbd84), (0x45b4, 0xc694), (0x3e39, 0xb82c),
  (0x733b, 0xc190), (0x96be, 0xb09c), (0x6dc4, 0xce58), (0x8147, 0xb1cc), (0x584d, 0xc2b9),
  (0x75d4, 0xce58), (0x4ad6, 0xce68), (0x605d, 0xad04), (0x9be0, 0xb798), (0x52e6, 0xcd08),
  (0x4d6f, 0xd1a4), (0x7af6, 0xacbd), (0x9e79, 0xd568), (0x557f, 0xb2f4), (0x4008, 0xae30),
  (0x7c8b, 0xc218), (0x830a, 0xc790), (0x3591, 0xacc4), (0x8e97, 0xc704), (0x6818, 0xccb4),
  (0x5ba5, 0xc720), (0xfa24, 0xae09), (0x96a7, 0xc218), (0x7028, 0xb8b0), (0x4732, 0xb835),
  (0x63b5, 0xba85), (0x8234, 0xcc45), (0x34bb, 0xbaa8), (0x8dc1, 0xd30c), (0x6f42, 0xd64d),
  (0x5acf, 0xb791), (0x95d1, 0xc5bc), (0x7752, 0xc12c), (0x465c, 0xbd09), (0x62df, 0xc758),
  (0x815e, 0xc804), (0x3be5, 0xc870), (0x8ceb, 0xc7ac), (0x6e6c, 0xcd94), (0x59f9, 0xcc28),
  (0x94fb, 0xc5b4), (0x767c, 0xbc1c), (0x4586, 0xc591), (0x8088, 0xc870), (0x7f0d, 0xc218),
  (0x4e17, 0xc138), (0x6d96, 0xb9ac), (0x8919, 0xbc30), (0x5627, 0xbc00), (0x75a6, 0xd608),
  (0x9129, 0xc2ec), (0x44b0, 0xad11), (0x87b2, 0xc9c8), (0x7e37, 0xb8e8), (0x373d, 0xc790),
  (0x4d41, 0xc7a5), (0x6cc0, 0xc0ac), (0x8843, 0xbc30), (0x5551, 0xc7a1), (0x74d0, 0xb85c),
  (0x9053, 0xb3c4), (0x4bda, 0xc694), (0x86dc, 0xc774), (0x7d61, 0xb77d), (0x3667, 0xb958),
  (0x4c6b, 0xb784), (0x53ea, 0xc9c0), (0x8f6d, 0xc561), (0x547b, 0xc2e0), (0x7bfa, 0xd328),
  (0x977d, 0xbc18), (0x4b04, 0xd73c), (0x6787, 0xbe44), (0x980e, 0xae30), (0x5314, 0xad81),
  (0x4899, 0xd328), (0x99a3, 0xc554), (0x3e22, 0xbe44), (0x7b24, 0xc18c), (0x50a9, 0xb098),
  (0x8530, 0xd638), (0x3fb7, 0xc11c), (0x5c36, 0xac10), (0x78b9, 0xc120), (0x8ac5, 0xae30),
  (0x6446, 0xd30c), (0x5dcb, 0xaddc), (0x92d5, 0xc9c0), (0x4958, 0xcc29), (0x65db, 0xbc88),
  (0x9e62, 0xc775), (0x5168, 0xc804), (0x4eed, 0xc778), (0x3c76, 0xd33d), (0x7978, 0xd654),
  (0x56fd, 0xad6d), (0x6c01, 0xbaa8), (0x8b84, 0xb8b0), (0x428a, 0xbbf8), (0x3b0f, 0xb825),
  (0x7411, 0xc18c)]

/-- hanja/table.go:17929-18184 -/
def rawTable70 : List (Nat × Nat) := [
  (0x9394, 0xc6a9), (0x6a9a, 0xcd08), (0x861d, 0xb834), (0x5923, 0xbabd), (0x72aa, 0xaddc),
  (0x4fac, 0xb18d), (0x6133, 0xad6c), (0x9cb6, 0xc5fc), (0x57bc, 0xc5ed), (0x4a45, 0xc804),
  (0x7fcc, 0xc775), (0x9b4f, 0xc704), (0x5255, 0xbe44), (0x89d8, 0xcd08), (0x40de, 0xc219),
  (0x3963, 0xd61c), (0x7a65, 0xc5ec), (0x91e8, 0xacb0), (0x68ee, 0xc0bc), (0x8471, 0xcd1d),
  (0x5f77, 0xbc29), (0x37fc, 0xc624), (0x70fe, 0xc801), (0x4e00, 0xc77c), (0x6a83, 0xc740),
  (0x8d02, 0xc0bc), (0x5610, 0xad50), (0x7293, 0xcd94), (0x9512, 0xb791), (0x459d, 0xcda9),
  (0x809f, 0xc624), (0x7e20, 0xace1), (0x3726, 0xc2ec), (0x6dad, 0xc218), (0x8c2c, 0xb958),
  (0x593a, 0xd0c8), (0x75bd, 0xc800), (0x943c, 0xbd84), (0x44c7, 0xd601), (0x83c9, 0xb85d),
  (0x614a, 0xacb8), (0x3650, 0xd0c0), (0x6cd7, 0xc0ac), (0x8f56, 0xc0c9), (0x5864, 0xd6c8),
  (0x74e7, 0xc2ed), (0x9766, 0xc804), (0x47f1, 0xc801), (0x82f3, 0xb3d9), (0x6074, 0xb355),
  (0x397a, 0xd569), (0x8e80, 0xad00), (0x6905, 0xc758), (0x3e0b, 0xbc88), (0x5b8e, 0xc694),
  (0x9690, 0xc740), (0x7115, 0xd658), (0x401f, 0xbe44), (0x639e, 0xc12c), (0x9f21, 0xc11c),
  (0x38a4, 0xc7ac), (0x682f, 0xc6b1), (0x5ab8, 0xce58), (0x99ba, 0xc0bd), (0x703f, 0xbc88),
  (0x4349, 0xc7ac), (0x62c8, 0xb150), (0x9e4b, 0xbb18), (0x3bce, 0xb17c), (0x6b59, 0xd761),
  (0x5de2, 0xc18c), (0x98e4, 0xc0ac), (0x7369, 0xc608), (0x4273, 0xc120), (0x65f2, 0xb300),
  (0x8175, 0xac00), (0x3af8, 0xcca9), (0x8606, 0xb85c), (0x3c8d, 0xc9c0), (0x5d0c, 0xac70),
  (0x798f, 0xbcf5), (0x879b, 0xd560), (0x651c, 0xd734), (0x5ea1, 0xc758), (0x4a2e, 0xc124),
  (0x66b1, 0xb2d0), (0x9b38, 0xb958), (0x523e, 0xc790), (0x4bc3, 0xc548), (0x9ccd, 0xae30),
  (0x3d4c, 0xc21c), (0x7a4e, 0xc601), (0x53d3, 0xc0ac), (0x885a, 0xd638), (0x3ee1, 0xc124),
  (0x5f60, 0xd655), (0x7be3, 0xbc29), (0x906a, 0xc0bd), (0x89ef, 0xce58), (0x6770, 0xac78),
  (0x40f5, 0xb1e8), (0x91ff, 0xadfc), (0x4c82, 0xc120), (0x6209, 0xc6d4), (0x9d8c, 0xad74),
  (0x5492, 0xc8fc), (0x471b, 0xcc38), (0x3fa0, 0xad11), (0x7ca2, 0xc790), (0x9825, 0xc774),
  (0x6f2b, 0xb9cc), (0x8aae, 0xd654), (0x41b4, 0xc870), (0x3a39, 0xc81c), (0x773b, 0xc591),
  (0x92be, 0xd64d), (0x69c4, 0xb3c4), (0x8547, 0xc804), (0x5c4d, 0xc2dc), (0x34d2, 0xce60),
  (0x71d4, 0xbc88), (0x4ed6, 0xd0c0), (0x645d, 0xb85d), (0x56e6, 0xc5f0), (0x496f, 0xd30c),
  (0x7ef6, 0xc218), (0x9a79, 0xad6c), (0x517f, 0xc608), (0x5c08, 0xc804), (0x608b, 0xb9b0),
  (0x9f0a, 0xbcbd), (0x9297, 0xd6c4), (0x7418, 0xbbfc), (0x3d1e, 0xb3c4), (0x47a5, 0xc720),
  (0x8aa7, 0xd3ec), (0x6c28, 0xc548), (0x5b32, 0xb1e8), (0x7fb5, 0xbd84), (0x9e34, 0xd559),
  (0x91c1, 0xd754), (0x7342, 0xc6d0), (0x3c48, 0xae08), (0x46cf, 0xb2c8), (0x89d1, 0xcc98),
  (0x6b52, 0xc801), (0x5a5c, 0xac04), (0x7edf, 0xd1b5), (0x9d5e, 0xc544), (0x90eb, 0xbe44),
  (0x726c, 0xd328), (0x3b72, 0xac81), (0x45f9, 0xc790), (0x88fb, 0xb3c5), (0x6a7c, 0xc5f0),
  (0x3403, 0xb9c8), (0x5986, 0xc7a5), (0x9c88, 0xb85c), (0x630d, 0xad50), (0x5217, 0xb82c),
  (0x7196, 0xb3c4), (0x9519, 0xcc29), (0x3a9c, 0xcde8), (0x4a27, 0xc74c), (0x69a6, 0xac04),
  (0x8d29, 0xd310), (0x58b0, 0xb2f4), (0x9bb2, 0xbcf5), (0x6237, 0xd638), (0x5141, 0xc724),
  (0x70c0, 0xd638), (0x9443, 0xc870), (0x39c6, 0xadfc), (0x4951, 0xb9d8), (0x68d0, 0xbe44),
  (0x8c53, 0xc5fc), (0x57da, 0xacfc), (0x9adc, 0xad50), (0x6161, 0xc0c1), (0x506b, 0xce58),
  (0x4fea, 0xb824), (0x936d, 0xd6c4), (0x38f0, 0xc2e4), (0x487b, 0xbbfc), (0x67fa, 0xad18),
  (0x8b7d, 0xc608), (0x3685, 0xb96d), (0x5704, 0xc5b4), (0x7b87, 0xac1c), (0x840e, 0xc704),
  (0x4f14, 0xce68), (0x5499, 0xb871), (0x85a3, 0xace0), (0x6724, 0xb791), (0x4ca9, 0xc2dc),
  (0x9930, 0xc804), (0x4036, 0xb7c9), (0x64b9, 0xad50), (0x96c5, 0xc544), (0x3744, 0xc21c),
  (0x7846, 0xc555), (0x41cb, 0xd574), (0x8ed5, 0xc0b0), (0x34d9, 0xd749), (0x5558, 0xc644),
  (0x79db, 0xd53c), (0x8262, 0xc7a5), (0x4d68, 0xb9dd), (0x52ed, 0xb3d9), (0x83f7, 0xcd94),
  (0x6578, 0xc218), (0x4afd, 0xd3ec), (0x7001, 0xc591), (0x9784, 0xd3ec), (0x5e8a, 0xc0c1),
  (0x6811, 0xc218), (0x8f94, 0xbe44), (0x3598, 0xc9c4), (0x769a, 0xc560), (0x9a1d, 0xac74),
  (0x4523, 0xb824), (0x6eaa, 0xacc4), (0x53ac, 0xada4), (0x3831, 0xae30), (0x7d33, 0xc2e0),
  (0x80b6, 0xbe44), (0x4bbc, 0xb9b0), (0x5645, 0xc704), (0x3eca, 0xbb38), (0x63cc, 0xc2dc),
  (0x874f, 0xc815), (0x4e55, 0xd638), (0x95d8, 0xd22c), (0x5cde, 0xc678), (0x6665, 0xd658),
  (0x8de8, 0xacfc), (0x74ee, 0xc639), (0x9871, 0xb85c), (0x4377, 0xc704), (0x6cfe, 0xacbd),
  (0x5200, 0xb3c4), (0x7683, 0xbaa8), (0x9102, 0xc545), (0x3f89, 0xb839), (0x4a10, 0xd761),
  (0x6e93, 0xb834), (0x8912, 0xd3ec), (0x599d, 0xc7a5), (0x9c9f, 0xc2ec), (0x6220, 0xc2dc),
  (0x71ad, 0xc704), (0x902c, 0xbcd1), (0x3eb3, 0xb9e4), (0x453a, 0xc218), (0x69bd, 0xd61c),
  (0x883c, 0xad6c)]

/-- hanja/table.go:18185-18440 -/
def rawTable71 : List (Nat × Nat) := [
  (0x58c7, 0xb2e8), (0x7d4a, 0xbcf8), (0x70d7, 0xac1c), (0x9356, 0xce68), (0x39dd, 0xac00),
  (0x4464, 0xae08), (0x68e7, 0xc794), (0x8b66, 0xacbd), (0x5bf1, 0xc608), (0x9ef3, 0xc608),
  (0x7c74, 0xc801), (0x9280, 0xc740), (0x7505, 0xb9ac), (0x478e, 0xcc3d), (0x8a90, 0xc544),
  (0x6d15, 0xc778), (0x5c1f, 0xc120), (0x7f9e, 0xc218), (0x8321, 0xc790), (0x742f, 0xad00),
  (0x3d35, 0xbc00), (0x46b8, 0xd574), (0x85ba, 0xc81c), (0x6c3f, 0xada4), (0x5f49, 0xd655),
  (0x7ec8, 0xc885), (0x824b, 0xb9f9), (0x7759, 0xb82c), (0x3c5f, 0xd53c), (0x41e2, 0xace0),
  (0x84e4, 0xb989), (0x6f69, 0xc774), (0x5e73, 0xd3c9), (0x79f2, 0xce58), (0x9d75, 0xd1a0),
  (0x9a06, 0xc8fc), (0x410c, 0xcca0), (0x658f, 0xb7c9), (0x9b9b, 0xc219), (0x341a, 0xc62c),
  (0x791c, 0xc5ec), (0x42a1, 0xb9cc), (0x35af, 0xb625), (0x562e, 0xb85c), (0x7ab1, 0xc870),
  (0x8738, 0xacac), (0x4e3e, 0xac70), (0x57c3, 0xc560), (0x80cd, 0xace0), (0x664e, 0xd64d),
  (0x4fd3, 0xacbd), (0x945a, 0xcc2c), (0x4360, 0xb9ac), (0x67e3, 0xc9c8), (0x8c6a, 0xd638),
  (0x95ef, 0xd2c8), (0x366e, 0xb2f5), (0x7b70, 0xc791), (0x5cf5, 0xd6a1), (0x8dff, 0xb3c4),
  (0x5082, 0xce58), (0x3907, 0xc624), (0x7e09, 0xc9c4), (0x818c, 0xcc99), (0x4892, 0xad50),
  (0x5b1b, 0xd604), (0x60a2, 0xb7c9), (0x8425, 0xc601), (0x732b, 0xbb18), (0x96ae, 0xc81c),
  (0x5db4, 0xc624), (0x6b3b, 0xd6cc), (0x8ebe, 0xbbf8), (0x75c4, 0xc790), (0x9947, 0xc5b4),
  (0x404d, 0xacb9), (0x6dd4, 0xce59), (0x52d6, 0xc6b1), (0x3b5b, 0xd30c), (0x785d, 0xcd08),
  (0x83e0, 0xd30c), (0x4ae6, 0xac11), (0x556f, 0xad35), (0x3df4, 0xb825), (0x62f6, 0xcc30),
  (0x8679, 0xd64d), (0x4d7f, 0xcca9), (0x3581, 0xb9b0), (0x5808, 0xac15), (0x648b, 0xc5f0),
  (0x9b0a, 0xc21c), (0x9697, 0xc678), (0x7018, 0xb85c), (0x391e, 0xd0c1), (0x43a5, 0xace1),
  (0x8ea7, 0xc0ac), (0x6828, 0xcc28), (0x34ab, 0xae30), (0x5f32, 0xd604), (0x7bb5, 0xc131),
  (0x9a34, 0xc548), (0x95c1, 0xd3ec), (0x7742, 0xbbf8), (0x3848, 0xbb38), (0x42cf, 0xc791),
  (0x8dd1, 0xd3ec), (0x6f52, 0xc0c1), (0x5e5c, 0xacbd), (0x7adf, 0xacbd), (0x995e, 0xcc38),
  (0x94eb, 0xc870), (0x766c, 0xc120), (0x3f72, 0xad50), (0x41f9, 0xade0), (0x8cfb, 0xbd80),
  (0x6e7c, 0xc5f4), (0x5d86, 0xc870), (0x9888, 0xacbd), (0x670d, 0xbcf5), (0x5617, 0xc0c1),
  (0x7596, 0xc808), (0x9119, 0xbe44), (0x3e9c, 0xb178), (0x4e27, 0xc0c1), (0x6da6, 0xc724),
  (0x8929, 0xbc18), (0x372d, 0xb2f9), (0x5cb0, 0xc720), (0x6637, 0xc628), (0x5541, 0xc870),
  (0x74c0, 0xc5f0), (0x9043, 0xc5b8), (0x3dc6, 0xbd80), (0x4d51, 0xb2d0), (0x6cd0, 0xb975),
  (0x8853, 0xc220), (0x3657, 0xc678), (0x53da, 0xac00), (0x9edc, 0xcd9c), (0x6561, 0xc774),
  (0x546b, 0xcca9), (0x4bea, 0xace0), (0x976d, 0xc778), (0x3cf0, 0xad6c), (0x4c7b, 0xd65c),
  (0x63fa, 0xc694), (0x8f7d, 0xc7ac), (0x5304, 0xac1c), (0x7f87, 0xae30), (0x800e, 0xc5f0),
  (0x4b14, 0xc720), (0x5099, 0xbe44), (0x81a3, 0xc9c8), (0x6324, 0xc81c), (0x48a9, 0xc5b4),
  (0x9d30, 0xad04), (0x4436, 0xc7a0), (0x60b9, 0xad00), (0x92c5, 0xc790), (0x7c46, 0xd655),
  (0x45cb, 0xbaa8), (0x8ad5, 0xd558), (0x5158, 0xc2dc), (0x7ddb, 0xc5f0), (0x8662, 0xad35),
  (0x4968, 0xb824), (0x56ed, 0xc644), (0x87f7, 0xb2f9), (0x6178, 0xc81c), (0x4efd, 0xbe48),
  (0x7401, 0xc120), (0x9384, 0xc560), (0x5a8a, 0xc804), (0x6c11, 0xbbfc), (0x8b94, 0xc740),
  (0x729a, 0xc704), (0x9e1d, 0xb9ac), (0x4123, 0xb3c5), (0x6aaa, 0xb825), (0x57ac, 0xd64d),
  (0x3c31, 0xc0bd), (0x7933, 0xb9c8), (0x84b6, 0xbd84), (0x4fbc, 0xbc1c), (0x5245, 0xb450),
  (0x3aca, 0xc758), (0x67cc, 0xc0ac), (0x834f, 0xc784), (0x4a55, 0xc559), (0x91d8, 0xc815),
  (0x58de, 0xad34), (0x6265, 0xb3c8), (0x89e8, 0xd63c), (0x37ec, 0xc218), (0x70ee, 0xb82c),
  (0x9c71, 0xb824), (0x4777, 0xc9c0), (0x68fe, 0xacbd), (0x5600, 0xc801), (0x7283, 0xbd80),
  (0x9502, 0xb9ac), (0x3b89, 0xd611), (0x4e10, 0xac1c), (0x6a93, 0xd6fc), (0x8d12, 0xd604),
  (0x3716, 0xc870), (0x5d9d, 0xb4f1), (0x989f, 0xb9cc), (0x6620, 0xc601), (0x75ad, 0xc885),
  (0x942c, 0xd68c), (0x3ab3, 0xb465), (0x413a, 0xc81c), (0x6dbd, 0xd63c), (0x8c3c, 0xd64d),
  (0x3640, 0xad6c), (0x5cc7, 0xd569), (0x9bc9, 0xb9ac), (0x794a, 0xd33d), (0x74d7, 0xd734),
  (0x9756, 0xc815), (0x3ddd, 0xb3cc), (0x4064, 0xc801), (0x6ce7, 0xc6d4), (0x8f66, 0xcc28),
  (0x5ff1, 0xce68), (0x9af3, 0xbb34), (0x7874, 0xd654), (0x9680, 0xc911), (0x7105, 0xace1),
  (0x438e, 0xb151), (0x8e90, 0xb835), (0x6915, 0xbe48), (0x581f, 0xc804), (0x7b9e, 0xad8c),
  (0x8721, 0xc0ac), (0x702f, 0xc601), (0x3935, 0xc790), (0x42b8, 0xc6b0), (0x81ba, 0xc751),
  (0x683f, 0xbcf5), (0x5b49, 0xad8c), (0x7ac8, 0xc870), (0x864b, 0xbb38), (0x7359, 0xd3d0),
  (0x385f, 0xc870), (0x45e2, 0xc870), (0x80e4, 0xc724), (0x6b69, 0xbcf4), (0x5a73, 0xd68d),
  (0x7df2, 0xbb18), (0x9975, 0xc774), (0x9e06, 0xc6b0), (0x450c, 0xace0), (0x618f, 0xc81c),
  (0x9f9b, 0xac10)]

/-- hanja/table.go:18441-18696 -/
def rawTable72 : List (Nat × Nat) := [
  (0x7d1c, 0xc6b4), (0x46a1, 0xc0c8), (0x522e, 0xad04), (0x7eb1, 0xc0ac), (0x8338, 0xc6a9),
  (0x4a3e, 0xbe44), (0x53c3, 0xcc38), (0x84cd, 0xc2dc), (0x624e, 0xcc30), (0x4bd3, 0xaddc),
  (0x905a, 0xcd94), (0x4760, 0xd658), (0x63e3, 0xcdcc), (0x886a, 0xc774), (0x91ef, 0xb9dd),
  (0x7f70, 0xbc8c), (0x58f5, 0xc7a5), (0x89ff, 0xd734), (0x5482, 0xc7a1), (0x3d07, 0xc12d),
  (0x7a09, 0xac31), (0x858c, 0xd5a5), (0x4c92, 0xd574), (0x5f1b, 0xc774), (0x64a2, 0xd0d0),
  (0x8025, 0xb2f9), (0x772b, 0xbbf8), (0x92ae, 0xb780), (0x59b4, 0xc6d0), (0x6f3b, 0xb958),
  (0x8abe, 0xc740), (0x34c2, 0xad6c), (0x71c4, 0xc5fc), (0x9d47, 0xb144), (0x444d, 0xc601),
  (0x69d4, 0xace0), (0x56d6, 0xb77c), (0x3f5b, 0xad6c), (0x7c5d, 0xc601), (0x87e0, 0xbc18),
  (0x4ee6, 0xcd08), (0x516f, 0xd55c), (0x39f4, 0xc544), (0x66f6, 0xd640), (0x8279, 0xcd08),
  (0x497f, 0xb824), (0x3981, 0xb828), (0x5408, 0xd569), (0x688b, 0xd604), (0x970a, 0xb839),
  (0x9a97, 0xd3b8), (0x7c18, 0xc18c), (0x351e, 0xad34), (0x4fa5, 0xc694), (0x82a7, 0xc11c),
  (0x6428, 0xd0d1), (0x38ab, 0xc0b0), (0x5332, 0xb834), (0x77b5, 0xb9b0), (0x9634, 0xc74c),
  (0x99c1, 0xbc15), (0x7b42, 0xc9c0), (0x3448, 0xb3d9), (0x4ecf, 0xbd88), (0x81d1, 0xb178),
  (0x6352, 0xc1a1), (0x525c, 0xc644), (0x76df, 0xb9f9), (0x955e, 0xc871), (0x98eb, 0xc5b4),
  (0x7a6c, 0xad11), (0x80fb, 0xd589), (0x627c, 0xc561), (0x3c03, 0xba74), (0x5186, 0xc5d4),
  (0x9488, 0xce68), (0x6b0d, 0xad6c), (0x5a17, 0xc815), (0x7996, 0xb9e4), (0x9d19, 0xce58),
  (0x4227, 0xc704), (0x61a6, 0xb85c), (0x8529, 0xc778), (0x3b2d, 0xc791), (0x50b0, 0xbd95),
  (0x93b2, 0xb2f9), (0x6a37, 0xcd1d), (0x5941, 0xb834), (0x78c0, 0xc561), (0x9c43, 0xcd94),
  (0x4151, 0xc720), (0x60d0, 0xcc3d), (0x8453, 0xd64d), (0x3a57, 0xd734), (0x5fda, 0xd61c),
  (0x92dc, 0xcc29), (0x6961, 0xc720), (0x586b, 0xc804), (0x47ea, 0xbc94), (0x9b6d, 0xc6d0),
  (0x407b, 0xc0ad), (0x6ffa, 0xcc9c), (0x837d, 0xc720), (0x3e85, 0xd6c4), (0x5f04, 0xb871),
  (0x7387, 0xc194), (0x8c0e, 0xd669), (0x4714, 0xc218), (0x5c99, 0xc624), (0x8da3, 0xcde8),
  (0x6f24, 0xb78c), (0x44a9, 0xd654), (0x9130, 0xb9b0), (0x4836, 0xc0ac), (0x6cb9, 0xc720),
  (0x9ec5, 0xae08), (0x3f44, 0xc0ac), (0x7046, 0xb78c), (0x49cb, 0xd604), (0x86d5, 0xd68c),
  (0x3cd9, 0xc5f0), (0x5d58, 0xc601), (0x71db, 0xacbd), (0x8a62, 0xc21c), (0x4568, 0xb4f1),
  (0x5aed, 0xd638), (0x8bf7, 0xccad), (0x6d78, 0xce68), (0x42fd, 0xbd09), (0x7801, 0xb9c8),
  (0x9f84, 0xb839), (0x568a, 0xbe44), (0x6011, 0xbc18), (0x8794, 0xc774), (0x3d98, 0xc810),
  (0x7e9a, 0xb9ac), (0x921d, 0xc74c), (0x4d23, 0xd638), (0x66aa, 0xbb38), (0x5bac, 0xc131),
  (0x7533, 0xc2e0), (0x88b6, 0xac15), (0x43bc, 0xb85d), (0x5e45, 0xd3ed), (0x36ca, 0xd0c0),
  (0x6bcc, 0xad00), (0x8f4f, 0xc794), (0x4655, 0xc885), (0x9dd8, 0xce59), (0x54de, 0xbaa8),
  (0x6e65, 0xb3cc), (0x85e8, 0xd45c), (0x3bec, 0xb834), (0x7cee, 0xd568), (0x9071, 0xb8e8),
  (0x4b77, 0xbaa8), (0x64fe, 0xc694), (0x5a00, 0xc735), (0x7e83, 0xc790), (0x9902, 0xcca8),
  (0x3789, 0xcc30), (0x4210, 0xad34), (0x6693, 0xbb34), (0x8112, 0xbbf8), (0x3b16, 0xacc4),
  (0x519d, 0xc758), (0x949f, 0xc885), (0x6a20, 0xb9cc), (0x79ad, 0xc218), (0x982c, 0xd611),
  (0x36b3, 0xc544), (0x4d3a, 0xbd80), (0x61bd, 0xc1a1), (0x803c, 0xb2f4), (0x3a40, 0xac70),
  (0x50c7, 0xb959), (0x97c9, 0xcc9c), (0x754a, 0xacbd), (0x78d7, 0xbd80), (0x9b56, 0xd5c8),
  (0x4c64, 0xd568), (0x60e7, 0xad6c), (0x8366, 0xb77d), (0x53f1, 0xc9c8), (0x96f3, 0xb825),
  (0x7474, 0xace1), (0x9a80, 0xd0dc), (0x7d05, 0xd64d), (0x4f8e, 0xbbf8), (0x8290, 0xd558),
  (0x6515, 0xc12c), (0x541f, 0xc74c), (0x779e, 0xb9cc), (0x8b21, 0xc694), (0x7c2f, 0xae30),
  (0x3535, 0xc120), (0x4eb8, 0xd0c0), (0x8dba, 0xbd80), (0x643f, 0xaca9), (0x5749, 0xb454),
  (0x76c8, 0xc601), (0x8a4b, 0xc8fc), (0x7f59, 0xbbf8), (0x345f, 0xd33d), (0x49e2, 0xad6c),
  (0x8ce4, 0xcc9c), (0x6769, 0xb9c8), (0x5673, 0xc6b0), (0x71f2, 0xd611), (0x9575, 0xcc38),
  (0x9206, 0xc5f0), (0x490c, 0xcc3d), (0x6d8f, 0xc815), (0x939b, 0xbc15), (0x3c1a, 0xb9ac),
  (0x711c, 0xd63c), (0x4aa1, 0xc81c), (0x3daf, 0xb958), (0x5e2e, 0xbc29), (0x72b1, 0xd658),
  (0x8f38, 0xc218), (0x463e, 0xad00), (0x5fc3, 0xc2ec), (0x88cd, 0xace4), (0x6e4e, 0xba74),
  (0x47d3, 0xc815), (0x9c5a, 0xd76c), (0x4b60, 0xacb8), (0x6fe3, 0xc54c), (0x846a, 0xacc4),
  (0x9def, 0xb8cc), (0x3e6e, 0xb9e5), (0x7370, 0xc601), (0x54f5, 0xd314), (0x85ff, 0xacfd),
  (0x5882, 0xd45c), (0x7609, 0xc720), (0x898c, 0xad00), (0x4092, 0xac08), (0x531b, 0xad6c),
  (0x68a2, 0xcd08), (0x8c25, 0xc775), (0x7b2b, 0xc790), (0x9eae, 0xac70), (0x55b4, 0xc704),
  (0x633b, 0xc5f0), (0x86be, 0xd30c), (0x38c2, 0xc5ed), (0x7dc4, 0xace4), (0x9147, 0xcc2c),
  (0x484d, 0xbd80), (0x65d4, 0xac74), (0x5ad6, 0xd45c), (0x705d, 0xd638), (0x8be0, 0xc804),
  (0x42e6, 0xbc88)]

/-- hanja/table.go:18697-18952 -/
def rawTable73 : List (Nat × Nat) := [
  (0x5d6f, 0xcc28), (0x35f4, 0xc548), (0x6af6, 0xd5cc), (0x8e79, 0xb2f5), (0x457f, 0xd55c),
  (0x3d81, 0xad35), (0x5008, 0xb798), (0x6c8b, 0xc6b0), (0x930a, 0xcd40), (0x9e97, 0xb824),
  (0x7818, 0xb3c8), (0x4ba5, 0xb825), (0x86a7, 0xac1c), (0x6028, 0xc6d0), (0x3cab, 0xbcf5),
  (0x5732, 0xcc9c), (0x73b5, 0xac10), (0x9234, 0xb839), (0x9dc1, 0xc775), (0x7f42, 0xc575),
  (0x4acf, 0xae30), (0x85d1, 0xacbd), (0x6752, 0xc778), (0x565c, 0xb85c), (0x72df, 0xd6e4),
  (0x915e, 0xd0dc), (0x9ceb, 0xc548), (0x7e6c, 0xc0c9), (0x3772, 0xce68), (0x49f9, 0xc751),
  (0x84fb, 0xc9d1), (0x667c, 0xc6d0), (0x3803, 0xc801), (0x5586, 0xcca0), (0x9088, 0xb9c9),
  (0x6f0d, 0xad35), (0x5e17, 0xbd88), (0x7d96, 0xc5f0), (0x9919, 0xd76c), (0x369c, 0xc5ed),
  (0x4627, 0xc559), (0x65a6, 0xc740), (0x8129, 0xc218), (0x3f2d, 0xc810), (0x54b0, 0xc21c),
  (0x97b2, 0xad6c), (0x6e37, 0xc5f0), (0x5d41, 0xac10), (0x7cc0, 0xd654), (0x9843, 0xb2f4),
  (0x35c6, 0xac1d), (0x4551, 0xc218), (0x64d0, 0xd658), (0x8053, 0xc11c), (0x3e57, 0xb3c4),
  (0x5bda, 0xbcf4), (0x96dc, 0xc7a1), (0x6d61, 0xbc1c), (0x5c6b, 0xad50), (0x43ea, 0xc774),
  (0x9f6d, 0xc18c), (0x34f0, 0xd68d), (0x447b, 0xc720), (0x6bfa, 0xc720), (0x877d, 0xcd98),
  (0x3a85, 0xacbd), (0x5b04, 0xc77c), (0x7787, 0xbbf8), (0x880e, 0xb9dd), (0x4314, 0xc6b0),
  (0x5899, 0xc7a5), (0x89a3, 0xc704), (0x6b24, 0xc5ec), (0x40a9, 0xc5f0), (0x9530, 0xb9f9),
  (0x4c36, 0xb9dd), (0x68b9, 0xbe48), (0x9ac5, 0xb8e8), (0x3b44, 0xc9c4), (0x7446, 0xc131),
  (0x82d5, 0xcd08), (0x38d9, 0xc801), (0x5958, 0xc7a5), (0x75db, 0xd1b5), (0x8e62, 0xcc99),
  (0x4168, 0xd5a5), (0x5eed, 0xc801), (0x8ff7, 0xbbf8), (0x6978, 0xcd94), (0x46fd, 0xc0bd),
  (0x7c01, 0xc0ac), (0x9b84, 0xbd88), (0x528a, 0xd68c), (0x6411, 0xc6a9), (0x8394, 0xb9f9),
  (0x3998, 0xaca9), (0x7a9a, 0xc131), (0x961d, 0xbd80), (0x4923, 0xd638), (0x62aa, 0xd3ec),
  (0x5fac, 0xbc29), (0x3431, 0xc9c4), (0x7133, 0xc791), (0x8cb6, 0xd3c4), (0x47bc, 0xcc2c),
  (0x5a45, 0xad6d), (0x6fcc, 0xb2f5), (0x8b4f, 0xae30), (0x4255, 0xc99d), (0x99d8, 0xd0dc),
  (0x50de, 0xc704), (0x6a65, 0xc800), (0x81e8, 0xb9bc), (0x3fec, 0xd30c), (0x78ee, 0xb95c),
  (0x9471, 0xcc38), (0x4f77, 0xd55c), (0x60fe, 0xc218), (0x5e00, 0xc7a1), (0x7a83, 0xc808),
  (0x9d02, 0xacb0), (0x4610, 0xb275), (0x6293, 0xc870), (0x8512, 0xd6c8), (0x3f16, 0xb9ac),
  (0x559d, 0xac08), (0x909f, 0xd56d), (0x6e20, 0xac70), (0x7dad, 0xc720), (0x9c2c, 0xac74),
  (0x493a, 0xadfc), (0x65bd, 0xc2dc), (0x843c, 0xc545), (0x3e40, 0xc790), (0x54c7, 0xc640),
  (0x93c9, 0xc218), (0x714a, 0xd6e4), (0x7cd7, 0xad6c), (0x9f56, 0xc544), (0x35dd, 0xace0),
  (0x4864, 0xc800), (0x64e7, 0xac70), (0x8766, 0xd558), (0x57f1, 0xc219), (0x92f3, 0xc8fc),
  (0x7074, 0xd64d), (0x9e80, 0xc6b0), (0x7905, 0xb3c8), (0x4b8e, 0xd76c), (0x8690, 0xade0),
  (0x6115, 0xc545), (0x501f, 0xcc28), (0x739e, 0xbd80), (0x8f21, 0xac10), (0x782f, 0xbe59),
  (0x4ab8, 0xbbfc), (0x89ba, 0xac01), (0x603f, 0xc5ed), (0x5349, 0xd6fc), (0x72c8, 0xd328),
  (0x8e4b, 0xb2f5), (0x7b59, 0xb8b0), (0x88e4, 0xace0), (0x6369, 0xb82c), (0x5273, 0xb2f5),
  (0x75f2, 0xb9c8), (0x9175, 0xd6a8), (0x9606, 0xb791), (0x4d0c, 0xbabd), (0x698f, 0xc775),
  (0x979b, 0xbd09), (0x381a, 0xb300), (0x751c, 0xcca8), (0x4ea1, 0xb9dd), (0x39af, 0xd639),
  (0x5a2e, 0xc5b8), (0x76b1, 0xcd94), (0x8b38, 0xc624), (0x423e, 0xcd08), (0x5bc3, 0xc6d0),
  (0x8ccd, 0xc7a5), (0x6a4e, 0xbc88), (0x43d3, 0xad00), (0x985a, 0xc804), (0x4f60, 0xb2c8),
  (0x6be3, 0xbaa9), (0x806a, 0xcd1d), (0x99ef, 0xc8fc), (0x3a6e, 0xac74), (0x7770, 0xb9d0),
  (0x50f5, 0xac15), (0x81ff, 0xc0bd), (0x5c82, 0xae30), (0x3507, 0xbc1c), (0x7209, 0xb78d),
  (0x8d8c, 0xae38), (0x4492, 0xc870), (0x571b, 0xc5ed), (0x6ca2, 0xd0dd), (0x8825, 0xc5bc),
  (0x7f2b, 0xc18c), (0x9aae, 0xc775), (0x51b4, 0xd638), (0x673b, 0xaddc), (0x82be, 0xbe44),
  (0x3cc2, 0xc5f0), (0x79c4, 0xc790), (0x9547, 0xc9c4), (0x4c4d, 0xae0d), (0x61d4, 0xb984),
  (0x5ed6, 0xb8cc), (0x375b, 0xc219), (0x745d, 0xd669), (0x8fe0, 0xcca9), (0x46e6, 0xc1a1),
  (0x596f, 0xd65c), (0x6ef6, 0xc624), (0x8a79, 0xcca8), (0x417f, 0xd654), (0x6c08, 0xc804),
  (0x508b, 0xac15), (0x938d, 0xc0c9), (0x350e, 0xc124), (0x4418, 0xac01), (0x871a, 0xbe44),
  (0x77a5, 0xbcc4), (0x5c28, 0xbc29), (0x9f2a, 0xc0dd), (0x6b32, 0xc695), (0x4fb5, 0xce68),
  (0x92b7, 0xc18c), (0x3438, 0xd760), (0x4342, 0xc6b0), (0x8644, 0xc0b4), (0x76cf, 0xc794),
  (0x5b52, 0xad90), (0x3fd5, 0xc5fc), (0x9e54, 0xc219), (0x6a5c, 0xad90), (0x4edf, 0xcc9c),
  (0x91e1, 0xbd80), (0x426c, 0xd3d0), (0x856e, 0xc11d), (0x75f9, 0xbe44), (0x5a7c, 0xc57c),
  (0x3eff, 0xcd09), (0x9d7e, 0xace4), (0x6986, 0xc720), (0x530d, 0xd3ec), (0x960f, 0xc54c),
  (0x6217, 0xcc3d), (0x4196, 0xad49), (0x8498, 0xb098), (0x7a27, 0xc124), (0x59a6, 0xbd09),
  (0x9ca8, 0xc0ac)]

/-- hanja/table.go:18953-19208 -/
def rawTable74 : List (Nat × Nat) := [
  (0x68b0, 0xacc4), (0x5237, 0xc1c4), (0x9539, 0xcd08), (0x6141, 0xd754), (0x40c0, 0xcc44),
  (0x83c2, 0xc801), (0x7951, 0xc9c8), (0x58d0, 0xc0c8), (0x9bd2, 0xc6a9), (0x67da, 0xc720),
  (0x5161, 0xbc31), (0x9463, 0xd45c), (0x606b, 0xd1b5), (0x7fea, 0xc885), (0x82ec, 0xc218),
  (0x787b, 0xac31), (0x57fa, 0xae30), (0x9afc, 0xbd09), (0x8081, 0xc870), (0x6704, 0xc778),
  (0x4b87, 0xc728), (0x9891, 0xbe48), (0x3a12, 0xaddc), (0x7f14, 0xccb4), (0x6499, 0xc900),
  (0x8c1e, 0xc11c), (0x5724, 0xbc15), (0x3ba7, 0xc624), (0x7ca9, 0xb178), (0x8db3, 0xc871),
  (0x7036, 0xb9bc), (0x54b9, 0xc54c), (0x8140, 0xb95c), (0x4846, 0xc6a9), (0x71cb, 0xcd08),
  (0x9950, 0xc758), (0x6558, 0xc11c), (0x49db, 0xbc29), (0x96e5, 0xc7a1), (0x3866, 0xbe48),
  (0x7d68, 0xc735), (0x62ed, 0xc2dd), (0x8a72, 0xd574), (0x5578, 0xc18c), (0x39fb, 0xd0c1),
  (0x7afd, 0xc6b0), (0x4001, 0xc720), (0x910b, 0xc218), (0x6e8a, 0xac00), (0x5811, 0xcc38),
  (0x469a, 0xc120), (0x7523, 0xc0b0), (0x97a4, 0xbc29), (0x5eaa, 0xae30), (0x822d, 0xbe44),
  (0x63ac, 0xad6d), (0x4d33, 0xd65c), (0x36ba, 0xc789), (0x9a3d, 0xc2b5), (0x7bbc, 0xc625),
  (0x6645, 0xd6e4), (0x88c6, 0xb2f9), (0x53cc, 0xc30d), (0x3d53, 0xc2dd), (0x7e55, 0xc120),
  (0x8f5f, 0xad49), (0x6cde, 0xc800), (0x5665, 0xb18d), (0x44ee, 0xbb34), (0x7377, 0xad11),
  (0x95f8, 0xac11), (0x5cfe, 0xc740), (0x6200, 0xb828), (0x4683, 0xc720), (0x8585, 0xd638),
  (0x7a10, 0xb95c), (0x5e93, 0xace0), (0x9d95, 0xc554), (0x699d, 0xc0b4), (0x5220, 0xc0b0),
  (0x36a3, 0xad50), (0x9122, 0xc5b8), (0x41ad, 0xd5cc), (0x84af, 0xad34), (0x753a, 0xc815),
  (0x59bd, 0xc2e0), (0x9cbf, 0xc0c1), (0x68c7, 0xcd1d), (0x4d4a, 0xb3c8), (0x904c, 0xc545),
  (0x40d7, 0xbc15), (0x87d9, 0xc9c1), (0x7464, 0xc694), (0x58e7, 0xc554), (0x3d6a, 0xc120),
  (0x6bf1, 0xad6d), (0x4c74, 0xae0d), (0x9376, 0xc1a1), (0x4505, 0xac00), (0x8807, 0xb824),
  (0x778e, 0xd560), (0x5d15, 0xc560), (0x3c94, 0xc120), (0x6c1f, 0xbd88), (0x4f9e, 0xc5ec),
  (0x92a0, 0xb85c), (0x3525, 0xd328), (0x442f, 0xb8b0), (0x8b31, 0xb8e8), (0x76b8, 0xad70),
  (0x5c3f, 0xb1e8), (0x3fbe, 0xd610), (0x6f49, 0xace4), (0x4ec8, 0xd314), (0x8dca, 0xb9e4),
  (0x344f, 0xc800), (0x4759, 0xcd94), (0x8a5b, 0xc800), (0x71e2, 0xd45c), (0x5f69, 0xcc44),
  (0x3ee8, 0xc644), (0x6e73, 0xb0a8), (0x49f2, 0xac04), (0x8cf4, 0xb8b0), (0x3779, 0xb204),
  (0x8e89, 0xb3c8), (0x710c, 0xc900), (0x558f, 0xc57c), (0x8216, 0xd3ec), (0x491c, 0xb454),
  (0x72a1, 0xb840), (0x9a26, 0xc0ac), (0x83ab, 0xb9c9), (0x662e, 0xc885), (0x4ab1, 0xac1c),
  (0x9bbb, 0xc0ac), (0x393c, 0xac81), (0x7e3e, 0xc801), (0x67c3, 0xb839), (0x8f48, 0xcd08),
  (0x564e, 0xc5f4), (0x3ad1, 0xc9c0), (0x7fd3, 0xd790), (0x88dd, 0xc7a5), (0x7360, 0xb8cc),
  (0x57e3, 0xc1c4), (0x4b70, 0xbd09), (0x6cf5, 0xbe59), (0x947a, 0xad6c), (0x8703, 0xc2e0),
  (0x6082, 0xbe44), (0x4e09, 0xc0bc), (0x3b90, 0xc131), (0x9f13, 0xace0), (0x7892, 0xc74c),
  (0x6b1b, 0xd30c), (0x899c, 0xc870), (0x50a2, 0xac00), (0x3e29, 0xc548), (0x432b, 0xb78c),
  (0x8c35, 0xc12c), (0x6db4, 0xc644), (0x5b3b, 0xb3c5), (0x45c4, 0xbd80), (0x704d, 0xad90),
  (0x96ce, 0xc800), (0x5dd4, 0xc804), (0x8157, 0xbe44), (0x62d6, 0xd0c0), (0x485d, 0xc6d0),
  (0x35e4, 0xcd95), (0x9967, 0xb2f9), (0x7ae6, 0xc1a1), (0x656f, 0xbbfc), (0x8bf0, 0xace0),
  (0x52f6, 0xcca0), (0x387d, 0xc870), (0x7d7f, 0xad6c), (0x6808, 0xc794), (0x548b, 0xc0ac),
  (0x978d, 0xc548), (0xfa14, 0xac70), (0x4018, 0xacc4), (0x831a, 0xc778), (0x73a5, 0xbaa8),
  (0x5828, 0xc54c), (0x9b2a, 0xd22c), (0x6f32, 0xcc3d), (0x4bb5, 0xb3d9), (0x96b7, 0xb840),
  (0x4742, 0xc218), (0x8244, 0xc18c), (0x72cf, 0xc774), (0x5f52, 0xadc0), (0x3bd5, 0xc11c),
  (0x9a54, 0xb2f4), (0x6e5c, 0xc2dd), (0x4adf, 0xc6b4), (0x95e1, 0xcc9c), (0x3762, 0xc6b0),
  (0x466c, 0xc601), (0x816e, 0xc2dc), (0x71f9, 0xd76c), (0x5e7c, 0xc720), (0x3aff, 0xc720),
  (0x997e, 0xb450), (0x6d86, 0xac04), (0x570d, 0xc704), (0x368c, 0xacfc), (0x920f, 0xc778),
  (0x6617, 0xce21), (0x4596, 0xd569), (0x8098, 0xc8fc), (0x7e27, 0xc870), (0x5da6, 0xcca8),
  (0x98a8, 0xd48d), (0x6cb0, 0xd0c1), (0x5637, 0xd638), (0x35b6, 0xc5f4), (0x9139, 0xcd94),
  (0x6541, 0xcca8), (0x44c0, 0xae38), (0x87c2, 0xad50), (0x7d51, 0xc8fc), (0x5cd0, 0xd574),
  (0x63da, 0xc591), (0x5561, 0xbc30), (0x34e0, 0xc810), (0x9063, 0xacac), (0x646b, 0xaddc),
  (0x7bea, 0xc9c0), (0x86ec, 0xacf5), (0x7c7b, 0xb958), (0x53fa, 0xcc99), (0x9efc, 0xbcf4),
  (0x8481, 0xc220), (0x6304, 0xd655), (0x4f87, 0xc774), (0x9c91, 0xd574), (0x3e12, 0xc74c),
  (0x7b14, 0xd544), (0x6099, 0xd615), (0x881e, 0xc808), (0x5324, 0xace1), (0x3fa7, 0xacfc),
  (0x78a9, 0xc11d), (0x89b3, 0xad00), (0x7436, 0xd30c), (0x50b9, 0xacbd), (0x8540, 0xadf9),
  (0x4c46, 0xc2b9), (0x75cb, 0xcda9), (0x9d50, 0xbb34), (0x6158, 0xcc38), (0x92e5, 0xc815),
  (0x3c66, 0xae30)]

/-- hanja/table.go:19209-19464 -/
def rawTable75 : List (Nat × Nat) := [
  (0x7968, 0xd45c), (0x66ed, 0xb2f9), (0x8e72, 0xc900), (0x5178, 0xc804), (0x3dfb, 0xbb34),
  (0x7efd, 0xd0c4), (0x4401, 0xb3c5), (0x950b, 0xbd09), (0x6a8a, 0xac04), (0x5c11, 0xc18c),
  (0x429a, 0xd1f4), (0x3421, 0xc720), (0x7123, 0xcd08), (0x93a4, 0xd669), (0x5aaa, 0xc624),
  (0x862d, 0xb780), (0x67ac, 0xb2e8), (0x4933, 0xc57c), (0x9e3d, 0xd569), (0x7fbc, 0xcc2c),
  (0x6245, 0xc774), (0x8cc6, 0xbcc0), (0x57cc, 0xb791), (0x3953, 0xae30), (0x7a55, 0xcca9),
  (0x8b5f, 0xc870), (0x68de, 0xace4), (0x5265, 0xbc15), (0x40ee, 0xb2ec), (0x7777, 0xac74),
  (0x91f8, 0xc11d), (0x58fe, 0xb9dd), (0x6600, 0xc724), (0x4283, 0xd328), (0x8185, 0xb2f9),
  (0x7e10, 0xcd94), (0x5a93, 0xd669), (0x9995, 0xc591), (0x6d9d, 0xb85c), (0x5620, 0xc54c),
  (0x9522, 0xace0), (0x45ad, 0xad8c), (0x80af, 0xae0d), (0x713a, 0xc2b9), (0x5dbd, 0xc545),
  (0x98bf, 0xbc94), (0x6cc7, 0xac00), (0x494a, 0xcc3d), (0x35cd, 0xc7ac), (0x944c, 0xbe48),
  (0x44d7, 0xcd1d), (0x83d9, 0xc218), (0x7064, 0xb780), (0x5ce7, 0xad50), (0x9be9, 0xb95c),
  (0x396a, 0xb8e8), (0x6ff1, 0xbe48), (0x4874, 0xcda9), (0x34f7, 0xc758), (0x9776, 0xd30c),
  (0x4105, 0xad8c), (0x8c07, 0xc218), (0x738e, 0xc815), (0x5915, 0xc11d), (0x3894, 0xc885),
  (0x681f, 0xbcd1), (0x4b9e, 0xc900), (0x96a0, 0xc740), (0x402f, 0xbcf4), (0x8f31, 0xd568),
  (0x72b8, 0xb9c8), (0x583f, 0xac10), (0x3bbe, 0xb791), (0x6b49, 0xacb8), (0x4ac8, 0xc7a0),
  (0x89ca, 0xae30), (0x4359, 0xb9e4), (0x8e5b, 0xb300), (0x75e2, 0xb9ac), (0x5b69, 0xd574),
  (0x3ae8, 0xc548), (0x6a73, 0xc2b9), (0x88f4, 0xbc30), (0x8a89, 0xc608), (0x750c, 0xad6c),
  (0x518f, 0xacbd), (0x8616, 0xc5bc), (0x4d1c, 0xd68c), (0x76a1, 0xd638), (0x9e26, 0xc544),
  (0x87ab, 0xc11d), (0x622e, 0xb959), (0x4eb1, 0xc57c), (0x3d3c, 0xc219), (0x7a3e, 0xace0),
  (0x63c3, 0xc804), (0x8b48, 0xb300), (0x524e, 0xcc30), (0x3ed1, 0xacc4), (0x7bd3, 0xb8e8),
  (0x8cdd, 0xce68), (0x7760, 0xad8c), (0x53e3, 0xad6c), (0x4f70, 0xbc31), (0x68f5, 0xacfc),
  (0x907a, 0xc720), (0x8303, 0xbc94), (0x6482, 0xb7b5), (0x4a09, 0xc575), (0x3f90, 0xb824),
  (0x9b13, 0xbe48), (0x7c92, 0xb9bd), (0x6f1b, 0xb4f1), (0x8d9c, 0xad6d), (0x54a2, 0xc545),
  (0x3a29, 0xcca9), (0x472b, 0xd64d), (0x8835, 0xd734), (0x69b4, 0xb958), (0x5f3b, 0xd544),
  (0x41c4, 0xd758), (0x374b, 0xb8cc), (0x744d, 0xd658), (0x92ce, 0xd658), (0x59d4, 0xc704),
  (0x8557, 0xb85c), (0x66d6, 0xc560), (0x4c5d, 0xd328), (0x9d67, 0xbcd1), (0x7ee6, 0xc870),
  (0x616f, 0xc0c1), (0x8ff0, 0xc220), (0x56f6, 0xad6d), (0x3c7d, 0xae08), (0x797f, 0xb85d),
  (0x6408, 0xc6a9), (0x588b, 0xcc38), (0x9b8d, 0xd53c), (0x3d0e, 0xb0b4), (0x4c18, 0xb958),
  (0x8f1a, 0xc794), (0x7fa5, 0xac04), (0x5428, 0xb454), (0x972a, 0xc74c), (0x6332, 0xc0ac),
  (0x47b5, 0xcca0), (0x9ab7, 0xace0), (0x3c38, 0xac10), (0x4b42, 0xc74d), (0x8e44, 0xc81c),
  (0x7ecf, 0xacbd), (0x5352, 0xc878), (0x37d5, 0xb450), (0x9654, 0xd574), (0x625c, 0xc6b0),
  (0x46df, 0xacb9), (0x99e1, 0xb9e4), (0x3b62, 0xd615), (0x4a6c, 0xbd09), (0x8d6e, 0xd558),
  (0x7df9, 0xc81c), (0x527c, 0xc0bc), (0x36ff, 0xb300), (0x957e, 0xbbf8), (0x6186, 0xb2f9),
  (0x5b0d, 0xbbf8), (0x3a8c, 0xd1b5), (0x9e0f, 0xbabd), (0x6a17, 0xc800), (0x4996, 0xd560),
  (0x8c98, 0xb9e5), (0x7227, 0xb839), (0x51a6, 0xad6c), (0x94a8, 0xc624), (0x60b0, 0xc885),
  (0x5a37, 0xc218), (0x39b6, 0xc6a9), (0x9d39, 0xc591), (0x6941, 0xaca9), (0x48c0, 0xada4),
  (0x8bc2, 0xace0), (0x7151, 0xc790), (0x50d0, 0xc120), (0x93d2, 0xc0bc), (0x6fda, 0xc601),
  (0x5961, 0xc624), (0x38e0, 0xb3d9), (0x9c63, 0xc804), (0x686b, 0xc0ac), (0x77ea, 0xc8fc),
  (0x8aec, 0xacc4), (0x707b, 0xc801), (0x5ffa, 0xd5d8), (0x92fc, 0xac15), (0x8881, 0xc6d0),
  (0x6f04, 0xc560), (0x4387, 0xc8fc), (0x9091, 0xc74d), (0x7714, 0xb2f5), (0x6c99, 0xc0ac),
  (0x841e, 0xbe44), (0x5f24, 0xc800), (0x74a9, 0xac70), (0x85b3, 0xc6d0), (0x7836, 0xbc15),
  (0x5cb9, 0xcd08), (0x8940, 0xc801), (0x4046, 0xc5c5), (0x79cb, 0xcd94), (0x9150, 0xd56d),
  (0x6d58, 0xbbf8), (0x41db, 0xc9c0), (0x9ee5, 0xacbd), (0x7568, 0xbc88), (0x6aed, 0xac78),
  (0x8272, 0xc0c9), (0x5d78, 0xc885), (0x72fd, 0xd328), (0x4801, 0xc81c), (0x990b, 0xad8c),
  (0x668a, 0xbd80), (0x5011, 0xbb38), (0x4e9a, 0xc544), (0x3821, 0xb1e8), (0x7d23, 0xcd5c),
  (0x9fa4, 0xd574), (0x56aa, 0xb2f4), (0x8a2d, 0xc124), (0x6bac, 0xb450), (0x4533, 0xc5f0),
  (0x3eba, 0xbaa8), (0x923d, 0xd3ec), (0x73bc, 0xc790), (0x6e45, 0xb828), (0x80c6, 0xb2e8),
  (0x5bcc, 0xbd80), (0x3553, 0xc804), (0x7655, 0xc639), (0x875f, 0xc704), (0x64de, 0xc218),
  (0x5e65, 0xc7a5), (0x4cee, 0xb9e5), (0x7b77, 0xcf8c), (0x9df8, 0xd73c), (0x54fe, 0xc124),
  (0x6a00, 0xc801), (0x4e83, 0xb9b0), (0x8d85, 0xcd08), (0x7210, 0xb85c), (0x5693, 0xcc30),
  (0x9595, 0xd558), (0x619d, 0xb300), (0x5a20, 0xc2e0), (0x3ea3, 0xd76c), (0x9922, 0xbd80),
  (0x49ad, 0xd5a5)]

/-- hanja/table.go:19465-19720 -/
def rawTable76 : List (Nat × Nat) := [
  (0x8caf, 0xc800), (0x7d3a, 0xac10), (0x51bd, 0xb82c), (0x94bf, 0xc804), (0x60c7, 0xb3c8),
  (0x454a, 0xb2e8), (0x39cd, 0xbc29), (0x984c, 0xc81c), (0x48d7, 0xace0), (0x8fd9, 0xc800),
  (0x7c64, 0xcca8), (0x50e7, 0xc2b9), (0x97e9, 0xd55c), (0x356a, 0xb2f4), (0x63f1, 0xc0ad),
  (0x4474, 0xae30), (0x38f7, 0xb155), (0x9b76, 0xb0a9), (0x4d05, 0xbd84), (0x8007, 0xad6c),
  (0x7f8e, 0xbbf8), (0x5515, 0xc870), (0x3494, 0xb3c5), (0x641f, 0xd5cc), (0x479e, 0xbd88),
  (0x9aa0, 0xd45c), (0x3d25, 0xcd08), (0x4c2f, 0xc758), (0x8331, 0xc218), (0x7eb8, 0xc9c0),
  (0x543f, 0xace0), (0x37be, 0xb2c8), (0x6749, 0xc0bc), (0x46c8, 0xc2dc), (0x85ca, 0xbcc0),
  (0x3c4f, 0xc815), (0x4f59, 0xc5ec), (0x825b, 0xb8e8), (0x79e2, 0xb839), (0x5769, 0xac10),
  (0x36e8, 0xac15), (0x6673, 0xc11d), (0x41f2, 0xd611), (0x84f4, 0xc21c), (0x3f79, 0xbc18),
  (0x8689, 0xbb38), (0x790c, 0xb8b0), (0x5d8f, 0xbc30), (0x8a16, 0xd758), (0x411c, 0xb9ac),
  (0x7aa1, 0xcd2c), (0x9226, 0xd0dc), (0x8bab, 0xd758), (0x6e2e, 0xac00), (0x42b1, 0xc12c),
  (0x93bb, 0xc1c4), (0x763e, 0xc740), (0x6fc3, 0xb18d), (0x8748, 0xad35), (0x5e4e, 0xba71),
  (0x77d3, 0xb8e1), (0x80dd, 0xc9c0), (0x7b60, 0xade0), (0x5fe3, 0xae09), (0x4370, 0xc778),
  (0x64f5, 0xb9c8), (0x9c7a, 0xb824), (0x8f03, 0xad50), (0x6882, 0xad6c), (0x4609, 0xc7a0),
  (0x9713, 0xc608), (0x7092, 0xcd08), (0x631b, 0xb828), (0x819c, 0xb9c9), (0x58a2, 0xbc1c),
  (0x3629, 0xbe44), (0x4b2b, 0xc81c), (0x8435, 0xc640), (0x65b4, 0xb9b0), (0x533b, 0xc758),
  (0x3b4b, 0xbc29), (0x784d, 0xac04), (0x9ece, 0xb824), (0x55d4, 0xc9c4), (0x8957, 0xd0c1),
  (0x6ad6, 0xb824), (0x405d, 0xc575), (0x3de4, 0xd639), (0x9167, 0xc218), (0x72e6, 0xc0b0),
  (0x6d6f, 0xc624), (0x83f0, 0xace0), (0x5af6, 0xcd08), (0x757f, 0xae30), (0x6008, 0xc608),
  (0x5c8b, 0xc555), (0x9f8d, 0xb8e1), (0x390e, 0xac00), (0x4818, 0xd3d0), (0x8b1a, 0xc775),
  (0x7ba5, 0xd30c), (0x5028, 0xac70), (0x932a, 0xc804), (0x6732, 0xc778), (0x43b5, 0xbe44),
  (0x9eb7, 0xd48d), (0x3838, 0xbd80), (0x4f42, 0xc815), (0x8a44, 0xc9c8), (0x7acf, 0xcc9c),
  (0x5752, 0xbe44), (0x9254, 0xc7a1), (0x665c, 0xace4), (0x42df, 0xae30), (0x9de1, 0xbb34),
  (0x3f62, 0xc554), (0x4e6c, 0xac78), (0x896e, 0xbc15), (0x79f9, 0xc784), (0x567c, 0xbcbd),
  (0x917e, 0xc2dc), (0x6586, 0xd6a8), (0x5f0d, 0xc774), (0x3e8c, 0xd610), (0x9a0f, 0xae30),
  (0x6e17, 0xc0bc), (0x4d96, 0xae08), (0x8898, 0xc774), (0x7627, 0xd559), (0x55a6, 0xb151),
  (0x90a8, 0xcd0c), (0x64b0, 0xcc2c), (0x5e37, 0xc720), (0x3db6, 0xb18d), (0x9939, 0xb2f9),
  (0x6d41, 0xb958), (0x4cc0, 0xc77c), (0x8fc2, 0xc6b0), (0x7551, 0xc804), (0x54d0, 0xad11),
  (0x97d2, 0xcd08), (0x6bda, 0xcc38), (0x5d61, 0xc639), (0x3ce0, 0xb2ec), (0x9863, 0xcd95),
  (0x6c6b, 0xc815), (0x73ea, 0xaddc), (0x8eec, 0xbd84), (0x747b, 0xace4), (0x5bfa, 0xc0ac),
  (0x96fc, 0xd0d5), (0x8c81, 0xc720), (0x6b04, 0xb780), (0x4787, 0xc9c0), (0x9491, 0xc0bd),
  (0x3612, 0xc53b), (0x7314, 0xc885), (0x6899, 0xd658), (0x801e, 0xac00), (0x5b24, 0xb9c8),
  (0x37a7, 0xd68c), (0x70a9, 0xb839), (0x81b3, 0xc120), (0x7c36, 0xb85d), (0x58b9, 0xac04),
  (0x8d40, 0xc790), (0x4446, 0xc591), (0x7dcb, 0xbe44), (0x9550, 0xd638), (0x6958, 0xbaa9),
  (0x45db, 0xc218), (0x9ae5, 0xc5fc), (0x3466, 0xb824), (0x7168, 0xc678), (0x6eed, 0xd544),
  (0x8672, 0xbcf5), (0x5978, 0xac04), (0x35fb, 0xacfc), (0x76fd, 0xbd09), (0x4c01, 0xbe44),
  (0x9d0b, 0xbc29), (0x628a, 0xd30c), (0x5411, 0xd5a5), (0x4a9a, 0xb2f5), (0x3c21, 0xd574),
  (0x7923, 0xb9d0), (0x9ba4, 0xb82c), (0x52aa, 0xb178), (0x8e2d, 0xc815), (0x6fac, 0xc790),
  (0x4133, 0xc120), (0x3aba, 0xad6c), (0x963d, 0xc810), (0x77bc, 0xac80), (0x6a45, 0xbaa8),
  (0x84c6, 0xc11d), (0x5fcc, 0xae30), (0x7255, 0xcc3d), (0x835f, 0xd68c), (0x60de, 0xd754),
  (0x5a65, 0xc791), (0x48ee, 0xbc1c), (0x7f77, 0xd30c), (0x99f8, 0xce68), (0x50fe, 0xc560),
  (0x6e00, 0xbd84), (0x4a83, 0xb3c8), (0x8985, 0xbb18), (0x7610, 0xc720), (0x5293, 0xc758),
  (0x9195, 0xc21c), (0x659d, 0xac00), (0x5e20, 0xc608), (0x3aa3, 0xace0), (0x9d22, 0xc694),
  (0x4dad, 0xc655), (0x88af, 0xbc1c), (0x793a, 0xc2dc), (0x55bd, 0xb8e8), (0x90bf, 0xc2dc),
  (0x64c7, 0xd0dd), (0x414a, 0xc885), (0x3dcd, 0xb95c), (0x9c4c, 0xc0c1), (0x4cd7, 0xc544),
  (0x8bd9, 0xd68c), (0x7864, 0xd611), (0x54e7, 0xd558), (0x93e9, 0xc810), (0x67f1, 0xc8fc),
  (0x4074, 0xc804), (0x3cf7, 0xd640), (0x9f76, 0xc545), (0x4905, 0xd22c), (0x8407, 0xc7a5),
  (0x7b8e, 0xd638), (0x5115, 0xc81c), (0x601f, 0xc81c), (0x439e, 0xc791), (0x9ea0, 0xacbd),
  (0x3925, 0xd574), (0x482f, 0xc57d), (0x8731, 0xbe44), (0x7ab8, 0xc2e4), (0x503f, 0xcca9),
  (0x6349, 0xcc29), (0x42c8, 0xb140), (0x81ca, 0xc870), (0x384f, 0xc720), (0x4b59, 0xce68),
  (0x865b, 0xd5c8), (0x7de2, 0xbb18), (0x5369, 0xc808), (0x6273, 0xbc18), (0x45f2, 0xb9b0),
  (0x80f4, 0xb3d9)]

/-- hanja/table.go:19721-19976 -/
def rawTable77 : List (Nat × Nat) := [
  (0x3b79, 0xd604), (0x8289, 0xac04), (0x7d0c, 0xad6c), (0x598f, 0xbb38), (0x8e16, 0xc801),
  (0x451c, 0xb2f4), (0x7ea1, 0xc6b0), (0x9626, 0xc591), (0x8fab, 0xbcc0), (0x6a2e, 0xc5f0),
  (0x46b1, 0xc2e0), (0x97bb, 0xb8e8), (0x353c, 0xc21c), (0x723e, 0xc774), (0x6bc3, 0xac01),
  (0x8348, 0xcc9c), (0x5a4e, 0xd734), (0x36d1, 0xcc2c), (0x73d3, 0xad50), (0x84dd, 0xb78c),
  (0x7f60, 0xbbfc), (0x5be3, 0xd640), (0x4770, 0xce58), (0x60f5, 0xcca9), (0x987a, 0xc21c),
  (0x8b03, 0xc131), (0x6c82, 0xae30), (0x4209, 0xc0bd), (0x3790, 0xac70), (0x9313, 0xad49),
  (0x7492, 0xb4f1), (0x671b, 0xb9dd), (0x859c, 0xbcbd), (0x5ca2, 0xac00), (0x4f2b, 0xc800),
  (0x8035, 0xc815), (0x61b4, 0xc2b9), (0x573b, 0xae30), (0x49c4, 0xac01), (0x3f4b, 0xb77c),
  (0x7c4d, 0xc801), (0x9ace, 0xb8cc), (0x51d4, 0xcc3d), (0x8d57, 0xbd09), (0x6ed6, 0xc218),
  (0x445d, 0xac00), (0x39e4, 0xcda9), (0x9567, 0xb780), (0x76e6, 0xc554), (0x696f, 0xc21c),
  (0x87f0, 0xc18c), (0x5ef6, 0xc5f0), (0x347d, 0xb2f9), (0x717f, 0xbc15), (0x7c08, 0xbcd1),
  (0x408b, 0xc720), (0x838d, 0xcd9c), (0x5418, 0xc6b0), (0x389b, 0xc5c4), (0x971a, 0xbb34),
  (0x67a5, 0xb825), (0x4c28, 0xb9e4), (0x8f2a, 0xb95c), (0x7b32, 0xbc88), (0x5fb5, 0xc9d5),
  (0x82b7, 0xc9c0), (0x5342, 0xc2e0), (0x37c5, 0xc559), (0x9644, 0xbd80), (0x66cf, 0xd5a5),
  (0x4b52, 0xc2dd), (0x8e54, 0xc7a0), (0x7a5c, 0xb3d9), (0x5edf, 0xbb18), (0x81e1, 0xb2c8),
  (0x526c, 0xb2e8), (0x36ef, 0xba74), (0x956e, 0xd658), (0x65f9, 0xc2dc), (0x4a7c, 0xbd09),
  (0x8d7e, 0xadfc), (0x7986, 0xbe44), (0x430d, 0xadfc), (0x860f, 0xacbd), (0x7217, 0xc5fd),
  (0x5196, 0xba71), (0x9498, 0xacac), (0x3b1d, 0xc1a1), (0x6a27, 0xc0b4), (0x49a6, 0xae08),
  (0x8ca8, 0xd654), (0x78b0, 0xd33d), (0x4237, 0xb77d), (0x8539, 0xb834), (0x7141, 0xc2ec),
  (0x50c0, 0xc81c), (0x93c2, 0xc6b0), (0x3a47, 0xd68d), (0x6951, 0xaddc), (0x48d0, 0xc601),
  (0x8bd2, 0xc774), (0x77da, 0xcd09), (0x4161, 0xc218), (0x8463, 0xb3d9), (0x706b, 0xd654),
  (0x6fea, 0xc815), (0x92ec, 0xbc18), (0x3971, 0xbe44), (0x687b, 0xbd09), (0x47fa, 0xd328),
  (0x8afc, 0xd6e4), (0x9081, 0xb9e4), (0x7704, 0xba74), (0x5b87, 0xc6b0), (0x8891, 0xc18c),
  (0x6f14, 0xc5f0), (0x7499, 0xb8cc), (0x9c1e, 0xc624), (0x4724, 0xacf5), (0x6ca9, 0xaddc),
  (0x9db3, 0xc0ac), (0x3f34, 0xc6b0), (0x6036, 0xd53c), (0x44b9, 0xb8b0), (0x9140, 0xc5f0),
  (0x5846, 0xb9cc), (0x3cc9, 0xc6d4), (0x61cb, 0xbb34), (0x8950, 0xc0c1), (0x7558, 0xb0a8),
  (0x59db, 0xb3d9), (0x86e5, 0xc124), (0x6d68, 0xb78c), (0x72ed, 0xd611), (0x9a72, 0xc77c),
  (0x4578, 0xd560), (0x6afd, 0xc740), (0x5001, 0xc9c0), (0x3d88, 0xc601), (0x810b, 0xd611),
  (0x7e8a, 0xad11), (0x4811, 0xaddc), (0x569a, 0xc740), (0x6523, 0xb828), (0x87a4, 0xc720),
  (0x4eaa, 0xb780), (0x922d, 0xc790), (0x73ac, 0xb2e8), (0x5d33, 0xc720), (0x8a3d, 0xad6c),
  (0x6bbc, 0xac01), (0x3543, 0xacc4), (0x7645, 0xb958), (0x98c6, 0xd45c), (0x43cc, 0xd758),
  (0x6e55, 0xac74), (0x3bdc, 0xcde8), (0x9f5f, 0xc800), (0x7cde, 0xbd84), (0x4665, 0xb839),
  (0x54ee, 0xd6a8), (0x3e75, 0xacbd), (0x6377, 0xcca9), (0x85f8, 0xc800), (0x4cfe, 0xb4f1),
  (0x7200, 0xd601), (0x5683, 0xd0d1), (0x9585, 0xbb38), (0x3b06, 0xbbfc), (0x6a10, 0xb85c),
  (0x4e93, 0xae30), (0x8d95, 0xac04), (0x799d, 0xc9c1), (0x4220, 0xc6d0), (0x8122, 0xb9e4),
  (0x51ad, 0xd0dc), (0x94af, 0xd30c), (0x3a30, 0xace4), (0x653a, 0xc774), (0x49bd, 0xc11c),
  (0x8cbf, 0xbb34), (0x78c7, 0xbe44), (0x5d4a, 0xc2b9), (0x804c, 0xc9c1), (0x50d7, 0xb85c),
  (0x97d9, 0xc704), (0x355a, 0xc870), (0x6464, 0xcc3d), (0x48e7, 0xc775), (0x8fe9, 0xc774),
  (0x7bf1, 0xb9ac), (0x5c74, 0xb825), (0x8376, 0xc74c), (0x5505, 0xd568), (0x3484, 0xc5f0),
  (0x9807, 0xc548), (0x678e, 0xbd80), (0x4d15, 0xb82c), (0x7c1f, 0xc810), (0x5f9e, 0xc885),
  (0x82a0, 0xbb38), (0x542f, 0xacc4), (0x37ae, 0xc704), (0x9b31, 0xc6b8), (0x66b8, 0xb8cc),
  (0x4c3f, 0xd0c0), (0x7f49, 0xc7a5), (0x5ec8, 0xd558), (0x9dca, 0xc5ed), (0x5759, 0xacbd),
  (0x36d8, 0xbc1c), (0x9a5b, 0xc5ed), (0x61e2, 0xb78c), (0x4f69, 0xd328), (0x7e73, 0xaca9),
  (0x59f2, 0xc548), (0x9cf4, 0xba85), (0x9e89, 0xacac), (0x3c0a, 0xc12c), (0x610c, 0xd658),
  (0x458f, 0xcc98), (0x9216, 0xbd84), (0x591c, 0xc57c), (0x3d9f, 0xb8e8), (0x62a1, 0xb95c),
  (0x8a26, 0xc6b0), (0x93ab, 0xb9d8), (0x762e, 0xcc38), (0x5ab1, 0xc694), (0x8bbb, 0xd749),
  (0x6e3e, 0xd63c), (0x77c3, 0xb155), (0x9f48, 0xb18d), (0x464e, 0xd61c), (0x6fd3, 0xb834),
  (0x98dd, 0xbe44), (0x3e5e, 0xc740), (0x6360, 0xbcd1), (0x47e3, 0xcd9c), (0x5b70, 0xc219),
  (0x3ff3, 0xce58), (0x7cf5, 0xc5bc), (0x847a, 0xc999), (0x9703, 0xce68), (0x7082, 0xc885),
  (0x5e09, 0xbd84), (0x8f13, 0xb9cc), (0x6892, 0xd568), (0x3619, 0xc554), (0x7b1b, 0xc801),
  (0x999c, 0xb2c8), (0x40a2, 0xb3d9), (0x532b, 0xd640), (0x38b2, 0xc190), (0x9c35, 0xbbfc),
  (0x7db4, 0xcca0)]

/-- hanja/table.go:19977-20232 -/
def rawTable78 : List (Nat × Nat) := [
  (0x4b3b, 0xc804), (0x55c4, 0xc0ac), (0x604d, 0xd669), (0x86ce, 0xb824), (0x9157, 0xd6c4),
  (0x72d6, 0xc720), (0x585d, 0xbc29), (0x8967, 0xce58), (0x6ae6, 0xacbd), (0x756f, 0xc900),
  (0x9bf0, 0xc5fc), (0x42f6, 0xc218), (0x6d7f, 0xd328), (0x7808, 0xb098), (0x448b, 0xc559),
  (0x878d, 0xc735), (0x5018, 0xb2f9), (0x3c9b, 0xc9c0), (0x931a, 0xc7c1), (0x63a5, 0xc811),
  (0x4828, 0xcca8), (0x8b2a, 0xc0c1), (0x7f32, 0xc870), (0x5bb5, 0xc18c), (0x86b7, 0xac70),
  (0x5742, 0xd310), (0x9244, 0xcca0), (0x62cf, 0xb77c), (0x4f52, 0xc559), (0x8a54, 0xc870),
  (0x7e5c, 0xc900), (0x5adf, 0xb2c9), (0x85e1, 0xc801), (0x566c, 0xc11c), (0x916e, 0xb3d9),
  (0x61f9, 0xc591), (0x4e7c, 0xc904), (0x897e, 0xc544), (0x7d86, 0xacbd), (0x470d, 0xb8cc),
  (0x820f, 0xad6c), (0x7617, 0xc608), (0x5596, 0xd638), (0x9098, 0xc6b0), (0x3f1d, 0xc644),
  (0x6e27, 0xc81c), (0x4da6, 0xcc45), (0x88a8, 0xd604), (0x7cb0, 0xbd80), (0x4637, 0xbcc4),
  (0x8139, 0xcc3d), (0x7541, 0xbe44), (0x54c0, 0xc560), (0x97c2, 0xcca8), (0x3e47, 0xac78),
  (0x6d51, 0xd63c), (0x4cd0, 0xcc28), (0x8fd2, 0xd56d), (0x73da, 0xc5f0), (0x4561, 0xb824),
  (0x8063, 0xc544), (0x746b, 0xb3c4), (0x6bea, 0xbaa8), (0x96ec, 0xbd80), (0x3d71, 0xd45c),
  (0x6c7b, 0xc624), (0x43fa, 0xbc29), (0x8efc, 0xc77c), (0x9481, 0xacfd), (0x3602, 0xc790),
  (0x7304, 0xacbd), (0x5f87, 0xc21c), (0x8c91, 0xac00), (0x6b14, 0xacfd), (0x3797, 0xad6c),
  (0x7099, 0xc790), (0x981e, 0xc54c), (0x4324, 0xc2dc), (0x68a9, 0xb9ac), (0x99b3, 0xce58),
  (0x3b34, 0xd64d), (0x6436, 0xcc3d), (0x40b9, 0xc0c9), (0x9540, 0xb3c4), (0x5c46, 0xacc4),
  (0x38c9, 0xacf5), (0x65cb, 0xc120), (0x8d50, 0xc0ac), (0x3456, 0xc911), (0x7158, 0xbd88),
  (0x5ddb, 0xcc9c), (0x82e5, 0xc57d), (0x6968, 0xc815), (0x35eb, 0xc808), (0x76ed, 0xb824),
  (0x9e72, 0xbabd), (0x4178, 0xc2e0), (0x6efd, 0xc6a9), (0x5401, 0xc6b0), (0x3988, 0xc560),
  (0x850b, 0xc801), (0x7a8a, 0xc640), (0x4c11, 0xc218), (0x529a, 0xcd09), (0x6123, 0xb989),
  (0x83a4, 0xc219), (0x4aaa, 0xac00), (0x962d, 0xc724), (0x77ac, 0xc21c), (0x5933, 0xd0dc),
  (0x8e3d, 0xc6b0), (0x6fbc, 0xbcbd), (0x7245, 0xc6a9), (0x9cc6, 0xbcf5), (0x47cc, 0xae38),
  (0x6a55, 0xd0f1), (0x3fdc, 0xbcc4), (0x9b5f, 0xd64d), (0x78de, 0xd33d), (0x4265, 0xcd1d),
  (0x50ee, 0xb3d9), (0x3a75, 0xc54c), (0x6777, 0xd30c), (0x81f8, 0xc9c4), (0x48fe, 0xba71),
  (0x7600, 0xc5b4), (0x5283, 0xd68d), (0x9185, 0xbc30), (0x3f06, 0xd615), (0x6e10, 0xc810),
  (0x4a93, 0xc811), (0x8995, 0xbcc4), (0x7d9d, 0xce68), (0x4620, 0xbc1c), (0x8522, 0xd30c),
  (0x55ad, 0xc5b8), (0x90af, 0xac10), (0x3e30, 0xd0c0), (0x613a, 0xcd08), (0x88bf, 0xaddc),
  (0x7cc7, 0xd6c4), (0x594a, 0xd608), (0x844c, 0xac04), (0x54d7, 0xd654), (0x93d9, 0xcd5c),
  (0x6064, 0xd73c), (0x4ce7, 0xd6c4), (0x8be9, 0xd6c4), (0x7ff1, 0xace0), (0x5874, 0xbd95),
  (0x8776, 0xc811), (0x5105, 0xb2f9), (0x9c07, 0xc720), (0x638e, 0xae30), (0x4915, 0xd559),
  (0x781f, 0xc0ac), (0x5b9e, 0xc2e4), (0x86a0, 0xbd84), (0x502f, 0xc1a1), (0x9f31, 0xc815),
  (0x62b8, 0xc7a1), (0x483f, 0xc678), (0x7b49, 0xb4f1), (0x5ac8, 0xc575), (0x99ca, 0xd30c),
  (0x5359, 0xc9d1), (0x9e5b, 0xbbf8), (0x65e2, 0xae30), (0x4b69, 0xb9c8), (0x7a73, 0xcc2c),
  (0x5df2, 0xc774), (0x98f4, 0xc774), (0x9a89, 0xd45c), (0x380a, 0xd5c8), (0x650c, 0xd658),
  (0x418f, 0xbe44), (0x9616, 0xd569), (0x5d1c, 0xd0c0), (0x399f, 0xb9e4), (0x66a1, 0xc639),
  (0x8e26, 0xae30), (0x97ab, 0xad6d), (0x352c, 0xd0c1), (0x722e, 0xd3ec), (0x5eb1, 0xb989),
  (0x8fbb, 0xc2ed), (0x6a3e, 0xc6d4), (0x36c1, 0xd3c9), (0x73c3, 0xc5fc), (0x9b48, 0xc18c),
  (0x424e, 0xb2f9), (0x6bd3, 0xc721), (0x9cdd, 0xc120), (0x3a5e, 0xcc45), (0x6760, 0xac15),
  (0x43e3, 0xc800), (0x5f70, 0xcc3d), (0x3bf3, 0xacbd), (0x78f5, 0xac04), (0x807a, 0xc808),
  (0x3780, 0xd68c), (0x9303, 0xd30c), (0x7482, 0xae30), (0x5a09, 0xbe59), (0x8b13, 0xc9c4),
  (0x6c92, 0xbab0), (0x7f1b, 0xc695), (0x9d9c, 0xbaa8), (0x44a2, 0xc559), (0x572b, 0xc624),
  (0x3cb2, 0xcca9), (0x9835, 0xad70), (0x79b4, 0xc57d), (0x4f3b, 0xd33d), (0x51c4, 0xcc98),
  (0x644d, 0xc219), (0x82ce, 0xc800), (0x49d4, 0xb150), (0x9557, 0xb2f9), (0x76d6, 0xac1c),
  (0x5c5d, 0xbe44), (0x8d67, 0xb09c), (0x6ee6, 0xb780), (0x346d, 0xbe44), (0x716f, 0xac1c),
  (0x46f6, 0xb8b0), (0x697f, 0xd5a5), (0x7408, 0xbd80), (0x488b, 0xae30), (0x8b8d, 0xc545),
  (0x5c18, 0xc9c4), (0x9f1a, 0xcc3d), (0x6fa5, 0xd574), (0x4428, 0xace1), (0x872a, 0xb3c4),
  (0x7332, 0xd638), (0x57b5, 0xc548), (0x8ab7, 0xb9dd), (0x5b42, 0xad50), (0x3fc5, 0xc120),
  (0x9e44, 0xace1), (0x6ecf, 0xbd80), (0x4352, 0xbd80), (0x8654, 0xac74), (0x725c, 0xc6b0),
  (0x56df, 0xc2e0), (0x89e1, 0xaca9), (0x5a6c, 0xc74c), (0x3eef, 0xb3c4), (0x9d6e, 0xac10),
  (0x6df9, 0xc5c4), (0x427c, 0xb8cc), (0x857e, 0xb8b0), (0x7186, 0xd569), (0x4b0d, 0xd640),
  (0x8e0f, 0xb2f5)]

/-- hanja/table.go:20233-20488 -/
def rawTable79 : List (Nat × Nat) := [
  (0x7a17, 0xd328), (0x5996, 0xc694), (0x9c98, 0xd6c4), (0x6227, 0xcc3d), (0x41a6, 0xb2f4),
  (0x84a8, 0xcc9c), (0x70b0, 0xd3ec), (0x4a37, 0xc0b0), (0x8d39, 0xbe44), (0x7941, 0xae30),
  (0x58c0, 0xbe44), (0x9bc2, 0xc18c), (0x6151, 0xc12d), (0x40d0, 0xb3cc), (0x83d2, 0xace0),
  (0x7fda, 0xd718), (0x4961, 0xcca9), (0x8c63, 0xacac), (0x786b, 0xb958), (0x67ea, 0xc694),
  (0x9aec, 0xbe44), (0x607b, 0xce21), (0x4ffa, 0xc5c4), (0x82fc, 0xc0dd), (0x9881, 0xbc18),
  (0x3a02, 0xb3d9), (0x7f04, 0xd568), (0x5387, 0xcc45), (0x8091, 0xc801), (0x6714, 0xc0ad),
  (0x3b97, 0xadfc), (0x7c99, 0xc8fc), (0x941e, 0xb204), (0x4f24, 0xc0c1), (0x64a9, 0xb8cc),
  (0x95b3, 0xcc9c), (0x3734, 0xbabd), (0x6836, 0xd575), (0x4cb9, 0xbe44), (0x9940, 0xb3c4),
  (0x5046, 0xc900), (0x34c9, 0xd65c), (0x69cb, 0xad6c), (0x8150, 0xbd80), (0x3856, 0xc885),
  (0x7d58, 0xcc28), (0x51db, 0xb984), (0x8ee5, 0xad6c), (0x6568, 0xd22c), (0x39eb, 0xc720),
  (0x7aed, 0xac08), (0x9272, 0xac00), (0x4d78, 0xcd94), (0x62fd, 0xc608), (0x5801, 0xacfc),
  (0x3588, 0xb188), (0x890b, 0xc811), (0x768a, 0xb839), (0x4011, 0xc54c), (0x5e9a, 0xacbd),
  (0x6d23, 0xbbf8), (0x8fa4, 0xc0ac), (0x46aa, 0xd658), (0x9a2d, 0xc990), (0x7bac, 0xc57d),
  (0x5533, 0xb824), (0x823d, 0xbc29), (0x63bc, 0xad00), (0x3d43, 0xc0ac), (0x7e45, 0xc18c),
  (0x90c6, 0xae38), (0x4bcc, 0xace0), (0x6655, 0xd6c8), (0x975f, 0xbe44), (0x74de, 0xc9c8),
  (0x4e65, 0xd640), (0x5cee, 0xade0), (0x3675, 0xb300), (0x6b77, 0xb825), (0x8df8, 0xd544),
  (0x44fe, 0xc0ac), (0x7a00, 0xd76c), (0x5e83, 0xad11), (0x9d85, 0xce58), (0x6210, 0xc131),
  (0x4693, 0xc2ec), (0x8595, 0xb834), (0x719d, 0xb85d), (0x4a20, 0xc560), (0x8922, 0xd68c),
  (0x59ad, 0xbc1c), (0x9caf, 0xae30), (0x6d3a, 0xba85), (0x41bd, 0xac70), (0x84bf, 0xd638),
  (0x70c7, 0xc804), (0x554a, 0xc544), (0x884c, 0xd589), (0x58d7, 0xc9c4), (0x3d5a, 0xbd80),
  (0x6c64, 0xd0d5), (0x40e7, 0xb96d), (0x87e9, 0xad90), (0x73f1, 0xb8b0), (0x5474, 0xad6c),
  (0x8b76, 0xb2f5), (0x5d05, 0xac01), (0x3c84, 0xad6c), (0x9007, 0xb3c8), (0x6f8e, 0xd33d),
  (0x4515, 0xd3ec), (0x741f, 0xc720), (0x579e, 0xd0c0), (0x8aa0, 0xc131), (0x5c2f, 0xadc0),
  (0x3fae, 0xd669), (0x9331, 0xc9c4), (0x6eb8, 0xc18c), (0x443f, 0xc624), (0x7749, 0xc88c),
  (0x56c8, 0xc608), (0x95ca, 0xd65c), (0x5f59, 0xd718), (0x3ed8, 0xbcc0), (0x925b, 0xc5f0),
  (0x69e2, 0xc2b5), (0x4769, 0xc9c4), (0x7673, 0xb8e8), (0x51f2, 0xac10), (0x94f4, 0xd0d5),
  (0x9689, 0xc5bc), (0x340a, 0xc0b4), (0x690c, 0xac15), (0x4d8f, 0xccb4), (0x9a16, 0xbb34),
  (0x511c, 0xb155), (0x359f, 0xc218), (0x6aa1, 0xc11d), (0x8226, 0xd0dc), (0x9bab, 0xad50),
  (0x392c, 0xc5d0), (0x7e2e, 0xcd95), (0x52b1, 0xb824), (0x83bb, 0xb2a6), (0x663e, 0xd604),
  (0x3ac1, 0xb2e8), (0x7fc3, 0xad49), (0x9748, 0xb839), (0x4e4e, 0xd638), (0x67d3, 0xc5fc),
  (0x90dd, 0xd559), (0x365e, 0xc5bc), (0x6b60, 0xcca0), (0x4fe3, 0xc624), (0x5370, 0xc778),
  (0x37f3, 0xb960), (0x74f5, 0xc774), (0x8c7a, 0xc2dc), (0x3b80, 0xac10), (0x9f03, 0xc640),
  (0x7882, 0xc885), (0x5609, 0xac00), (0x8713, 0xc815), (0x6092, 0xc74d), (0x3e19, 0xcc28),
  (0x731b, 0xb9f9), (0x919c, 0xcd94), (0x48a2, 0xcc3d), (0x5b2b, 0xc601), (0x9435, 0xcca0),
  (0x75b4, 0xc544), (0x433b, 0xc775), (0x5dc4, 0xb871), (0x684d, 0xace0), (0x8ece, 0xc138),
  (0x45d4, 0xd6c4), (0x9957, 0xd5a5), (0x7ad6, 0xc218), (0x505d, 0xbc30), (0x8167, 0xc218),
  (0x62e6, 0xb780), (0x386d, 0xacc4), (0x7d6f, 0xd574), (0x93f0, 0xbd95), (0x4af6, 0xbc88),
  (0x657f, 0xad50), (0x7008, 0xd718), (0x4c8b, 0xc7a0), (0x8f8d, 0xcca0), (0x5818, 0xc2b9),
  (0x349b, 0xc870), (0x9b1a, 0xc218), (0x6ba5, 0xc778), (0x4028, 0xd65c), (0x832a, 0xad11),
  (0x7732, 0xc774), (0x53b5, 0xc6d0), (0x8eb7, 0xc65c), (0x5f42, 0xbc1c), (0x3bc5, 0xd53c),
  (0x9a44, 0xcd1d), (0x6acf, 0xcc9c), (0x4752, 0xcd94), (0x8254, 0xb3c4), (0x765c, 0xc804),
  (0x52df, 0xbaa8), (0x8de1, 0xc801), (0x5e6c, 0xc8fc), (0x3aef, 0xbb35), (0x996e, 0xc74c),
  (0x69f9, 0xace0), (0x467c, 0xc18c), (0x817e, 0xb4f1), (0x7586, 0xac15), (0x4f0d, 0xc624),
  (0x8a0f, 0xc6b0), (0x7e17, 0xcd5c), (0x5d96, 0xc5c4), (0x9898, 0xc81c), (0x371d, 0xc554),
  (0x6627, 0xb9e4), (0x45a6, 0xad74), (0x80a8, 0xbc29), (0x74b0, 0xd658), (0x4e37, 0xd558),
  (0x8939, 0xc608), (0x7d41, 0xc2dc), (0x5cc0, 0xc218), (0x3647, 0xcd09), (0x6551, 0xad6c),
  (0x44d0, 0xc21c), (0x87d2, 0xb9dd), (0x7bda, 0xbe44), (0x4d61, 0xacac), (0x8863, 0xc758),
  (0x7c6b, 0xcc2c), (0x63ea, 0xcd94), (0x9eec, 0xc554), (0x3571, 0xc6b0), (0x647b, 0xc12c),
  (0x4bfa, 0xad04), (0x86fc, 0xcc28), (0x9c81, 0xb85c), (0x3e02, 0xc218), (0x7b04, 0xacc4),
  (0x5787, 0xc694), (0x8491, 0xc740), (0x6314, 0xb824), (0x3f97, 0xb7c9), (0x7899, 0xac15),
  (0x901e, 0xb839), (0x4b24, 0xcc2c), (0x60a9, 0xb1cc), (0x91b3, 0xc5ed), (0x6c36, 0xc2b9),
  (0x48b9, 0xac70)]

/-- hanja/table.go:20489-20744 -/
def rawTable80 : List (Nat × Nat) := [
  (0x9d40, 0xc784), (0x5446, 0xb9e4), (0x6dcb, 0xb9bc), (0x8550, 0xd654), (0x3c56, 0xcde8),
  (0x7958, 0xc0b0), (0x55db, 0xacb8), (0x8ae5, 0xc885), (0x6168, 0xac1c), (0x3deb, 0xacbd),
  (0x7eed, 0xc18d), (0x9672, 0xc218), (0x4978, 0xbbf8), (0x66fd, 0xc99d), (0x5c01, 0xbd09),
  (0x8d0b, 0xc548), (0x728a, 0xb3c5), (0x4411, 0xc811), (0x5a9a, 0xbbf8), (0x6923, 0xc804),
  (0x8ba4, 0xc778), (0x42aa, 0xb824), (0x9e2d, 0xc555), (0x7fac, 0xacb8), (0x5133, 0xcc38),
  (0x863d, 0xb958), (0x67bc, 0xc5fd), (0x3943, 0xbbfc), (0x7a45, 0xac15), (0x94c6, 0xb958),
  (0x4fcc, 0xbcf4), (0x6255, 0xbd88), (0x37dc, 0xbbf8), (0x935f, 0xc131), (0x70de, 0xbc15),
  (0x4a65, 0xb2e8), (0x58ee, 0xc7a5), (0x6f77, 0xd544), (0x89f8, 0xcd09), (0x40fe, 0xbe44),
  (0x7e00, 0xd558), (0x5a83, 0xc720), (0x9985, 0xd568), (0x3706, 0xbbf8), (0x6610, 0xbd84),
  (0x4293, 0xc2dc), (0x8195, 0xad35), (0x759d, 0xc0b0), (0x4e20, 0xad6c), (0x8d22, 0xc7ac),
  (0x5dad, 0xc54c), (0x98af, 0xc0bd), (0x3630, 0xc9d0), (0x693a, 0xbcf4), (0x45bd, 0xb9ac),
  (0x80bf, 0xc885), (0x74c7, 0xc720), (0x514a, 0xd0dc), (0x8c4c, 0xc644), (0x5cd7, 0xc704),
  (0x9bd9, 0xc21c), (0x395a, 0xc720), (0x6864, 0xae30), (0x44e7, 0xadf9), (0x83e9, 0xbcf4),
  (0x77f1, 0xd655), (0x5074, 0xce21), (0x8f76, 0xc77c), (0x5905, 0xac15), (0x3884, 0xb450),
  (0x9407, 0xbc88), (0x6b8e, 0xacb9), (0x4115, 0xc0ac), (0x701f, 0xc18c), (0x539e, 0xbe44),
  (0x8ea0, 0xc124), (0x582f, 0xc694), (0x3bae, 0xacb0), (0x9731, 0xd73c), (0x6ab8, 0xb155),
  (0x403f, 0xce58), (0x7349, 0xc9c4), (0x52c8, 0xc6a9), (0x91ca, 0xc11d), (0x5b59, 0xc190),
  (0x3ad8, 0xbc00), (0x965b, 0xd3d0), (0x6de2, 0xc5ed), (0x4369, 0xc591), (0x7273, 0xbb34),
  (0x55f2, 0xb2e4), (0x90f4, 0xce68), (0x9289, 0xc728), (0x6d0c, 0xb82c), (0x498f, 0xd574),
  (0x9e16, 0xd559), (0x551c, 0xb9d0), (0x6ea1, 0xc2dc), (0x8626, 0xb839), (0x3d2c, 0xc0ac),
  (0x7a2e, 0xc885), (0x56b1, 0xd76c), (0x87bb, 0xb8e8), (0x623e, 0xb824), (0x3ec1, 0xad34),
  (0x7bc3, 0xbbf8), (0x9348, 0xc601), (0x4a4e, 0xac80), (0x63d3, 0xc2dc), (0x94dd, 0xb824),
  (0x6f60, 0xc190), (0x4be3, 0xad34), (0x5770, 0xacbd), (0x70f5, 0xc791), (0x887a, 0xc0ac),
  (0x3f80, 0xac81), (0x9b03, 0xc885), (0x7c82, 0xad6c), (0x5209, 0xae30), (0x8313, 0xd608),
  (0x6492, 0xc0b4), (0x3a19, 0xd61c), (0x771b, 0xb9e4), (0x959c, 0xd558), (0x4ca2, 0xb4f1),
  (0x5f2b, 0xc9c4), (0x34b2, 0xc7ac), (0x9035, 0xaddc), (0x71b4, 0xace4), (0x473b, 0xc2dc),
  (0x59c4, 0xbbfc), (0x6c4d, 0xd658), (0x8ace, 0xcc45), (0x41d4, 0xb77c), (0x9d57, 0xd76c),
  (0x7ed6, 0xc9c8), (0x545d, 0xc561), (0x8567, 0xbcf5), (0x66e6, 0xd76c), (0x3c6d, 0xb2e8),
  (0x796f, 0xc815), (0x97f0, 0xd574), (0x4ef6, 0xac74), (0x617f, 0xbe59), (0x8c08, 0xb2f4),
  (0x4f0a, 0xc774), (0x738d, 0xac00), (0x4297, 0xd669), (0x671a, 0xd669), (0x97a5, 0xc555),
  (0x3624, 0xc644), (0x5aa7, 0xc65c), (0x7f2a, 0xbb34), (0x8b32, 0xcc38), (0x4e34, 0xc784),
  (0x72b7, 0xad11), (0x41c1, 0xc0ac), (0x6644, 0xd669), (0x96cf, 0xcd94), (0x354e, 0xc555),
  (0x59d1, 0xace0), (0x7e54, 0xc9c1), (0x8a5c, 0xb3c4), (0x4d5e, 0xacbd), (0x71e1, 0xc5ed),
  (0x40eb, 0xb2f4), (0x656e, 0xd569), (0x95f9, 0xb1e8), (0x3478, 0xc694), (0x58fb, 0xc11c),
  (0x7d7e, 0xc131), (0x8986, 0xbcf5), (0x4c88, 0xb9c8), (0x760f, 0xb3c4), (0x8217, 0xd3ec),
  (0x4519, 0xc870), (0x6498, 0xd0d1), (0x9a27, 0xc65c), (0x5d29, 0xbd95), (0x7ca8, 0xbc31),
  (0x88b0, 0xbb34), (0x4bb2, 0xd669), (0x7539, 0xbcd1), (0x8141, 0xbcc0), (0x4443, 0xbabd),
  (0x63c2, 0xcd94), (0x9951, 0xae30), (0x5c53, 0xd76c), (0x7bd2, 0xc2dd), (0x87da, 0xd33d),
  (0x4adc, 0xc694), (0x7463, 0xc1c4), (0x806b, 0xb828), (0x436d, 0xc7a5), (0x62ec, 0xad04),
  (0x987b, 0xc218), (0x5b7d, 0xc5bc), (0x7afc, 0xbd09), (0x6081, 0xc5f0), (0x8704, 0xc9c4),
  (0x540e, 0xd6c4), (0x7891, 0xbe44), (0x3d93, 0xc7a5), (0x9f14, 0xace0), (0x8499, 0xbabd),
  (0x6c1e, 0xbcd1), (0x55a3, 0xd6c4), (0x9ca9, 0xd658), (0x4930, 0xd615), (0x6db3, 0xacf5),
  (0x9036, 0xc704), (0x6140, 0xd574), (0x46c5, 0xd569), (0x91cb, 0xc11d), (0x7950, 0xc6b0),
  (0x3a52, 0xae08), (0x5ed5, 0xc74c), (0x8558, 0xc694), (0x5262, 0xd0c1), (0x76e5, 0xad00),
  (0x3be7, 0xcd08), (0x9d68, 0xc11c), (0x82ed, 0xc694), (0x6a72, 0xd76c), (0x53f7, 0xd638),
  (0x9afd, 0xc88c), (0x4784, 0xd45c), (0x710b, 0xc7a5), (0x8e8a, 0xc8fc), (0x5f94, 0xc885),
  (0x4a1d, 0xccad), (0x9523, 0xb77c), (0x77a4, 0xc21c), (0x38a6, 0xac00), (0x622d, 0xc778),
  (0x83ac, 0xba74), (0x50b6, 0xcc99), (0x7a3d, 0xacc4), (0x9bbc, 0xce68), (0x3f3f, 0xb3d9),
  (0x8645, 0xb4f1), (0x68c6, 0xb95c), (0x574f, 0xbc30), (0x9e55, 0xd638), (0x45d8, 0xac11),
  (0x6f5f, 0xc11d), (0x8cde, 0xc0c1), (0x5de8, 0xac70), (0x4871, 0xc804), (0x9377, 0xaddc),
  (0x75f8, 0xccb4), (0x36fa, 0xc554), (0x8200, 0xc694), (0x4102, 0xb958), (0x6585, 0xd6a8),
  (0x348f, 0xd55c)]

/-- hanja/table.go:20745-21000 -/
def rawTable81 : List (Nat × Nat) := [
  (0x9a10, 0xd5d8), (0x5912, 0xb178), (0x7d95, 0xc9c0), (0x899d, 0xb834), (0x4c9f, 0xc778),
  (0x7122, 0xd64d), (0x402c, 0xc804), (0x64af, 0xcc29), (0x37b9, 0xac00), (0x953a, 0xc885),
  (0x583c, 0xd589), (0x7cbf, 0xacfc), (0x88c7, 0xd608), (0x4fc9, 0xc624), (0x704c, 0xad00),
  (0x4356, 0xd3ec), (0x67d9, 0xd569), (0x36e3, 0xc6b4), (0x9464, 0xd3ec), (0x5b66, 0xd559),
  (0x7fe9, 0xd3b8), (0x8bf1, 0xc720), (0x4ef3, 0xbe44), (0x7376, 0xc6b0), (0x4280, 0xd638),
  (0x6807, 0xd45c), (0x978e, 0xd754), (0x3b11, 0xd655), (0x5a90, 0xc774), (0x8c1f, 0xbaa8),
  (0x5321, 0xad11), (0x72a0, 0xd76c), (0x3daa, 0xbc30), (0x6b31, 0xd569), (0x96b8, 0xb840),
  (0x3a3b, 0xcc38), (0x55ba, 0xacc4), (0x8f49, 0xc804), (0x524b, 0xadf9), (0x6dca, 0xd568),
  (0x3cd4, 0xb300), (0x6a5b, 0xad90), (0x91e2, 0xb0b4), (0x3565, 0xc774), (0x54e4, 0xbc29),
  (0x8e73, 0xbc1c), (0x4d75, 0xcd2c), (0x6cf4, 0xad00), (0x3ffe, 0xc800), (0x4a06, 0xbcc4),
  (0x6e89, 0xac1c), (0x910c, 0xb2f9), (0x6216, 0xd639), (0x4b9b, 0xbd80), (0x92a1, 0xae38),
  (0x7a26, 0xc758), (0x3f28, 0xd568), (0x63ab, 0xcd94), (0x862e, 0xacc4), (0x5738, 0xc0b0),
  (0x7bbb, 0xb960), (0x38bd, 0xc774), (0x9e3e, 0xb780), (0x87c3, 0xb9cc), (0x6f48, 0xcd1d),
  (0x50cd, 0xb3d9), (0x445a, 0xcca8), (0x68dd, 0xace0), (0x9360, 0xad49), (0x5c6a, 0xb8cc),
  (0x45ef, 0xc9c4), (0x8cf5, 0xbd09), (0x747a, 0xc0c1), (0x397c, 0xc740), (0x5dff, 0xbd88),
  (0x6703, 0xd68c), (0x8082, 0xc0ac), (0x518c, 0xcc45), (0x7f13, 0xc644), (0x9892, 0xd68c),
  (0x3c15, 0xd76c), (0x8b1b, 0xac15), (0x699c, 0xbc29), (0x5425, 0xbd80), (0x46ae, 0xc789),
  (0x6c35, 0xc218), (0x8db4, 0xd30c), (0x5ebe, 0xc720), (0x4947, 0xc0bc), (0x904d, 0xd3b8),
  (0x76ce, 0xc559), (0x3bd0, 0xd0c0), (0x6157, 0xce59), (0x82d6, 0xc801), (0x53e0, 0xcca9),
  (0x7967, 0xc870), (0x9ae6, 0xbaa8), (0x3e69, 0xacbd), (0x856f, 0xb96d), (0x6bf0, 0xbc30),
  (0x5679, 0xb2f9), (0x9d7f, 0xc2b9), (0x8808, 0xc801), (0x4b0a, 0xc0bd), (0x778d, 0xc218),
  (0x4697, 0xac15), (0x631a, 0xc9c0), (0x93a5, 0xc870), (0x5ea7, 0xc88c), (0x7b2a, 0xb2ec),
  (0x8f32, 0xcc9c), (0x4a34, 0xb300), (0x76b7, 0xace0), (0x45c1, 0xae30), (0x6244, 0xc0c1),
  (0x92cf, 0xd611), (0x5dd1, 0xcc2c), (0x7a54, 0xd669), (0x8e5c, 0xcd95), (0x495e, 0xad50),
  (0x75e1, 0xbd80), (0x44eb, 0xae30), (0x616e, 0xb824), (0x91f9, 0xb140), (0x5cfb, 0xc900),
  (0x797e, 0xb989), (0x8d86, 0xc800), (0x4888, 0xd68c), (0x720f, 0xb825), (0x8617, 0xbcbd),
  (0x4119, 0xba85), (0x6098, 0xc608), (0x37a2, 0xc9c0), (0x9e27, 0xcc3d), (0x5929, 0xcc9c),
  (0x78a8, 0xc678), (0x8cb0, 0xc138), (0x4fb2, 0xc9c4), (0x7139, 0xb9dd), (0x8541, 0xb2f4),
  (0x4043, 0xd45c), (0x67c2, 0xc774), (0x36cc, 0xbaa8), (0x9d51, 0xacac), (0x5853, 0xba71),
  (0x7fd2, 0xc2b5), (0x83da, 0xc794), (0x4edc, 0xd64d), (0x7063, 0xb9cc), (0x846b, 0xd638),
  (0x9bea, 0xb989), (0x476d, 0xad6c), (0x66ec, 0xc1c4), (0x35f6, 0xbc1c), (0x9c7b, 0xc120),
  (0x5f7d, 0xc9c0), (0x7efc, 0xc885), (0x6481, 0xacac), (0x8304, 0xac00), (0x500e, 0xc804),
  (0x7c91, 0xd30c), (0x3993, 0xc5f0), (0x9b14, 0xbd09), (0x8099, 0xc5f0), (0x681e, 0xac04),
  (0x3520, 0xd560), (0x51a3, 0xcde8), (0x98a9, 0xd45c), (0x4d30, 0xc18d), (0x69b3, 0xc815),
  (0x9436, 0xd658), (0x6540, 0xbc15), (0x42c5, 0xc6b0), (0x95cb, 0xacb0), (0x7d50, 0xacb0),
  (0x3e52, 0xbc15), (0x5ad5, 0xc608), (0x8158, 0xad35), (0x5662, 0xc624), (0x72e5, 0xc21c),
  (0x3fe7, 0xc8fc), (0x9968, 0xb3c8), (0x86ed, 0xc9c8), (0x6e72, 0xc6d0), (0x57f7, 0xc9d1),
  (0x9efd, 0xbbfc), (0x4384, 0xcd08), (0x750b, 0xc801), (0x8a8a, 0xb4f1), (0x360d, 0xc9c8),
  (0x5b94, 0xc8fc), (0x4e1d, 0xc0ac), (0x9123, 0xc7a5), (0x73a4, 0xbc29), (0x3ca6, 0xd55c),
  (0x662d, 0xc18c), (0x87ac, 0xc870), (0x54b6, 0xc2dc), (0x7e3d, 0xcd1d), (0x3b3f, 0xb3c8),
  (0x8245, 0xc5ec), (0x6cc6, 0xc77c), (0x534f, 0xd611), (0x9a55, 0xad50), (0x41d8, 0xd638),
  (0x6b5f, 0xc5ec), (0x88de, 0xc138), (0x3461, 0xc989), (0x59e8, 0xc774), (0x4c71, 0xc81c),
  (0x9777, 0xc778), (0x71f8, 0xc720), (0x8600, 0xd0c1), (0x4502, 0xc790), (0x6185, 0xd1b5),
  (0x9e10, 0xc801), (0x5d12, 0xc904), (0x7995, 0xc758), (0x8d9d, 0xacb8), (0x489f, 0xc720),
  (0x7522, 0xc0b0), (0x442c, 0xc870), (0x60af, 0xbbfc), (0x913a, 0xad11), (0x5c3c, 0xb2c8),
  (0x78bf, 0xc194), (0x8cc7, 0xc790), (0x4bc9, 0xc54c), (0x744c, 0xc5f0), (0x4756, 0xc870),
  (0x63d9, 0xd3b8), (0x9064, 0xd72d), (0x5f66, 0xc5b8), (0x7be9, 0xc0ac), (0x8ff1, 0xc774),
  (0x4af3, 0xb3c5), (0x7776, 0xcd98), (0x4680, 0xce68), (0x6c07, 0xb85c), (0x938e, 0xac1c),
  (0x3f11, 0xb828), (0x5e90, 0xb824), (0x881f, 0xb78d), (0x5721, 0xd1a0), (0x76a0, 0xcd5c),
  (0x39aa, 0xc12d), (0x6f31, 0xc218), (0x92b8, 0xc12d), (0x3e3b, 0xc0ac), (0x51ba, 0xbbfc),
  (0x8b49, 0xc99d), (0x564b, 0xd1a4), (0x69ca, 0xc0ad), (0x38d4, 0xc815), (0x6e5b, 0xb2f4),
  (0x95e2, 0xbcbd)]

/-- hanja/table.go:21001-21256 -/
def rawTable82 : List (Nat × Nat) := [
  (0x50e4, 0xd0c4), (0x8a73, 0xc0c1), (0x4975, 0xd6a8), (0x68f4, 0xbcf5), (0x3bfe, 0xc870),
  (0x4e06, 0xba74), (0x6a89, 0xc815), (0x378b, 0xc9c1), (0x950c, 0xc790), (0x6616, 0xc5f0),
  (0x4f9b, 0xacf5), (0x96a1, 0xc0b0), (0x7e26, 0xc885), (0x3b28, 0xd601), (0x67ab, 0xd48d),
  (0x822e, 0xd638), (0x5338, 0xd61c), (0x7fbb, 0xc559), (0x3cbd, 0xc778), (0x9a3e, 0xb77c),
  (0x83c3, 0xac70), (0x6b48, 0xc720), (0x54cd, 0xd5a5), (0x9bd3, 0xc2e0), (0x405a, 0xc190),
  (0x6cdd, 0xc18c), (0x9760, 0xace0), (0x586a, 0xac10), (0x41ef, 0xc6a9), (0x88f5, 0xbc30),
  (0x707a, 0xc0ac), (0x3d7c, 0xc0ac), (0x59ff, 0xc790), (0x6303, 0xc9c8), (0x8482, 0xccb4),
  (0x558c, 0xc8fc), (0x7b13, 0xbe44), (0x9c92, 0xae38), (0x3815, 0xc678), (0x8f1b, 0xb7c9),
  (0x6d9c, 0xb3c5), (0x5025, 0xacf5), (0x42ae, 0xc801), (0x6835, 0xb82c), (0x89b4, 0xb4f1),
  (0x3537, 0xb8e8), (0x5abe, 0xad6c), (0x4d47, 0xc0bc), (0x944d, 0xc601), (0x72ce, 0xc555),
  (0x3fd0, 0xce58), (0x6557, 0xd328), (0x86d6, 0xbc29), (0x57e0, 0xbd80), (0x7d67, 0xb3d9),
  (0x9ee6, 0xc6b8), (0x3a69, 0xacbd), (0x816f, 0xb3cc), (0x6ff0, 0xc720), (0x5279, 0xb959),
  (0x997f, 0xc544), (0x8408, 0xd658), (0x470a, 0xc870), (0x7b8d, 0xace0), (0x4a97, 0xd558),
  (0x6f1a, 0xad6c), (0x9fa5, 0xc720), (0x3e24, 0xd3b8), (0x52a7, 0xc9c0), (0x772a, 0xbcd1),
  (0x8332, 0xc790), (0x4634, 0xc885), (0x7ab7, 0xb8cc), (0x49c1, 0xd6c4), (0x6e44, 0xbbf8),
  (0x9ecf, 0xc810), (0x3d4e, 0xac04), (0x51d1, 0xc8fc), (0x7654, 0xc5b5), (0x825c, 0xb300),
  (0x455e, 0xb791), (0x79e1, 0xbc1c), (0x48eb, 0xb9ac), (0x6d6e, 0xbd80), (0x9df9, 0xc751),
  (0x3c78, 0xbcbd), (0x50fb, 0xbcbd), (0x757e, 0xb8b0), (0x8186, 0xc18c), (0x4488, 0xbe44),
  (0x7e0f, 0xbc18), (0x8a17, 0xd0c1), (0x4d19, 0xbcbd), (0x6c98, 0xbe44), (0x3ba2, 0xd6c4),
  (0x9227, 0xd56d), (0x5529, 0xc640), (0x74a8, 0xcc2c), (0x80b0, 0xc5f0), (0x43b2, 0xc744),
  (0x7d39, 0xc18c), (0x8941, 0xac15), (0x4c43, 0xc9c8), (0x6bc2, 0xace1), (0x3acc, 0xc815),
  (0x9151, 0xc6b0), (0x5453, 0xc608), (0x73d2, 0xc9c4), (0x8fda, 0xc911), (0x42dc, 0xacc4),
  (0x7c63, 0xb780), (0x886b, 0xc0bc), (0x97ea, 0xc704), (0x4b6d, 0xc218), (0x6aec, 0xce5c),
  (0x39f6, 0xac31), (0x907b, 0xc624), (0x537d, 0xc989), (0x72fc, 0xb791), (0x6881, 0xb7c9),
  (0x8f04, 0xad11), (0x5c0e, 0xb3c4), (0x7091, 0xbaa9), (0x3593, 0xd64d), (0x9714, 0xc8fc),
  (0x8c99, 0xcd94), (0x641e, 0xace0), (0x3920, 0xb82c), (0x5da3, 0xcd08), (0x94a9, 0xad6c),
  (0x4130, 0xc544), (0x65b3, 0xadfc), (0x9836, 0xd639), (0x6940, 0xc6b0), (0x4ec5, 0xbd80),
  (0x99cb, 0xc870), (0x7150, 0xc601), (0x56d5, 0xb78c), (0x8d58, 0xcdcc), (0x5a62, 0xbe44),
  (0x7ee5, 0xc218), (0x9568, 0xbcf4), (0x8aed, 0xc720), (0x6272, 0xae08), (0x5bf7, 0xd48d),
  (0x92fd, 0xc870), (0x4f84, 0xc9c8), (0x790b, 0xd0dd), (0x868a, 0xbb38), (0x3a0d, 0xbc29),
  (0x5794, 0xc778), (0x421d, 0xc11c), (0x9d23, 0xace0), (0x7fa4, 0xad70), (0x6a2d, 0xae30),
  (0x8bac, 0xd0c1), (0x58b6, 0xb2ec), (0x723d, 0xc0c1), (0x93bc, 0xd558), (0x373f, 0xc11c),
  (0x8e45, 0xc0ac), (0x60c6, 0xcd94), (0x5f4f, 0xd655), (0x9655, 0xd569), (0x675f, 0xc18d),
  (0x84de, 0xb3c4), (0x3861, 0xc8fc), (0x55e8, 0xd574), (0x4071, 0xc6b0), (0x9b77, 0xc6b0),
  (0x7df8, 0xc778), (0x3efa, 0xb825), (0x8a00, 0xc5b8), (0x4902, 0xb9e4), (0x6d85, 0xc5f4),
  (0x3c8f, 0xd45c), (0x9210, 0xac80), (0x5112, 0xc720), (0x7595, 0xbe44), (0x819d, 0xc2ac),
  (0x449f, 0xb2e8), (0x7922, 0xc591), (0x482c, 0xb4f1), (0x6caf, 0xc11d), (0x3fb9, 0xc0ac),
  (0x9d3a, 0xc81c), (0x503c, 0xce58), (0x74bf, 0xc120), (0x80c7, 0xd544), (0x47c9, 0xcd09),
  (0x784c, 0xb77d), (0x4b56, 0xc800), (0x6fd9, 0xc601), (0x3ee3, 0xc2ec), (0x9c64, 0xac10),
  (0x5366, 0xad18), (0x77e9, 0xad6c), (0x83f1, 0xb989), (0x46f3, 0xc5c4), (0x7b76, 0xace0),
  (0x4a80, 0xad00), (0x6007, 0xac70), (0x9f8e, 0xb871), (0x5290, 0xd655), (0x841f, 0xd658),
  (0x5b21, 0xc560), (0x7aa0, 0xacfc), (0x35aa, 0xd68d), (0x6331, 0xc0ac), (0x9eb8, 0xbd80),
  (0x5dba, 0xb839), (0x8749, 0xc120), (0x5a4b, 0xd6a8), (0x65ca, 0xbc29), (0x34d4, 0xc0ac),
  (0x625b, 0xac15), (0x99e2, 0xbcc0), (0x3d65, 0xbc00), (0x5ce4, 0xad50), (0x8673, 0xad74),
  (0x4575, 0xd608), (0x64f4, 0xd655), (0x37fe, 0xc6a9), (0x4206, 0xb300), (0x6689, 0xd718),
  (0x3b8b, 0xc6b1), (0x990c, 0xc774), (0x6a16, 0xac00), (0x439b, 0xae30), (0x9aa1, 0xb77c),
  (0x7226, 0xb78c), (0x3728, 0xb0b4), (0x6bab, 0xd0c4), (0x8e2e, 0xc810), (0x5f38, 0xbd95),
  (0x73bb, 0xd30c), (0x963e, 0xb839), (0x8fc3, 0xc624), (0x6748, 0xcc28), (0x58cd, 0xcc38),
  (0x97d3, 0xd55c), (0x4c5a, 0xb85d), (0x60dd, 0xcc3d), (0x9b60, 0xd0c1), (0x546a, 0xc8fc),
  (0x84f5, 0xcca9), (0x7c7a, 0xd758), (0x55ff, 0xd0d0), (0x6f03, 0xc801), (0x8882, 0xba8c),
  (0x598c, 0xc815), (0x7713, 0xd65c), (0x9092, 0xc815), (0x3415, 0xc728), (0x831b, 0xac04),
  (0x619c, 0xd0c0)]

/-- hanja/table.go:21257-21512 -/
def rawTable83 : List (Nat × Nat) := [
  (0x5c25, 0xb8cc), (0x4eae, 0xb7c9), (0x6435, 0xc628), (0x85b4, 0xb155), (0x3937, 0xd568),
  (0x56be, 0xd6e4), (0x4147, 0xc18d), (0x984d, 0xc561), (0x7ece, 0xc5ed), (0x6957, 0xac74),
  (0x8ad6, 0xb860), (0x5be0, 0xad6c), (0x7167, 0xc870), (0x92e6, 0xad6d), (0x3669, 0xb8cc),
  (0x8d6f, 0xb2f9), (0x63f0, 0xcda9), (0x5e79, 0xac04), (0x957f, 0xc7a5), (0x8008, 0xad6c),
  (0x430a, 0xc694), (0x7f8d, 0xb2ec), (0x4e97, 0xc138), (0x6b1a, 0xb840), (0x9ba5, 0xb77d),
  (0x3a24, 0xd68c), (0x56a7, 0xb85c), (0x732a, 0xc800), (0x8732, 0xc704), (0x4234, 0xacb8),
  (0x7eb7, 0xbd84), (0x6a44, 0xac10), (0x9acf, 0xb8e8), (0x394e, 0xb9ac), (0x55d1, 0xd569),
  (0x7254, 0xbc15), (0x865c, 0xb85c), (0x415e, 0xb291), (0x7de1, 0xbbfc), (0x4ceb, 0xaddc),
  (0x696e, 0xc800), (0x99f9, 0xbc29), (0x3878, 0xc0ac), (0x54fb, 0xd55c), (0x717e, 0xc740),
  (0x8586, 0xc560), (0x4088, 0xb3d9), (0x7a0f, 0xc544), (0x8e17, 0xb150), (0x4919, 0xb825),
  (0x6898, 0xacac), (0x3fa2, 0xb798), (0x9627, 0xb450), (0x5129, 0xc0ac), (0x70a8, 0xd0c0),
  (0x84b0, 0xbc18), (0x47b2, 0xc6d4), (0x7939, 0xc554), (0x8d41, 0xc784), (0x4843, 0xb960),
  (0x6fc2, 0xb834), (0x3ecc, 0xb3c4), (0x9551, 0xbc29), (0x5053, 0xc545), (0x77d2, 0xbabd),
  (0x8bda, 0xc131), (0x46dc, 0xc2e0), (0x7863, 0xd6a8), (0x8c6b, 0xc608), (0x93ea, 0xc870),
  (0x4f6d, 0xd56d), (0x6eec, 0xd638), (0x3df6, 0xbcbd), (0x947b, 0xbc18), (0x577d, 0xb839),
  (0x76fc, 0xbc18), (0x6c81, 0xc2ec), (0x8b04, 0xb4f1), (0x580e, 0xb989), (0x7491, 0xbb34),
  (0x9314, 0xd0d1), (0x8899, 0xd30c), (0x601e, 0xc8fc), (0x3d20, 0xd568), (0x59a3, 0xbe44),
  (0x90a9, 0xd654), (0x4530, 0xbd80), (0x61b3, 0xc2ec), (0x9c36, 0xc81c), (0x6d40, 0xace1),
  (0x4ac5, 0xc0bc), (0x9dcb, 0xb3c4), (0x7550, 0xbcf5), (0x3652, 0xc57c), (0x52d5, 0xb3d9),
  (0x8958, 0xad34), (0x5e62, 0xb2f9), (0x7ae5, 0xb3d9), (0x37e7, 0xc545), (0x9168, 0xc7ac),
  (0x8eed, 0xad11), (0x6672, 0xc608), (0x5ff7, 0xd749), (0x96fd, 0xd638), (0x4b84, 0xd604),
  (0x7d0b, 0xbb38), (0x828a, 0xcc9c), (0x3e0d, 0xd76c), (0x5394, 0xc9c8), (0x461d, 0xc775),
  (0x9923, 0xc5c5), (0x7ba4, 0xc878), (0x34a6, 0xb8b0), (0x6e2d, 0xc704), (0x8fac, 0xbc18),
  (0x5cb6, 0xbc31), (0x763d, 0xadfc), (0x97bc, 0xada4), (0x8a45, 0xb839), (0x64c6, 0xcc29),
  (0x5b4f, 0xb780), (0x9255, 0xd30c), (0x49d8, 0xc804), (0x635f, 0xc190), (0x80de, 0xd3ec),
  (0x3c61, 0xc2b9), (0x51e8, 0xd48d), (0x4471, 0xc6d0), (0x9f77, 0xc545), (0x79f8, 0xac08),
  (0x3afa, 0xc11d), (0x8e00, 0xcd09), (0x4d02, 0xc0c1), (0x6985, 0xc628), (0x388f, 0xd22c),
  (0x9610, 0xcc9c), (0x5512, 0xc8fc), (0x7195, 0xacf5), (0x859d, 0xb2f4), (0x409f, 0xac00),
  (0x7d22, 0xc0c9), (0x4c2c, 0xade4), (0x68af, 0xc81c), (0x3bb9, 0xce58), (0x993a, 0xbc15),
  (0x543c, 0xd6c4), (0x70bf, 0xc8fc), (0x84c7, 0xace8), (0x43c9, 0xc2b5), (0x7c4c, 0xc8fc),
  (0x4f56, 0xd544), (0x6bd9, 0xd3d0), (0x3ae3, 0xbbfc), (0x9864, 0xd6a8), (0x5766, 0xd0c4),
  (0x73e9, 0xd615), (0x87f1, 0xbaa8), (0x42f3, 0xbc30), (0x7f76, 0xb958), (0x4e80, 0xad6c),
  (0x6407, 0xae08), (0x9b8e, 0xc810), (0x3711, 0xd30c), (0x5690, 0xc0c1), (0x801f, 0xac70),
  (0x5f21, 0xad74), (0x7ea0, 0xaddc), (0x6731, 0xc8fc), (0x9ab8, 0xd574), (0x363b, 0xc778),
  (0x59ba, 0xb9d0), (0x8349, 0xcd08), (0x5e4b, 0xbc18), (0x61ca, 0xc624), (0x665b, 0xd604),
  (0x9de2, 0xad90), (0x3965, 0xc6b0), (0x58e4, 0xc591), (0x8273, 0xc5fc), (0x4175, 0xc791),
  (0x60f4, 0xcdcc), (0x4606, 0xd5cc), (0x6289, 0xacb0), (0x3f8b, 0xb958), (0x9d0c, 0xbd09),
  (0x6e16, 0xc2ec), (0x479b, 0xc624), (0x9ea1, 0xc81c), (0x7626, 0xc218), (0x6fab, 0xb9cc),
  (0x8a2e, 0xd604), (0x5b38, 0xc2ec), (0x77bb, 0xcca8), (0x34bd, 0xad8c), (0x923e, 0xc720),
  (0x8bc3, 0xac00), (0x6348, 0xb3c4), (0x5ccd, 0xb960), (0x93d3, 0xcd1d), (0x485a, 0xbaa8),
  (0x64dd, 0xb9f9), (0x9f60, 0xcd08), (0x506a, 0xd54d), (0x49ef, 0xcc38), (0x80f5, 0xce58),
  (0x787a, 0xd0c1), (0x357c, 0xd749), (0x51ff, 0xcc29), (0x6b03, 0xcc38), (0x8c82, 0xcd08),
  (0x5d8c, 0xb3c4), (0x7313, 0xacfc), (0x9492, 0xbc94), (0x871b, 0xac70), (0x659c, 0xc0ac),
  (0x5825, 0xbb34), (0x4aae, 0xcd94), (0x6035, 0xcd9c), (0x81b4, 0xbb34), (0x3d37, 0xd0d0),
  (0x52be, 0xd575), (0x4547, 0xd68c), (0x9c4d, 0xbc1c), (0x7ace, 0xbd80), (0x37d0, 0xb9dd),
  (0x6d57, 0xad6c), (0x8ed6, 0xad11), (0x5fe0, 0xcda9), (0x7567, 0xb7b5), (0x96e6, 0xc9d1),
  (0x896f, 0xce5c), (0x67f0, 0xb0b4), (0x5a79, 0xc694), (0x917f, 0xc591), (0x3a87, 0xc120),
  (0x9c08, 0xc811), (0x5f0a, 0xd3d0), (0x638d, 0xd63c), (0x5297, 0xcc2c), (0x771a, 0xc0dd),
  (0x87a5, 0xcc3d), (0x4aa7, 0xc9c0), (0x6f2a, 0xc758), (0x39b1, 0xc544), (0x9b32, 0xaca9),
  (0x5e34, 0xc804), (0x62b7, 0xbe44), (0x51c1, 0xc218), (0x7644, 0xcd08), (0x86cf, 0xc815),
  (0x49d1, 0xc81c), (0x6e54, 0xc804), (0x38db, 0xd68c), (0x9a5c, 0xc5c5), (0x5d5e, 0xb3c4),
  (0x61e1, 0xb9c8)]

/-- hanja/table.go:21513-21768 -/
def rawTable84 : List (Nat × Nat) := [
  (0x50eb, 0xc545), (0x756e, 0xbb34), (0x85f9, 0xc560), (0x48fb, 0xd568), (0x6d7e, 0xc801),
  (0x9986, 0xad00), (0x3d09, 0xc81c), (0x5c88, 0xd558), (0x660f, 0xd63c), (0x9217, 0xc724),
  (0x5519, 0xc801), (0x7498, 0xb9b0), (0x8a27, 0xc6b0), (0x4d29, 0xd45c), (0x6ca8, 0xd48d),
  (0x98b0, 0xd0dc), (0x3c33, 0xc544), (0x5bb2, 0xd3ec), (0x6539, 0xac1c), (0x9141, 0xcc38),
  (0x5443, 0xc560), (0x73c2, 0xac00), (0x8951, 0xc2ec), (0x4c53, 0xc815), (0x6bd2, 0xb3c5),
  (0x97da, 0xc704), (0x3b5d, 0xad6c), (0x5adc, 0xc7a5), (0x6463, 0xc0ac), (0x906b, 0xce59),
  (0x8fea, 0xc801), (0x536d, 0xacf5), (0x72ec, 0xb3c5), (0x887b, 0xc5fc), (0x4b7d, 0xad70),
  (0x6afc, 0xcca8), (0x7081, 0xae30), (0x3583, 0xd6c4), (0x9704, 0xc18c), (0x440e, 0xc81c),
  (0x6891, 0xc801), (0x8f14, 0xbcf4), (0x9499, 0xac1c), (0x7c1e, 0xb2e8), (0x45a3, 0xc870),
  (0x8ca9, 0xd310), (0x5930, 0xd638), (0x7db3, 0xbd95), (0x3eb5, 0xad6c), (0x8036, 0xc57c),
  (0x7140, 0xad74), (0x56c5, 0xcc9c), (0x81cb, 0xb454), (0x6950, 0xacc4), (0x4ed5, 0xc0ac),
  (0x9558, 0xb9cc), (0x4262, 0xc0c9), (0x66e5, 0xb824), (0x8d68, 0xb3d9), (0x92ed, 0xc608),
  (0x7a72, 0xb9ac), (0x3f74, 0xc7a5), (0x43f7, 0xd55c), (0x8afd, 0xaca9), (0x5784, 0xb871),
  (0x610b, 0xd6e4), (0x9e8a, 0xbbf8), (0x4f94, 0xbaa8), (0x5a1d, 0xbd80), (0x8523, 0xc7a5),
  (0x67a4, 0xacac), (0x722d, 0xc7c1), (0x93ac, 0xd638), (0x372f, 0xd76c), (0x40b6, 0xac81),
  (0x6a3d, 0xc900), (0x8bbc, 0xc1a1), (0x9645, 0xc81c), (0x78c6, 0xd65c), (0x3dc8, 0xc555),
  (0x474f, 0xb8e8), (0x8e55, 0xd544), (0x55d8, 0xacc4), (0x7f5f, 0xace0), (0x9cde, 0xb9b0),
  (0x5871, 0xb791), (0x8377, 0xd558), (0x65f8, 0xc591), (0x9200, 0xd30c), (0x5102, 0xb18d),
  (0x7585, 0xac15), (0x8a10, 0xc54c), (0x4912, 0xae30), (0x6d95, 0xccb4), (0x999d, 0xd544),
  (0x381c, 0xc758), (0x5c9f, 0xc559), (0x6122, 0xc0c8), (0x502c, 0xd0c1), (0x74af, 0xd68c),
  (0x853a, 0xb9b0), (0x483c, 0xc218), (0x6cbf, 0xc5f0), (0x98c7, 0xd45c), (0x3b46, 0xb0b4),
  (0x5fc9, 0xb3c4), (0x604c, 0xc870), (0x5356, 0xb9e4), (0x77d9, 0xac10), (0x8464, 0xc870),
  (0x4b66, 0xbc15), (0x6fe9, 0xd638), (0x9bf1, 0xd638), (0x3a70, 0xcd08), (0x5ef3, 0xccad),
  (0x6376, 0xcd94), (0x5280, 0xad04), (0x7807, 0xbbfc), (0x878e, 0xc735), (0x4a90, 0xbe44),
  (0x359a, 0xbd93), (0x9c1f, 0xbc29), (0x4321, 0xccb4), (0x62a0, 0xad6c), (0x7b31, 0xad6c),
  (0x86b8, 0xb825), (0x45ba, 0xc870), (0x34c4, 0xce68), (0x9f49, 0xb0ad), (0x424b, 0xbbf8),
  (0x7dca, 0xae34), (0x7a5b, 0xcc29), (0x81e2, 0xc7a0), (0x44e4, 0xd640), (0x37ee, 0xb3cc),
  (0x9e73, 0xad00), (0x5d75, 0xc2dc), (0x7cf4, 0xc801), (0x5a06, 0xc694), (0x7e89, 0xcc2c),
  (0x810c, 0xb144), (0x7216, 0xb8e1), (0x3718, 0xcc98), (0x5b9b, 0xc644), (0x82a1, 0xac80),
  (0x6a26, 0xc8fc), (0x73ab, 0xb9e4), (0x962e, 0xc644), (0x4738, 0xb9e4), (0x6bbb, 0xac01),
  (0x8e3e, 0xbcf5), (0x97c3, 0xb2ec), (0x7f48, 0xb2f4), (0x3c4a, 0xc6b0), (0x40cd, 0xb300),
  (0x8fd3, 0xc544), (0x545a, 0xae30), (0x78dd, 0xc624), (0x3ddf, 0xd1f4), (0x8360, 0xc81c),
  (0x4c6a, 0xd45c), (0x55ef, 0xc740), (0x9cf5, 0xbcf4), (0x647a, 0xc811), (0x7703, 0xc6b4),
  (0x9082, 0xd574), (0x3405, 0xc624), (0x418c, 0xc608), (0x6f13, 0xb9ac), (0x8892, 0xb2e8),
  (0x9b1b, 0xb9cc), (0x799c, 0xc601), (0x3e9e, 0xc5ec), (0x4425, 0xc639), (0x56ae, 0xd5a5),
  (0x7c35, 0xb85c), (0x9db4, 0xd559), (0x4ebe, 0xb9dd), (0x5947, 0xae30), (0x804d, 0xb155),
  (0x66ce, 0xc5ed), (0x7157, 0xb09c), (0x92d6, 0xc0ac), (0x3659, 0xb871), (0x43e0, 0xae09),
  (0x6967, 0xc601), (0x8ae6, 0xccb4), (0x956f, 0xd0c1), (0x7bf0, 0xbd80), (0x38f2, 0xbbf8),
  (0x4679, 0xc774), (0x8d7f, 0xc9c0), (0x3e87, 0xc2dc), (0x9808, 0xc218), (0x5b0a, 0xc5f0),
  (0x678d, 0xc608), (0x5697, 0xbc15), (0x731a, 0xc560), (0x83a5, 0xb274), (0x4ea7, 0xc0b0),
  (0x6b2a, 0xcd9c), (0x3db1, 0xbcf8), (0x9f32, 0xd63c), (0x5a34, 0xd55c), (0x66b7, 0xc804),
  (0x55c1, 0xc81c), (0x7244, 0xc7a5), (0x82cf, 0xc18c), (0x6a54, 0xb3c8), (0x3cdb, 0xc720),
  (0x9e5c, 0xbaa9), (0x595e, 0xc21c), (0x65e1, 0xae30), (0x54eb, 0xc871), (0x716e, 0xc790),
  (0x81f9, 0xc218), (0x4cfb, 0xcc38), (0x697e, 0xcc9c), (0x9d86, 0xb798), (0x3909, 0xac00),
  (0x5888, 0xac10), (0x620f, 0xd76c), (0x9617, 0xc804), (0x5119, 0xacac), (0x7098, 0xd754),
  (0x8e27, 0xcd95), (0x4929, 0xd0c0), (0x68a8, 0xb9ac), (0x9cb0, 0xcd94), (0x3833, 0xb9c9),
  (0x5fb2, 0xc81c), (0x6139, 0xc6a9), (0x9541, 0xbbf8), (0x5043, 0xc5b8), (0x77c2, 0xc18c),
  (0x8d51, 0xbe44), (0x4853, 0xacac), (0x6fd2, 0xbe48), (0x93da, 0xcc99), (0x3f5d, 0xb840),
  (0x5edc, 0xb3c4), (0x6063, 0xc790), (0x946b, 0xd760), (0x8bea, 0xc8fc), (0x576d, 0xb2c8),
  (0x76ec, 0xace0), (0x8c7b, 0xd55c), (0x4f7d, 0xcc28), (0x6efc, 0xbc94), (0x7481, 0xcd1d),
  (0x9304, 0xb85d), (0x400e, 0xba74), (0x6c91, 0xb274), (0x8b14, 0xd559), (0x9099, 0xb9dd),
  (0x781e, 0xb9d0)]

/-- hanja/table.go:21769-22024 -/
def rawTable85 : List (Nat × Nat) := [
  (0x41a3, 0xc2e0), (0x88a9, 0xc810), (0x5d30, 0xce58), (0x79b3, 0xc591), (0x3ab5, 0xbc18),
  (0x8436, 0xcd98), (0x7540, 0xbe44), (0x3642, 0xd0dc), (0x52c5, 0xce59), (0x85cb, 0xc870),
  (0x6d50, 0xc0b0), (0x4ad5, 0xc808), (0x37d7, 0xbe48), (0x9158, 0xb450), (0x4662, 0xc99d),
  (0x62e5, 0xc639), (0x8968, 0xb300), (0x96ed, 0xc0bd), (0x7e72, 0xd574), (0x3b74, 0xacac),
  (0x47f7, 0xccb4), (0x8efd, 0xacbd), (0x5384, 0xc561), (0x650b, 0xb784), (0x9a8a, 0xb824),
  (0x4b94, 0xcd94), (0x3496, 0xc6b0), (0x5e1d, 0xc81c), (0x8123, 0xc21c), (0x63a4, 0xbd95),
  (0x762d, 0xd45c), (0x97ac, 0xac74), (0x44b6, 0xcc9c), (0x6e3d, 0xc7ac), (0x8fbc, 0xc785),
  (0x9245, 0xac70), (0x7cc6, 0xba74), (0x39c8, 0xc778), (0x434f, 0xb9dd), (0x8a55, 0xd3c9),
  (0x51d8, 0xc2dc), (0x7b5f, 0xbd80), (0x98de, 0xbe44), (0x49e8, 0xc5c5), (0x5c71, 0xc0b0),
  (0x8777, 0xb825), (0x61f8, 0xd604), (0x9600, 0xbc8c), (0x5502, 0xace1), (0x7185, 0xc628),
  (0x8e10, 0xcc9c), (0x4d12, 0xb839), (0x6995, 0xc6a9), (0x9d9d, 0xbcf5), (0x3c1c, 0xc804),
  (0x589f, 0xd5c8), (0x6522, 0xcc2c), (0x542c, 0xc740), (0x70af, 0xd615), (0x813a, 0xc218),
  (0x4c3c, 0xc7a0), (0x68bf, 0xb828), (0x9cc7, 0xd669), (0x3f46, 0xb2f9), (0x5bc9, 0xcd94),
  (0x644c, 0xc0b0), (0x5756, 0xae30), (0x73d9, 0xacf5), (0x8064, 0xc815), (0x4f66, 0xc11d),
  (0x6be9, 0xad6d), (0x3e70, 0xad11), (0x5af3, 0xbcc4), (0x6776, 0xcd98), (0x3701, 0xc0ac),
  (0x5680, 0xb155), (0x7c07, 0xc871), (0x838e, 0xc0ac), (0x4e90, 0xc6b8), (0x981f, 0xc561),
  (0x4721, 0xc6b1), (0x66a0, 0xace0), (0x362b, 0xc815), (0x7f31, 0xacac), (0x82b8, 0xc6b4),
  (0x41ba, 0xbc18), (0x9b49, 0xb7c9), (0x464b, 0xc120), (0x79ca, 0xb144), (0x7e5b, 0xc791),
  (0x85e2, 0xce58), (0x40e4, 0xc219), (0x9a73, 0xbc15), (0x5975, 0xc815), (0x78f4, 0xb4f1),
  (0x5e06, 0xbc94), (0x7a89, 0xbcd1), (0x850c, 0xc18d), (0x7616, 0xc74c), (0x5f9b, 0xae30),
  (0x86a1, 0xbd84), (0x6e26, 0xc640), (0x77ab, 0xc2ec), (0x34ad, 0xace4), (0x922e, 0xb2c8),
  (0x4338, 0xacac), (0x6fbb, 0xc218), (0x8a3e, 0xc790), (0x93c3, 0xc871), (0x7b48, 0xad04),
  (0x384a, 0xd761), (0x44cd, 0xd55c), (0x8bd3, 0xad11), (0x505a, 0xc8fc), (0x7cdd, 0xc0bc),
  (0x39df, 0xd68c), (0x8760, 0xbcf5), (0x486a, 0xc120), (0x356c, 0xacf5), (0x51ef, 0xac1c),
  (0x98f5, 0xc791), (0x607a, 0xac1c), (0x49ff, 0xc791), (0x7303, 0xd5d8), (0x9482, 0xb2f9),
  (0x458c, 0xc5ed), (0x6b13, 0xb2f9), (0x8c92, 0xb2e8), (0x9f1b, 0xace0), (0x7d9c, 0xc885),
  (0x3a9e, 0xbaa8), (0x4025, 0xc0ad), (0x52ae, 0xc77c), (0x7835, 0xbc1c), (0x99b4, 0xc21c),
  (0x4abe, 0xc9c4), (0x37c0, 0xb828), (0x5d47, 0xd61c), (0x844d, 0xbcf5), (0x62ce, 0xb839),
  (0x7557, 0xbcf5), (0x96d6, 0xc218), (0x47e0, 0xc6d4), (0x6d67, 0xc601), (0x8ee6, 0xd669),
  (0x916f, 0xc9c0), (0x7ff0, 0xd55c), (0x3cf2, 0xd0dc), (0x4279, 0xb839), (0x897f, 0xc11c),
  (0x9408, 0xad50), (0x570a, 0xccad), (0x6b8d, 0xd45c), (0x5a97, 0xd6e4), (0x7f1a, 0xbc15),
  (0x8fa5, 0xc124), (0x42a7, 0xbe44), (0x672a, 0xbbf8), (0x9332, 0xb85d), (0x5634, 0xcde8),
  (0x6ab7, 0xb2c8), (0x59c1, 0xd6c4), (0x7e44, 0xc608), (0x8ecf, 0xc6d4), (0x41d1, 0xbe44),
  (0x6654, 0xc5fd), (0x925c, 0xbd80), (0x555e, 0xc544), (0x69e1, 0xc0c1), (0x58eb, 0xc0ac),
  (0x7d6e, 0xc11c), (0x8df9, 0xc120), (0x40fb, 0xd30c), (0x657e, 0xc120), (0x9186, 0xc794),
  (0x3509, 0xcd09), (0x5488, 0xbd88), (0x6e0f, 0xae30), (0x9a17, 0xd3b8), (0x5d19, 0xb95c),
  (0x7c98, 0xc810), (0x8227, 0xbc94), (0x4529, 0xc18d), (0x64a8, 0xcd08), (0x90b0, 0xd0dc),
  (0x3433, 0xc62c), (0x53b2, 0xb824), (0x6d39, 0xc6d0), (0x9941, 0xc5fd), (0x5c43, 0xd76c),
  (0x7bc2, 0xc131), (0x8151, 0xbd80), (0x4453, 0xb300), (0x63d2, 0xc0bd), (0x52dc, 0xc639),
  (0x6c63, 0xad6c), (0x986b, 0xc804), (0x87ea, 0xd61c), (0x5b6d, 0xba78), (0x7aec, 0xad6c),
  (0x807b, 0xc801), (0x437d, 0xb825), (0x62fc, 0xd3c9), (0x7881, 0xae30), (0x3d83, 0xbb34),
  (0x9f04, 0xc8fc), (0x4c0e, 0xadc0), (0x6091, 0xd3ec), (0x8714, 0xc804), (0x9c99, 0xd68c),
  (0x741e, 0xb9dd), (0x4da3, 0xc560), (0x84a9, 0xc870), (0x5130, 0xc704), (0x75b3, 0xac10),
  (0x36b5, 0xb3d9), (0x8836, 0xc7a0), (0x7940, 0xc0ac), (0x3a42, 0xc0ad), (0x5ec5, 0xd569),
  (0x89cb, 0xaca9), (0x6150, 0xacf5), (0x46d5, 0xc720), (0x3bd7, 0xd55c), (0x9d58, 0xad70),
  (0x4a62, 0xc808), (0x6ee5, 0xb78c), (0x8568, 0xad90), (0x9aed, 0xc790), (0x7272, 0xc0dd),
  (0x3774, 0xc644), (0x4bf7, 0xc22d), (0x82fd, 0xace0), (0x5f84, 0xacbd), (0x690b, 0xb7c9),
  (0x968a, 0xb300), (0x4794, 0xbbf8), (0x3896, 0xbc18), (0x521d, 0xcd08), (0x8d23, 0xcc45),
  (0x6fa4, 0xd0dd), (0x7a2d, 0xac1c), (0x9bac, 0xbcf4), (0x3f2f, 0xb3d9), (0x48b6, 0xbc29),
  (0x623d, 0xd638), (0x83bc, 0xc21c), (0x9e45, 0xc544), (0x70c6, 0xd589), (0x35c8, 0xb9cc),
  (0x4f4f, 0xc8fc), (0x8655, 0xcc98), (0x5dd8, 0xd5cc), (0x775f, 0xc218), (0x94de, 0xc870),
  (0x45e8, 0xc5b4)]

/-- hanja/table.go:22025-22280 -/
def rawTable86 : List (Nat × Nat) := [
  (0x5071, 0xc21c), (0x8b77, 0xd638), (0x6df8, 0xccad), (0x9a00, 0xc544), (0x5902, 0xce58),
  (0x7d85, 0xce68), (0x8210, 0xc9c0), (0x4112, 0xc784), (0x6595, 0xb780), (0x919d, 0xcc28),
  (0x549f, 0xd68d), (0x6922, 0xadc0), (0x582c, 0xc720), (0x7caf, 0xac04), (0x8d3a, 0xd558),
  (0x403c, 0xc9c4), (0x64bf, 0xac80), (0x90c7, 0xc21c), (0x57c9, 0xd611), (0x684c, 0xd0c1),
  (0x5b56, 0xc790), (0x7fd9, 0xd670), (0x8c64, 0xac04), (0x4366, 0xb9ac), (0x67e9, 0xad6c),
  (0x93f1, 0xc7a5), (0x56f3, 0xb3c4), (0x6b76, 0xc6b0), (0x3b01, 0xc7a1), (0x5a80, 0xc6b0),
  (0x7007, 0xc655), (0x8f8e, 0xce58), (0x4290, 0xd63c), (0x3d9a, 0xd328), (0x941f, 0xccb4),
  (0x4b21, 0xc800), (0x6aa0, 0xacbd), (0x3a2b, 0xb78c), (0x7331, 0xb178), (0x8eb8, 0xae30),
  (0x3cc4, 0xc5f0), (0x9749, 0xc560), (0x4a4b, 0xb9c8), (0x75ca, 0xc804), (0x725b, 0xc6b0),
  (0x89e2, 0xc11c), (0x4ce4, 0xbcc4), (0x3fee, 0xc559), (0x9673, 0xc9c4), (0x5575, 0xd30c),
  (0x74f4, 0xb839), (0x5206, 0xbd84), (0x7689, 0xccb4), (0x890c, 0xace4), (0x7a16, 0xbc29),
  (0x3f18, 0xc640), (0x539b, 0xccad), (0x8aa1, 0xacc4), (0x6226, 0xc804), (0x7bab, 0xc18c),
  (0x38ad, 0xb3c4), (0x9e2e, 0xd6a8), (0x4f38, 0xc2e0), (0x63bb, 0xc18c), (0x863e, 0xad34),
  (0x7748, 0xc815), (0x344a, 0xc5ed), (0x48cd, 0xc5c4), (0x87d3, 0xc0c1), (0x5c5a, 0xb8e8),
  (0x70dd, 0xc99d), (0x35df, 0xc90f), (0x8b60, 0xd0c4), (0x446a, 0xc555), (0x396c, 0xbc29),
  (0x5def, 0xad6c), (0x94f5, 0xc548), (0x6c7a, 0xacb0), (0x45ff, 0xb155), (0x7f03, 0xc0c1),
  (0x9882, 0xc1a1), (0x3c05, 0xc801), (0x498c, 0xcd94), (0x6713, 0xc870), (0x8092, 0xd658),
  (0x931b, 0xbd84), (0x719c, 0xcd1d), (0x369e, 0xc2ec), (0x4c25, 0xc5ed), (0x5eae, 0xc720),
  (0x7435, 0xbe44), (0x95b4, 0xaca9), (0x46be, 0xc784), (0x3bc0, 0xc120), (0x5147, 0xd749),
  (0x884d, 0xc5f0), (0x6ece, 0xd615), (0x7957, 0xc9c0), (0x9ad6, 0xad00), (0x3e59, 0xc575),
  (0x4be0, 0xc624), (0x6167, 0xd61c), (0x82e6, 0xace0), (0x9d6f, 0xd544), (0x73f0, 0xb2f9),
  (0x4e79, 0xac74), (0x857f, 0xd6e4), (0x3687, 0xc885), (0x9008, 0xd615), (0x530a, 0xad6d),
  (0x6f8d, 0xc8fc), (0x5e97, 0xc810), (0x7b1a, 0xac11), (0x8ba5, 0xae30), (0x46a7, 0xb958),
  (0x632a, 0xb098), (0x35b1, 0xbc40), (0x9732, 0xb85c), (0x5234, 0xd0c0), (0x6eb7, 0xd63c),
  (0x5dc1, 0xb824), (0x7a44, 0xc81c), (0x8acf, 0xcd94), (0x45d1, 0xc2b5), (0x6254, 0xc789),
  (0x34db, 0xacf5), (0x965c, 0xd569), (0x515e, 0xbaa8), (0x6de1, 0xb2f4), (0x5ceb, 0xc0ac),
  (0x796e, 0xace0), (0x89f9, 0xd734), (0x44fb, 0xad6c), (0x617e, 0xc695), (0x9586, 0xc5fc),
  (0x5088, 0xb960), (0x6a0f, 0xb958), (0x9e17, 0xb871), (0x5919, 0xc219), (0x7898, 0xc804),
  (0x8627, 0xac70), (0x4129, 0xc775), (0x60a8, 0xb2c8), (0x94b0, 0xc625), (0x57b2, 0xac1c),
  (0x6939, 0xce68), (0x9d41, 0xad50), (0x5843, 0xd669), (0x7fc2, 0xbd84), (0x8551, 0xac04),
  (0x4053, 0xc885), (0x67d2, 0xce60), (0x9bda, 0xacc4), (0x375d, 0xb9bc), (0x56dc, 0xc778),
  (0x6863, 0xb2f9), (0x9c6b, 0xc560), (0x83ea, 0xd0d5), (0x5f6d, 0xd33d), (0x7eec, 0xc601),
  (0x847b, 0xb78c), (0x477d, 0xc560), (0x66fc, 0xb9cc), (0x7c81, 0xcc9c), (0x3983, 0xc0b0),
  (0x9b04, 0xccb4), (0x480e, 0xc545), (0x6491, 0xd0f1), (0x8314, 0xd1a0), (0x9899, 0xc639),
  (0x701e, 0xc815), (0x49a3, 0xbd80), (0x80a9, 0xacac), (0x5530, 0xc1b0), (0x71b3, 0xb9cc),
  (0x8c36, 0xcc38), (0x7d40, 0xcd9c), (0x3e42, 0xacac), (0x5ac5, 0xcc28), (0x8dcb, 0xbc1c),
  (0x6550, 0xc9c4), (0x42d5, 0xc784), (0x3fd7, 0xd1f4), (0x9958, 0xc804), (0x4e62, 0xac1c),
  (0x6ae5, 0xc8fc), (0x8168, 0xcc9c), (0x9eed, 0xc554), (0x7672, 0xc804), (0x4ff7, 0xbe44),
  (0x86fd, 0xd328), (0x5b84, 0xadc0), (0x6d0b, 0xc591), (0x928a, 0xc220), (0x4394, 0xbd80),
  (0x3c96, 0xc18c), (0x561d, 0xace1), (0x8923, 0xc6a9), (0x6ba4, 0xc0c1), (0x7e2d, 0xb9ac),
  (0x3b2f, 0xb82c), (0x4cb6, 0xc6d0), (0x663d, 0xb871), (0x87bc, 0xadfc), (0x9a45, 0xad6c),
  (0x74c6, 0xc9c8), (0x4b4f, 0xd3b8), (0x8255, 0xbc29), (0x59d8, 0xd3c9), (0x735f, 0xad50),
  (0x90de, 0xb791), (0x41e8, 0xacf5), (0x5471, 0xace0), (0x8f77, 0xd638), (0x69f8, 0xc608),
  (0x9e00, 0xcd09), (0x5d02, 0xb85c), (0x7985, 0xc120), (0x8610, 0xd6e4), (0x4512, 0xbc30),
  (0x6195, 0xc9d5), (0x959d, 0xb839), (0x341c, 0xad6c), (0x509f, 0xc559), (0x6d22, 0xc774),
  (0x5c2c, 0xac1c), (0x78af, 0xb1cc), (0x893a, 0xcca9), (0x443c, 0xd608), (0x60bf, 0xcca8),
  (0x94c7, 0xd3ec), (0x3746, 0xd76c), (0x53c9, 0xcc28), (0x6c4c, 0xcc9c), (0x5f56, 0xb2e8),
  (0x7bd9, 0xace0), (0x8864, 0xc758), (0x4766, 0xc911), (0x63e9, 0xac1c), (0x97f1, 0xc12c),
  (0x3670, 0xd574), (0x52f3, 0xd6c8), (0x6f76, 0xd751), (0x3f01, 0xc758), (0x5e80, 0xbe44),
  (0x7407, 0xc218), (0x8b8e, 0xc218), (0x4690, 0xc801), (0x399a, 0xbcc0), (0x901f, 0xc18d),
  (0x4f21, 0xac70), (0x6ea0, 0xc790), (0x3e2b, 0xac74), (0x7731, 0xc774), (0x8ab8, 0xd604),
  (0x49ba, 0xc815)]

/-- hanja/table.go:22281-22536 -/
def rawTable87 : List (Nat × Nat) := [
  (0x38c4, 0xac70), (0x9349, 0xc2dc), (0x4e4b, 0xc9c0), (0x71ca, 0xc2e0), (0x765b, 0xb984),
  (0x8de2, 0xb2e4), (0x48e4, 0xacfd), (0x3bee, 0xcd09), (0x9273, 0xbd81), (0x5175, 0xbcd1),
  (0x70f4, 0xacbd), (0x5606, 0xd0c4), (0x7289, 0xc21c), (0x8d0c, 0xbcf5), (0x7e16, 0xd560),
  (0x3b18, 0xc18d), (0x579b, 0xd0c0), (0x8ea1, 0xc12d), (0x6626, 0xd638), (0x7fab, 0xac15),
  (0x3cad, 0xb2f4), (0x9a2e, 0xb958), (0x4b38, 0xcc2c), (0x67bb, 0xc124), (0x823e, 0xc11c),
  (0x9bc3, 0xc6b0), (0x7348, 0xc775), (0x4ccd, 0xacf5), (0x83d3, 0xacfc), (0x585a, 0xcd1d),
  (0x74dd, 0xd3ec), (0x8f60, 0xb8b0), (0x406a, 0xcc38), (0x3d6c, 0xc601), (0x59ef, 0xad11),
  (0x90f5, 0xc6b0), (0x687a, 0xb958), (0x41ff, 0xcc45), (0x7b03, 0xb3c5), (0x9c82, 0xbc29),
  (0x3805, 0xbcf5), (0x4d8c, 0xd3ec), (0x6313, 0xcc28), (0x8492, 0xc0ac), (0x971b, 0xb839),
  (0x759c, 0xd558), (0x4825, 0xbcc4), (0x5aae, 0xc720), (0x7035, 0xbd84), (0x91b4, 0xb840),
  (0x42be, 0xbaa9), (0x3fc0, 0xbc18), (0x5547, 0xc801), (0x8c4d, 0xbe44), (0x6ace, 0xd669),
  (0x7d57, 0xd640), (0x9ed6, 0xae30), (0x3a59, 0xc0c9), (0x4fe0, 0xd611), (0x6567, 0xae30),
  (0x86e6, 0xc774), (0x996f, 0xc804), (0x77f0, 0xc99d), (0x34f2, 0xd3b8), (0x4a79, 0xc561),
  (0x817f, 0xd1f4), (0x908b, 0xb78d), (0x6f0a, 0xb8e8), (0x538d, 0xc0ac), (0x3e14, 0xac04),
  (0x6297, 0xd56d), (0x8418, 0xb0b4), (0x471a, 0xb2f5), (0x7aa7, 0xd0c1), (0x9c28, 0xd0d1),
  (0x5f2a, 0xacbd), (0x8fb5, 0xcc29), (0x6e34, 0xac08), (0x52b7, 0xc591), (0x3d3e, 0xbc1c),
  (0x61c1, 0xd658), (0x8342, 0xacfc), (0x4644, 0xc7a1), (0x79d1, 0xacfc), (0x9b52, 0xd45c),
  (0x5e54, 0xb9cc), (0x8edf, 0xc5f0), (0x6d5e, 0xcc29), (0x51e1, 0xbc94), (0x3c68, 0xb834),
  (0x60eb, 0xbe44), (0x826c, 0xcc38), (0x456e, 0xad6d), (0x78fb, 0xbc18), (0x9a7c, 0xd0c0),
  (0x5d7e, 0xcc38), (0x6c88, 0xce68), (0x930d, 0xbe44), (0x560f, 0xd558), (0x3b92, 0xc5f0),
  (0x8196, 0xbc29), (0x6519, 0xcc38), (0x4498, 0xc218), (0x3423, 0xace8), (0x99a6, 0xd610),
  (0x7d29, 0xc9c8), (0x5ca8, 0xc800), (0x6bb2, 0xc12c), (0x9237, 0xace0), (0x5539, 0xc5b4),
  (0x3abc, 0xac00), (0x80c0, 0xcc3d), (0x6443, 0xac15), (0x43c2, 0xc218), (0x98d0, 0xc810),
  (0x7c53, 0xbc88), (0x5bd2, 0xd55c), (0x6adc, 0xace0), (0x9161, 0xd0c0), (0x5463, 0xbb34),
  (0x39e6, 0xd604), (0x636d, 0xd328), (0x42ec, 0xcca8), (0x97fa, 0xc601), (0x7b7d, 0xc624),
  (0x5afc, 0xbb35), (0x4081, 0xcc38), (0x8b87, 0xcca8), (0x740e, 0xc9c4), (0x5891, 0xc801),
  (0x3910, 0xcca8), (0x4c1e, 0xc790), (0x75a3, 0xc6b0), (0x36a5, 0xc6b0), (0x9724, 0xb958),
  (0x6930, 0xc57c), (0x4db3, 0xc57d), (0x94b9, 0xbc1c), (0x4140, 0xb82c), (0x66c5, 0xc5fd),
  (0x8846, 0xc911), (0x5950, 0xd658), (0x7ed5, 0xc694), (0x89db, 0xb2e8), (0x7262, 0xb8b0),
  (0x56e5, 0xac15), (0x3764, 0xad6c), (0x4a72, 0xb3c4), (0x73f7, 0xbb34), (0x34f9, 0xccb4),
  (0x9578, 0xc7a5), (0x8001, 0xb85c), (0x6784, 0xad6c), (0x510b, 0xb2f4), (0x9811, 0xc644),
  (0x7f94, 0xace0), (0x869a, 0xae30), (0x6a1d, 0xc0ac), (0x57a4, 0xc9c8), (0x9eaa, 0xba74),
  (0x422d, 0xc218), (0x8d33, 0xc138), (0x70b6, 0xc12c), (0x35b8, 0xac39), (0x5a3d, 0xb85d),
  (0x48c6, 0xd615), (0x93cc, 0xb9c9), (0x774f, 0xace4), (0x3851, 0xc870), (0x65d8, 0xce58),
  (0x4f5f, 0xd241), (0x9665, 0xd568), (0x7de8, 0xd3b8), (0x3eea, 0xc900), (0x84ee, 0xb828),
  (0x6871, 0xacbd), (0x55f8, 0xc624), (0x9cfe, 0xc0ac), (0x8683, 0xd5a5), (0x6102, 0xbc1c),
  (0x4585, 0xb839), (0x9e93, 0xb85d), (0x7912, 0xc758), (0x5d95, 0xcd08), (0x6c9f, 0xad6c),
  (0x9220, 0xc5ed), (0x5122, 0xb824), (0x3fa9, 0xad34), (0x81ad, 0xad34), (0x602c, 0xd76c),
  (0x44af, 0xd658), (0x99bd, 0xce69), (0x783c, 0xb3d9), (0x5cbf, 0xaddc), (0x6fc9, 0xc218),
  (0x8d4a, 0xc0ac), (0x504c, 0xc57c), (0x3ed3, 0xcd94), (0x80d7, 0xc9c4), (0x6356, 0xc644),
  (0x47d9, 0xc808), (0x98e7, 0xc190), (0x7b66, 0xad00), (0x5fe9, 0xcd1d), (0x6ef3, 0xc0c1),
  (0x8c74, 0xc801), (0x5376, 0xce58), (0x39fd, 0xace0), (0x6280, 0xae30), (0x8505, 0xc5f0),
  (0x4807, 0xad74), (0x7a90, 0xaddc), (0x9d15, 0xd0c0), (0x8f9e, 0xc0ac), (0x7321, 0xb77c),
  (0x52a0, 0xac00), (0x842f, 0xbd80), (0x4b31, 0xbcf8), (0x75ba, 0xbc95), (0x9c3f, 0xc801),
  (0x8ec8, 0xc751), (0x724b, 0xc804), (0x3d55, 0xc0bc), (0x8759, 0xd3b8), (0x4a5b, 0xd544),
  (0x74e4, 0xc591), (0x9f69, 0xad50), (0x89f2, 0xc131), (0x6d75, 0xb3d9), (0x4cf4, 0xb2f5),
  (0x3c7f, 0xac01), (0x6a06, 0xb9ac), (0x4e89, 0xc7c1), (0x958f, 0xc724), (0x4216, 0xacfc),
  (0x6b9b, 0xadf9), (0x891c, 0xd3ec), (0x5a26, 0xbe48), (0x43ab, 0xcc3d), (0x8ab1, 0xcca9),
  (0x7738, 0xbaa8), (0x5bbb, 0xbc00), (0x343a, 0xc911), (0x4f48, 0xd3ec), (0x70cd, 0xc120),
  (0x35cf, 0xc65c), (0x964e, 0xc218), (0x645a, 0xb2f9), (0x48dd, 0xb3c4), (0x97e3, 0xb3c5),
  (0x7c6a, 0xb2e8), (0x65ef, 0xb77c), (0x8b70, 0xc758), (0x547a, 0xd6a8), (0x7dff, 0xd0dc),
  (0x4703, 0xd1f4)]

/-- hanja/table.go:22537-22792 -/
def rawTable88 : List (Nat × Nat) := [
  (0x8e09, 0xb7c9), (0x718c, 0xc12c), (0x368e, 0xb300), (0x5f13, 0xad81), (0x499c, 0xc624),
  (0x90a2, 0xd615), (0x7425, 0xd638), (0x3927, 0xd6c4), (0x832b, 0xb9dd), (0x66ae, 0xbaa8),
  (0x4c35, 0xc790), (0x9b3b, 0xc8fd), (0x7ebe, 0xc11c), (0x85c4, 0xae30), (0x6947, 0xd654),
  (0x56ce, 0xc99d), (0x9dd4, 0xc624), (0x4157, 0xc720), (0x885d, 0xcda9), (0x73e0, 0xc8fc),
  (0x5967, 0xc624), (0x4bf0, 0xac1c), (0x92f6, 0xb958), (0x7679, 0xbc1c), (0x3b7b, 0xb2f9),
  (0x948b, 0xbc15), (0x6b0a, 0xad8c), (0x578d, 0xac8c), (0x3a14, 0xd568), (0x6697, 0xc554),
  (0x8018, 0xc6b4), (0x431a, 0xc18d), (0x35a1, 0xc57c), (0x7ea7, 0xae09), (0x9828, 0xd3b8),
  (0x5b2a, 0xbe48), (0x8bb5, 0xac70), (0x6a34, 0xc9c1), (0x56b7, 0xc591), (0x393e, 0xd0d0),
  (0x65c1, 0xbc29), (0x8742, 0xd310), (0x4244, 0xb989), (0x34cb, 0xacf5), (0x7dd1, 0xb85d),
  (0x9f52, 0xce58), (0x5a54, 0xbe44), (0x8adf, 0xc2dc), (0x695e, 0xb989), (0x55e1, 0xc639),
  (0x3868, 0xcca8), (0x64eb, 0xc5fd), (0x866c, 0xaddc), (0x416e, 0xcc3d), (0x7cfb, 0xacc4),
  (0x9e7c, 0xac10), (0x597e, 0xc120), (0x6888, 0xd33d), (0x970d, 0xacfd), (0x520f, 0xae30),
  (0x3f92, 0xc5ec), (0x8596, 0xacfc), (0x6119, 0xac01), (0x4098, 0xcc28), (0x9da6, 0xd638),
  (0x7929, 0xc9c8), (0x58a8, 0xbb35), (0x6fb2, 0xc5c5), (0x9637, 0xc815), (0x5139, 0xcc2c),
  (0x3ebc, 0xc120), (0x84c0, 0xc190), (0x6043, 0xc2dc), (0x47c2, 0xbb38), (0x374d, 0xc0ac),
  (0x9cd0, 0xc694), (0x7853, 0xb85c), (0x5fd2, 0xd2b9), (0x6edc, 0xace0), (0x9561, 0xc2ec),
  (0x5063, 0xc5fc), (0x3de6, 0xd601), (0x676d, 0xd56d), (0x46ec, 0xb3c4), (0x3677, 0xce69),
  (0x93fa, 0xbc1c), (0x7f7d, 0xacc4), (0x5efc, 0xb0b4), (0x4481, 0xc2b5), (0x8f87, 0xb828),
  (0x700e, 0xb9d0), (0x5c91, 0xc7a0), (0x3d10, 0xba74), (0x481e, 0xcd95), (0x71a3, 0xcd5c),
  (0x9324, 0xae30), (0x6d30, 0xac70), (0x49b3, 0xd5a5), (0x90b9, 0xcd94), (0x4540, 0xad00),
  (0x62c5, 0xb2e8), (0x8c46, 0xb450), (0x5d50, 0xb78c), (0x7ad5, 0xbd84), (0x8ddb, 0xd30c),
  (0x7662, 0xc591), (0x52e5, 0xac15), (0x4e72, 0xcc30), (0x77f7, 0xc790), (0x9178, 0xc0b0),
  (0x8401, 0xae30), (0x6384, 0xb95c), (0x550b, 0xb3c4), (0x9c11, 0xc591), (0x7b94, 0xbc15),
  (0x829a, 0xb454), (0x6e1d, 0xd22c), (0x53a4, 0xb825), (0x9aaa, 0xc704), (0x462d, 0xc9c0),
  (0x8933, 0xb828), (0x74b6, 0xc2e0), (0x5e3d, 0xbaa8), (0x4cc6, 0xbc31), (0x97cc, 0xc778),
  (0x734f, 0xbaa8), (0x3c51, 0xc138), (0x61d8, 0xccb4), (0x4b5f, 0xc5fd), (0x9265, 0xc220),
  (0x79e8, 0xc791), (0x3aea, 0xc6a9), (0x80ee, 0xbc29), (0x6c71, 0xacac), (0x51f8, 0xcca0),
  (0x98fe, 0xc2dd), (0x8283, 0xbd09), (0x6502, 0xb8b0), (0x4185, 0xc790), (0x340c, 0xc774),
  (0x9a93, 0xcd94), (0x7d12, 0xacc4), (0x5995, 0xc911), (0x689f, 0xd6a8), (0x9620, 0xc2e0),
  (0x5522, 0xc1c4), (0x3ba9, 0xc2dd), (0x85ad, 0xbe44), (0x642c, 0xbc18), (0x40af, 0xad34),
  (0x3736, 0xbc18), (0x9dbd, 0xc900), (0x7c3c, 0xad6c), (0x58bf, 0xc5ed), (0x6bc9, 0xc758),
  (0x894a, 0xcd2c), (0x544c, 0xaddc), (0x3ad3, 0xae30), (0x84d7, 0xc885), (0x6756, 0xc7a5),
  (0x43d9, 0xd0d0), (0x3660, 0xc608), (0x9ce7, 0xbd80), (0x7f66, 0xbd80), (0x5be9, 0xc2ec),
  (0x6af3, 0xb871), (0x8874, 0xb2f4), (0x5776, 0xbaa9), (0x3dfd, 0xc120), (0x6680, 0xc655),
  (0x8105, 0xd611), (0x4c07, 0xae30), (0x7e90, 0xad50), (0x9915, 0xc900), (0x8b9e, 0xc5b8),
  (0x7721, 0xc800), (0x56a0, 0xb958), (0x802f, 0xd655), (0x4f31, 0xb2c8), (0x71ba, 0xd76c),
  (0x983f, 0xc790), (0x8ac8, 0xcd94), (0x764b, 0xd559), (0x49ca, 0xace1), (0x3955, 0xb828),
  (0x8359, 0xb2ec), (0x4e5b, 0xc57c), (0x70e4, 0xace0), (0x9b69, 0xb9d0), (0x8df2, 0xac81),
  (0x6975, 0xadf9), (0x48f4, 0xd6c4), (0x387f, 0xcc99), (0x6e06, 0xc5f0), (0x4a89, 0xb835),
  (0x918f, 0xb3c4), (0x4616, 0xd568), (0x6f9b, 0xb85c), (0x8d1c, 0xc7a5), (0x5e26, 0xb300),
  (0x47ab, 0xc6b4), (0x8eb1, 0xd0c0), (0x7338, 0xbbf8), (0x5fbb, 0xc678), (0x4b48, 0xac74),
  (0x74cd, 0xc218), (0x924e, 0xc0dd), (0x605a, 0xc5d0), (0x4cdd, 0xbd80), (0x93e3, 0xc11c),
  (0x786a, 0xc544), (0x61ef, 0xbd80), (0x8f70, 0xad49), (0x507a, 0xcc30), (0x79ff, 0xbd80),
  (0x4303, 0xcd08), (0x8a09, 0xbc94), (0x758c, 0xc12d), (0x5b13, 0xad50), (0x4d9c, 0xace1),
  (0x94a2, 0xac15), (0x7025, 0xd638), (0x3d27, 0xc2dd), (0xfa29, 0xb3c4), (0x872b, 0xace4),
  (0x62ae, 0xc9c4), (0x4835, 0xbd80), (0x9f3b, 0xbe44), (0x7abe, 0xad00), (0x81c4, 0xac39),
  (0x6d47, 0xc694), (0x52ce, 0xb959), (0x99d4, 0xc7a5), (0x4557, 0xbe44), (0x8c5d, 0xd30c),
  (0x77e0, 0xc0c9), (0x34e2, 0xb77d), (0x5d67, 0xb958), (0x4ff0, 0xd654), (0x96f6, 0xb839),
  (0x7279, 0xd2b9), (0x3f7b, 0xc9c0), (0x988b, 0xc815), (0x670a, 0xc6d0), (0x5b8d, 0xc721),
  (0x3614, 0xc0c8), (0x6a97, 0xbcbd), (0x8c18, 0xc790), (0x4f1a, 0xd68c), (0x39a1, 0xb77d),
  (0x72a7, 0xd76c), (0x9428, 0xbe44), (0x572a, 0xc744), (0x87b5, 0xd45c), (0x6634, 0xbb18),
  (0x5ab7, 0xc695)]

/-- hanja/table.go:22793-23048 -/
def rawTable89 : List (Nat × Nat) := [
  (0x353e, 0xc808), (0x69c1, 0xace0), (0x8b42, 0xcc9c), (0x4e44, 0xc624), (0x38cb, 0xb2e8),
  (0x71d1, 0xb3d9), (0x9352, 0xc720), (0x5654, 0xb4f1), (0x86df, 0xad50), (0x655e, 0xcc3d),
  (0x59e1, 0xd65c), (0x3468, 0xc624), (0x68eb, 0xc5ed), (0x8a6c, 0xad6c), (0x4d6e, 0xc591),
  (0x70fb, 0xc5f0), (0x927c, 0xbcd1), (0x557e, 0xcd94), (0x6488, 0xb85c), (0x9b0d, 0xd638),
  (0x5e0f, 0xc704), (0x8996, 0xc2dc), (0x6d19, 0xc218), (0x4c98, 0xad00), (0x3c23, 0xc790),
  (0x91a6, 0xcc38), (0x7529, 0xc194), (0x54a8, 0xc790), (0x63b2, 0xac8c), (0x9a37, 0xc18c),
  (0x5d39, 0xccb4), (0x88c0, 0xc778), (0x6c43, 0xd314), (0x4bc2, 0xc2e0), (0x3b4d, 0xce60),
  (0x90d0, 0xd68c), (0x7453, 0xb828), (0x53d2, 0xc57d), (0x62dc, 0xbc30), (0x9961, 0xcc2c),
  (0x5c63, 0xc0ac), (0x6b6d, 0xce58), (0x4aec, 0xce68), (0x3a77, 0xac74), (0x737d, 0xc591),
  (0x52fc, 0xad6c), (0x4881, 0xc6d4), (0x8387, 0xc870), (0x7c0e, 0xcc29), (0x5091, 0xac78),
  (0x441e, 0xc57d), (0x7da3, 0xad8c), (0x3ea5, 0xcc38), (0x9f24, 0xbb38), (0x6130, 0xd669),
  (0x45b3, 0xcc28), (0x9cb9, 0xc18c), (0x4940, 0xcc9c), (0x6ec5, 0xba78), (0x8046, 0xb839),
  (0x5150, 0xc544), (0x76d5, 0xbc94), (0x81db, 0xd655), (0x7a62, 0xc608), (0x5ee5, 0xad34),
  (0x3f64, 0xad6d), (0x4272, 0xbbf8), (0x7bf7, 0xbd09), (0x3cf9, 0xc655), (0x9d78, 0xae30),
  (0x8801, 0xd5a5), (0x6f84, 0xc9d5), (0x590b, 0xc900), (0x9011, 0xad6c), (0x7794, 0xcc45),
  (0x8e9a, 0xc120), (0x621d, 0xc801), (0x5fa4, 0xac74), (0x96aa, 0xd5d8), (0x4a2d, 0xc18c),
  (0x8533, 0xcc9c), (0x78b6, 0xacc4), (0x3db8, 0xd611), (0x523d, 0xd68c), (0x40c6, 0xae30),
  (0x9bcc, 0xace0), (0x7f4f, 0xb85c), (0x6dd8, 0xb3c4), (0x475f, 0xc124), (0x9e65, 0xc608),
  (0x75e8, 0xb85c), (0x36ea, 0xc5c4), (0x8cee, 0xc2e0), (0x6071, 0xc5f4), (0x5df8, 0xc774),
  (0x94fe, 0xb828), (0x8e83, 0xbcbd), (0x6902, 0xb85d), (0x4d85, 0xac01), (0x380c, 0xae30),
  (0x9693, 0xd734), (0x7112, 0xb824), (0x5595, 0xba74), (0x649f, 0xad50), (0x9a20, 0xc81c),
  (0x5922, 0xbabd), (0x37a9, 0xb78c), (0x89ad, 0xba85), (0x682c, 0xc81c), (0x4caf, 0xae09),
  (0x3b36, 0xd638), (0x91bd, 0xb839), (0x703c, 0xc591), (0x54bf, 0xc774), (0x67c9, 0xbc94),
  (0x854a, 0xc608), (0x584c, 0xd0d1), (0x36d3, 0xce58), (0x88d7, 0xb958), (0x6b56, 0xd76c),
  (0x4fd9, 0xd76c), (0x3a60, 0xc624), (0x90e7, 0xc6b4), (0x7366, 0xac08), (0x57e9, 0xc815),
  (0x66f3, 0xc608), (0x8474, 0xce68), (0x5b76, 0xc790), (0x6a80, 0xb2e8), (0x8d05, 0xcdcc),
  (0x4007, 0xace0), (0x7290, 0xacfc), (0x9515, 0xc544), (0x879e, 0xb9c8), (0x7b21, 0xcc28),
  (0x5aa0, 0xd0c0), (0x8c2f, 0xcd08), (0x4331, 0xb77c), (0x7dba, 0xae30), (0x943f, 0xc758),
  (0x86c8, 0xcca0), (0x7a4b, 0xb959), (0x45ca, 0xb2f4), (0x3555, 0xd658), (0x8f59, 0xc758),
  (0x425b, 0xc6b1), (0x7ce4, 0xc0b0), (0x9769, 0xd601), (0x81f2, 0xc5bc), (0x6575, 0xc801),
  (0x44f4, 0xc5f0), (0x347f, 0xc18c), (0x6206, 0xb2f9), (0x4689, 0xacc4), (0x9d8f, 0xacc4),
  (0x4a16, 0xc81c), (0x639b, 0xad18), (0x811c, 0xc720), (0x5226, 0xac81), (0x4bab, 0xb8e8),
  (0x82b1, 0xd654), (0x7f38, 0xd56d), (0x53bb, 0xac70), (0x3c3a, 0xd558), (0x4748, 0xc561),
  (0x78cd, 0xd560), (0x3dcf, 0xc639), (0x9e4e, 0xd544), (0x6c5a, 0xc624), (0x40dd, 0xad50),
  (0x746a, 0xb9c8), (0x6def, 0xc721), (0x8370, 0xb450), (0x5c7a, 0xae30), (0x75ff, 0xc704),
  (0x4f03, 0xc5ec), (0x8609, 0xb9dd), (0x798c, 0xc790), (0x3e8e, 0xc6a9), (0x5713, 0xc6d0),
  (0x419c, 0xc720), (0x98a2, 0xd638), (0x7c25, 0xad50), (0x8b2b, 0xc801), (0x6eae, 0xc0ac),
  (0x4435, 0xd669), (0x933b, 0xbb34), (0x76be, 0xb3c5), (0x8dc4, 0xcc3d), (0x6147, 0xc740),
  (0x5ece, 0xacbd), (0x95d4, 0xd569), (0x4957, 0xad00), (0x805d, 0xad35), (0x7be0, 0xc18c),
  (0x38e2, 0xc81c), (0x5167, 0xb0b4), (0x43f0, 0xc778), (0x9af6, 0xc6a9), (0x7e79, 0xc5ed),
  (0x9c8b, 0xbd80), (0x630a, 0xb871), (0x5f8d, 0xb960), (0x6e97, 0xc2b9), (0x8818, 0xc808),
  (0x4b1a, 0xbc94), (0x3da1, 0xd654), (0x76a7, 0xc560), (0x9028, 0xb798), (0x532a, 0xbe44),
  (0x83b5, 0xd1a0), (0x6234, 0xb300), (0x5eb7, 0xac15), (0x6dc1, 0xcca9), (0x8f42, 0xace1),
  (0x4a44, 0xc804), (0x3ccb, 0xad6c), (0x75d1, 0xd0c0), (0x9752, 0xccad), (0x5254, 0xcc99),
  (0x82df, 0xad6c), (0x615e, 0xc7a5), (0x5de1, 0xc21c), (0x6ceb, 0xd604), (0x8e6c, 0xb4f1),
  (0x496e, 0xcd95), (0x74fb, 0xce58), (0x967c, 0xc800), (0x517e, 0xae30), (0x6088, 0xacc4),
  (0x9f0d, 0xd0c0), (0x5a0f, 0xb9dd), (0x3792, 0xd574), (0x8d96, 0xc88c), (0x6919, 0xcc3d),
  (0x4898, 0xc218), (0x3823, 0xb825), (0x95a6, 0xcd95), (0x7129, 0xbd95), (0x50a8, 0xc800),
  (0x67b2, 0xc2dc), (0x9e37, 0xc9c0), (0x5939, 0xd611), (0x36bc, 0xd638), (0x8cc0, 0xd558),
  (0x6843, 0xb3c4), (0x4fc2, 0xacc4), (0x3f4d, 0xac10), (0x94d0, 0xace0), (0x7053, 0xb780),
  (0x57d2, 0xb784), (0x66dc, 0xc694), (0x9d61, 0xbb34), (0x5863, 0xc815), (0x35e6, 0xb85c),
  (0x6f6d, 0xb2f4)]

/-- hanja/table.go:23049-23304 -/
def rawTable90 : List (Nat × Nat) := [
  (0x4eec, 0xbb38), (0x3e77, 0xd76c), (0x9bfa, 0xb2e4), (0x777d, 0xaddc), (0x56fc, 0xd0dc),
  (0x4c81, 0xc704), (0x8787, 0xd61c), (0x780e, 0xac1c), (0x5491, 0xd0c0), (0x3510, 0xcca8),
  (0x401e, 0xb3c4), (0x79a3, 0xbd80), (0x3aa5, 0xc790), (0x9b24, 0xc591), (0x6530, 0xae30),
  (0x41b3, 0xc218), (0x98b9, 0xc704), (0x4d40, 0xc1c4), (0x6ac5, 0xc81c), (0x8446, 0xbcf4),
  (0x5550, 0xcd40), (0x72d5, 0xc694), (0x85db, 0xc0ac), (0x7e62, 0xada4), (0x5ae5, 0xc804),
  (0x3b64, 0xc870), (0x4672, 0xc120), (0x7ff7, 0xb9b0), (0x38f9, 0xc751), (0x9978, 0xd611),
  (0x8c01, 0xc218), (0x6b84, 0xc9c4), (0x5d0b, 0xd654), (0x9411, 0xacb0), (0x7394, 0xcc9c),
  (0x8a9a, 0xcd08), (0x661d, 0xc7a0), (0x5ba4, 0xc2e4), (0x92aa, 0xc720), (0x4e2d, 0xc911),
  (0x8133, 0xb1cc), (0x7cb6, 0xb85d), (0x39b8, 0xadf9), (0x563d, 0xd0c4), (0x44c6, 0xc808),
  (0x7b4f, 0xbc8c), (0x3451, 0xc790), (0x69d8, 0xc591), (0x435f, 0xc885), (0x9a65, 0xae30),
  (0x71e8, 0xd76c), (0x88ee, 0xcc3d), (0x6471, 0xb9cc), (0x59f8, 0xc5f0), (0x90fe, 0xc5b8),
  (0x8a83, 0xce58), (0x6d02, 0xc57d), (0x4985, 0xc120), (0x3c0c, 0xac01), (0x9293, 0xc804),
  (0x7512, 0xbb34), (0x5195, 0xba74), (0x609f, 0xc624), (0x9e20, 0xad6c), (0x5d22, 0xc7c1),
  (0x8dad, 0xcd08), (0x6c2c, 0xc544), (0x48af, 0xb9b0), (0x3f36, 0xc720), (0x95bd, 0xd63c),
  (0x743c, 0xacbd), (0x50bf, 0xc5b8), (0x63c9, 0xc720), (0x814a, 0xc11d), (0x5c4c, 0xcd08),
  (0x8cd7, 0xad00), (0x6f56, 0xd30c), (0x4bd9, 0xbcf4), (0x3e60, 0xb3c8), (0x94e7, 0xd654),
  (0x7766, 0xbaa9), (0x53e9, 0xace0), (0x62f3, 0xad8c), (0x8074, 0xccad), (0x5f76, 0xae09),
  (0x35fd, 0xd5a5), (0x6e80, 0xb9cc), (0x8905, 0xccb4), (0x4407, 0xc21c), (0x7690, 0xace0),
  (0x9115, 0xd5a5), (0x839e, 0xc644), (0x7f21, 0xb9ac), (0x5ea0, 0xc0c1), (0x882f, 0xbe44),
  (0x4731, 0xb9cc), (0x79ba, 0xc639), (0x903f, 0xd0d5), (0x82c8, 0xb825), (0x7e4b, 0xacc4),
  (0x41ca, 0xad11), (0x8b59, 0xcd08), (0x465b, 0xace4), (0x78e4, 0xc740), (0x9369, 0xcca8),
  (0x85f2, 0xcd94), (0x6175, 0xc6a9), (0x40f4, 0xc800), (0x6606, 0xace4), (0x4289, 0xc0bc),
  (0x998f, 0xb958), (0x4e16, 0xc138), (0x679b, 0xc870), (0x851c, 0xc624), (0x5626, 0xad50),
  (0x4fab, 0xb155), (0x86b1, 0xcc45), (0x7b38, 0xd30c), (0x57bb, 0xd30c), (0x383a, 0xc0ac),
  (0x4348, 0xbcd1), (0x7ccd, 0xc790), (0x39cf, 0xac15), (0x9a4e, 0xb9b0), (0x685a, 0xcc30),
  (0x44dd, 0xb9f9), (0x9be3, 0xc5ed), (0x706a, 0xc6b8), (0x69ef, 0xcd5c), (0x8770, 0xaddc),
  (0x587a, 0xb9e4), (0x71ff, 0xc694), (0x4b03, 0xc0bd), (0x8209, 0xac70), (0x7d8c, 0xaca9),
  (0x3a8e, 0xc12c), (0x5313, 0xad6c), (0x459c, 0xc740), (0x9ca2, 0xb828), (0x7825, 0xc9c0),
  (0x3527, 0xb85c), (0x8f2b, 0xbc30), (0x6aae, 0xb3c4), (0x4035, 0xc21c), (0x973b, 0xd48d),
  (0x72be, 0xc740), (0x89c4, 0xaddc), (0x6547, 0xcc45), (0x5ace, 0xbc29), (0x91d4, 0xc744),
  (0x4d57, 0xbcf5), (0x845d, 0xacbd), (0x7fe0, 0xcde8), (0x3ce2, 0xad50), (0x5567, 0xcc45),
  (0x47f0, 0xd568), (0x9ef6, 0xc5fc), (0x7a79, 0xad81), (0x377b, 0xadfc), (0x3604, 0xb989),
  (0x808b, 0xb975), (0x7f0a, 0xc628), (0x438d, 0xbd80), (0x7297, 0xac1c), (0x9418, 0xc885),
  (0x571a, 0xada4), (0x6aa7, 0xc1a1), (0x8c28, 0xadfc), (0x4f2a, 0xc704), (0x352e, 0xb098),
  (0x7e34, 0xacac), (0x42b7, 0xce58), (0x71c1, 0xc5fd), (0x9342, 0xae08), (0x5644, 0xb07d),
  (0x69d1, 0xb9e4), (0x8b52, 0xd30c), (0x4e54, 0xad50), (0x3458, 0xac1c), (0x9edf, 0xc774),
  (0x7d5e, 0xad50), (0x41e1, 0xc800), (0x70eb, 0xd0d5), (0x926c, 0xbaa9), (0x556e, 0xad50),
  (0x3ff5, 0xc5f0), (0x68fb, 0xbd84), (0x8a7c, 0xd68c), (0x4d7e, 0xbd80), (0x7c88, 0xb274),
  (0x830d, 0xadf9), (0x460f, 0xd73c), (0x9196, 0xc628), (0x7519, 0xb300), (0x5498, 0xd3ec),
  (0x89a6, 0xc720), (0x6d29, 0xc124), (0x4ca8, 0xd64d), (0x7bb2, 0xc120), (0x8237, 0xd604),
  (0x4539, 0xc218), (0x90c0, 0xace0), (0x7443, 0xcd98), (0x53c2, 0xcc38), (0x88d0, 0xacac),
  (0x6c53, 0xc218), (0x4bd2, 0xd589), (0x7adc, 0xb8e1), (0x8161, 0xb77c), (0x4463, 0xce68),
  (0x736d, 0xb784), (0x52ec, 0xad8c), (0x87fa, 0xc120), (0x6b7d, 0xbab0), (0x4afc, 0xd608),
  (0x5081, 0xc218), (0x9b87, 0xbbf8), (0x640e, 0xc190), (0x4891, 0xc81c), (0x5c1e, 0xb8cc),
  (0x65a3, 0xcd95), (0x8724, 0xc0ac), (0x7930, 0xb825), (0x5db3, 0xc9c0), (0x3a32, 0xcc45),
  (0x84b9, 0xacb8), (0x5140, 0xc62c), (0x76c5, 0xcda9), (0x3bc7, 0xd3d0), (0x9846, 0xacfc),
  (0x4950, 0xbb34), (0x6ed5, 0xb4f1), (0x99db, 0xc0ac), (0x6262, 0xd758), (0x46e5, 0xd76c),
  (0x5a72, 0xd654), (0x63f7, 0xc0bd), (0x8578, 0xd558), (0x9001, 0xc1a1), (0x7784, 0xbb18),
  (0x3886, 0xc804), (0x410b, 0xc5c4), (0x8811, 0xc601), (0x6f94, 0xd638), (0x969a, 0xb2f9),
  (0x7a1d, 0xd33d), (0x3f1f, 0xbc31), (0x47a4, 0xad6c), (0x8eaa, 0xb9b0), (0x522d, 0xacbd),
  (0x9d33, 0xc548), (0x60b6, 0xbbfc), (0x4a3d, 0xbe44), (0x58c6, 0xd559), (0x83cc, 0xade0),
  (0x674f, 0xd589)]

/-- hanja/table.go:23305-23560 -/
def rawTable91 : List (Nat × Nat) := [
  (0x75d8, 0xb450), (0x36da, 0xc6a9), (0x5f5f, 0xd655), (0x8665, 0xc794), (0x6de8, 0xc815),
  (0x94ee, 0xc7c1), (0x7871, 0xace4), (0x3d73, 0xb8cc), (0x45f8, 0xc639), (0x8cfe, 0xc0c9),
  (0x9683, 0xc720), (0x7102, 0xc219), (0x5585, 0xc721), (0x8e93, 0xc9c0), (0x6912, 0xcd08),
  (0x4d95, 0xd30c), (0x3799, 0xb1e8), (0x7c9f, 0xc18d), (0x8220, 0xb3c4), (0x4122, 0xc81c),
  (0x91ad, 0xbcf5), (0x702c, 0xb8b0), (0x54af, 0xac01), (0x89bd, 0xb78c), (0x683c, 0xaca9),
  (0x4cbf, 0xc790), (0x36c3, 0xacb0), (0x7fc9, 0xbd84), (0x9d4a, 0xacb9), (0x404c, 0xc6b8),
  (0x90d7, 0xce58), (0x7356, 0xbd84), (0x57d9, 0xd6c8), (0x88e7, 0xcca8), (0x6b66, 0xbb34),
  (0x4fe9, 0xb7c9), (0x7ef3, 0xc2b9), (0x9c74, 0xba78), (0x4376, 0xb3d9), (0x7280, 0xc11c),
  (0x9505, 0xacfc), (0x5807, 0xadfc), (0x3d8a, 0xd76c), (0x6a90, 0xcca8), (0x8d15, 0xb3c5),
  (0x3a1b, 0xc12c), (0x9f9e, 0xbcc4), (0x6321, 0xb2f9), (0x42a0, 0xd76c), (0x942f, 0xc791),
  (0x5b31, 0xcc38), (0x3cb4, 0xc911), (0x65ba, 0xac1c), (0x8c3f, 0xacc4), (0x3545, 0xac11),
  (0x9ec8, 0xc8fc), (0x624b, 0xc218), (0x5dca, 0xc601), (0x9759, 0xc815), (0x5a5b, 0xacbd),
  (0x3fde, 0xbaa8), (0x64e4, 0xd615), (0x8f69, 0xd5cc), (0x346f, 0xc218), (0x99f2, 0xc8fc),
  (0x7d75, 0xd68c), (0x5cf4, 0xd604), (0x7a06, 0xb824), (0x5e89, 0xb3c8), (0x3f08, 0xb77c),
  (0x858f, 0xc758), (0x5216, 0xc6d4), (0x7b9b, 0xace0), (0x389d, 0xc18c), (0x991c, 0xacfc),
  (0x4a26, 0xbc29), (0x53ab, 0xc624), (0x9ab1, 0xac08), (0x6738, 0xb825), (0x4bbb, 0xb3c4),
  (0x5f48, 0xd0c4), (0x60cd, 0xae08), (0x864e, 0xd638), (0x745a, 0xd638), (0x58dd, 0xc720),
  (0x395c, 0xc704), (0x87e3, 0xae30), (0x6c6a, 0xc655), (0x75ef, 0xad00), (0x3af1, 0xb09c),
  (0x9b70, 0xbb38), (0x447a, 0xbc94), (0x6dff, 0xba71), (0x5703, 0xd3ec), (0x9e09, 0xc591),
  (0x618c, 0xc21c), (0x4f13, 0xbc30), (0x599c, 0xacb0), (0x80a2, 0xc9c0), (0x6425, 0xcd94),
  (0x932b, 0xc11d), (0x76ae, 0xd53c), (0x3bb0, 0xbe44), (0x5c35, 0xd1f4), (0x8b3b, 0xc774),
  (0x6ebe, 0xc678), (0x95c4, 0xc694), (0x7947, 0xae30), (0x3e49, 0xc6d0), (0x46ce, 0xd608),
  (0x8dd4, 0xad6c), (0x5157, 0xc5f0), (0x985d, 0xace8), (0x63e0, 0xc54c), (0x4967, 0xc120),
  (0x5bf0, 0xd658), (0x82f6, 0xb0a0), (0x6679, 0xc5ed), (0x848b, 0xc7a5), (0x7b0a, 0xc870),
  (0x478d, 0xccad), (0x7697, 0xc8fc), (0x9018, 0xc758), (0x531a, 0xbc29), (0x6ea7, 0xb960),
  (0x8828, 0xc18c), (0x4b2a, 0xbc15), (0x9bb5, 0xd0c8), (0x7a34, 0xb834), (0x46b7, 0xd61c),
  (0x75c1, 0xc810), (0x9742, 0xb825), (0x5244, 0xacbd), (0x6dd1, 0xc219), (0x8f52, 0xbd84),
  (0x4a54, 0xd0c0), (0x9adf, 0xd45c), (0x795e, 0xc2e0), (0x45e1, 0xc5b8), (0x74eb, 0xbd84),
  (0x966c, 0xcd94), (0x516e, 0xd61c), (0x3bf5, 0xb3d9), (0x6cfb, 0xc0ac), (0x8e7c, 0xbcf5),
  (0x497e, 0xc0ac), (0x3782, 0xd1f4), (0x7888, 0xbbfc), (0x870d, 0xc11c), (0x420f, 0xbcf5),
  (0x9596, 0xc218), (0x7119, 0xbc30), (0x5098, 0xc0b0), (0x8da6, 0xc790), (0x6929, 0xacbd),
  (0x48a8, 0xc885), (0x36ac, 0xade0), (0x7fb2, 0xd76c), (0x8637, 0xae30), (0x4139, 0xcc9c),
  (0x94c0, 0xc720), (0x7043, 0xd48d), (0x57c2, 0xacbd), (0x8cd0, 0xc21c), (0x6853, 0xd658),
  (0x4fd2, 0xd754), (0x35d6, 0xb2f4), (0x7edc, 0xb77d), (0x8561, 0xbd84), (0x4063, 0xc120),
  (0x776d, 0xcd94), (0x56ec, 0xd68c), (0x83fa, 0xacac), (0x6f7d, 0xbcf4), (0x4efc, 0xc655),
  (0x5481, 0xac10), (0x3500, 0xb7c9), (0x9f87, 0xc7ac), (0x600e, 0xc998), (0x4c91, 0xc758),
  (0x581e, 0xcca9), (0x61a3, 0xbc18), (0x8324, 0xb2e4), (0x7d30, 0xc138), (0x59b3, 0xb2c8),
  (0x3e32, 0xc791), (0x80b9, 0xd790), (0x5540, 0xc560), (0x72c5, 0xacbd), (0x3fc7, 0xc2b5),
  (0x9c46, 0xc7a5), (0x4d50, 0xcc9c), (0x6ad5, 0xcc2c), (0x9ddb, 0xc6a9), (0x6662, 0xc808),
  (0x42e5, 0xb9ac), (0x5e72, 0xac04), (0x67f7, 0xcd95), (0x8178, 0xc7a5), (0x9401, 0xc0ac),
  (0x7384, 0xd604), (0x3c86, 0xb839), (0x450b, 0xc0ac), (0x8c11, 0xd559), (0x6b94, 0xc774),
  (0x929a, 0xc870), (0x7e1d, 0xc9c4), (0x3b1f, 0xbd95), (0x43a4, 0xad6d), (0x8aaa, 0xc124),
  (0x562d, 0xd33d), (0x9933, 0xb2f9), (0x64b6, 0xd68d), (0x4e3d, 0xb824), (0x3441, 0xcd9c),
  (0x5cc6, 0xd569), (0x87cc, 0xcd1d), (0x634f, 0xb0a0), (0x71d8, 0xbbfc), (0x5b5f, 0xb9f9),
  (0x8265, 0xc9d1), (0x69e8, 0xacfd), (0x90ee, 0xc8fc), (0x7c71, 0xcc29), (0x3973, 0xc6d0),
  (0x41f8, 0xc815), (0x88fe, 0xac70), (0x9283, 0xcd1d), (0x7502, 0xbcc0), (0x5185, 0xb0b4),
  (0x8a93, 0xc11c), (0x6d12, 0xc138), (0x4995, 0xd3c9), (0x789f, 0xc124), (0x8620, 0xc7a5),
  (0x4522, 0xd654), (0x95ad, 0xb824), (0x742c, 0xc644), (0x50af, 0xcd1d), (0x8dbd, 0xbc29),
  (0x6c3c, 0xb2c9), (0x48bf, 0xc548), (0x7bc9, 0xcd95), (0x994a, 0xc0b0), (0x444c, 0xb780),
  (0x94d7, 0xd611), (0x7756, 0xb989), (0x53d9, 0xc11c), (0x8ce7, 0xd0d0), (0x6f66, 0xb8cc),
  (0x4be9, 0xacf1), (0x35ed, 0xc2e4), (0x7af3, 0xb4f1), (0x9874, 0xad00), (0x4776, 0xb7c9),
  (0x7680, 0xae09)]

/-- hanja/table.go:23561-23816 -/
def rawTable92 : List (Nat × Nat) := [
  (0x9105, 0xc6b0), (0x5c07, 0xc7a5), (0x398a, 0xd654), (0x6e90, 0xc6d0), (0x8915, 0xc720),
  (0x3e1b, 0xc18c), (0x9b9e, 0xc774), (0x6721, 0xc885), (0x46a0, 0xd63c), (0x902f, 0xb85d),
  (0x5f31, 0xc57d), (0x38b4, 0xc11c), (0x61ba, 0xb2f4), (0x883f, 0xcc30), (0x9ac8, 0xbc29),
  (0x664b, 0xc9c4), (0x59ca, 0xc790), (0x9359, 0xd639), (0x5e5b, 0xc7a5), (0x3bde, 0xacac),
  (0x60e4, 0xd604), (0x8b69, 0xc758), (0x9df2, 0xcde8), (0x7975, 0xace4), (0x58f4, 0xc8fc),
  (0x7e06, 0xae0d), (0x5a89, 0xc625), (0x3b08, 0xc628), (0x818f, 0xace0), (0x5616, 0xcc45),
  (0x7f9b, 0xc758), (0x3c9d, 0xc6a9), (0x9d1c, 0xc790), (0x4e26, 0xbcd1), (0x57ab, 0xc810),
  (0x9eb1, 0xbd80), (0x6338, 0xacac), (0x4fbb, 0xd0c8), (0x5b48, 0xd734), (0x64cd, 0xc870),
  (0x824e, 0xd669), (0x705a, 0xad50), (0x5cdd, 0xb3d9), (0x3d5c, 0xb0a8), (0x83e3, 0xae34),
  (0x686a, 0xc2ec), (0x71ef, 0xb839), (0x3ef1, 0xbd09), (0x9f70, 0xc0c9), (0x407a, 0xc11d),
  (0x69ff, 0xadfc), (0x5303, 0xac1c), (0x9a09, 0xace4), (0x658c, 0xbe48), (0x4b13, 0xc554),
  (0x3517, 0xbe44), (0x5d9c, 0xce68), (0x84a2, 0xc81c), (0x6025, 0xae09), (0x972b, 0xc2b5),
  (0x72ae, 0xbc1c), (0x3fb0, 0xd638), (0x5835, 0xb3c4), (0x8f3b, 0xbcf5), (0x6abe, 0xacbd),
  (0x91c4, 0xbbf8), (0x7d47, 0xad6c), (0x3a49, 0xd761), (0x42ce, 0xd0c4), (0x89d4, 0xadfc),
  (0x5557, 0xb2f4), (0x9c5d, 0xbd84), (0x67e0, 0xc800), (0x4d67, 0xc7ac), (0x376b, 0xb96d),
  (0x5ff0, 0xcdcc), (0x86f6, 0xb82c), (0x6279, 0xbe44), (0x3e04, 0xc81c), (0x888b, 0xb300),
  (0x770a, 0xbaa8), (0x4b8d, 0xb1e8), (0x7a97, 0xcc3d), (0x9c18, 0xc2e4), (0x5f1a, 0xd1f4),
  (0x62a7, 0xc9c0), (0x8428, 0xc0b4), (0x472a, 0xad6c), (0x3d2e, 0xc124), (0x97b5, 0xd61c),
  (0x7634, 0xc7a5), (0x4ab7, 0xad6c), (0x79c1, 0xc0ac), (0x9b42, 0xd63c), (0x5e44, 0xc545),
  (0x61d1, 0xbb38), (0x8352, 0xd669), (0x4654, 0xad6c), (0x3c58, 0xc5fc), (0x96df, 0xd734),
  (0x755e, 0xbb34), (0x49e1, 0xc6a9), (0x78eb, 0xc885), (0x9a6c, 0xb9c8), (0x5d6e, 0xc804),
  (0x37f5, 0xac15), (0x60fb, 0xce21), (0x827c, 0xc815), (0x457e, 0xc5c4), (0x3b82, 0xace1),
  (0x7488, 0xc624), (0x8b0d, 0xc601), (0x4e0f, 0xba74), (0x9996, 0xc218), (0x7d19, 0xc9c0),
  (0x5c98, 0xd604), (0x81a6, 0xb828), (0x6529, 0xb2f9), (0x44a8, 0xc2dc), (0x3aac, 0xd0c1),
  (0x73b2, 0xb839), (0x8a37, 0xc2e0), (0x4d39, 0xacfc), (0x98c0, 0xb958), (0x7c43, 0xb78c),
  (0x5bc2, 0xc801), (0x80d0, 0xad74), (0x6453, 0xbd09), (0x43d2, 0xd3b8), (0x39d6, 0xc561),
  (0x72dc, 0xace0), (0x8961, 0xcd09), (0x4c63, 0xc878), (0x7b6d, 0xc0b0), (0x5aec, 0xc11c),
  (0x8ffa, 0xb0b4), (0x637d, 0xc878), (0x42fc, 0xc815), (0x5881, 0xb9cc), (0x3900, 0xb9dd),
  (0x9387, 0xbbf8), (0x6c0e, 0xcca9), (0x4091, 0xc81c), (0x541e, 0xd0c4), (0x6da3, 0xd658),
  (0x8f24, 0xcc9c), (0x7130, 0xc5fc), (0x55b3, 0xc0ac), (0x8cb9, 0xc0dd), (0x5940, 0xb9dd),
  (0x7ec5, 0xc2e0), (0x9046, 0xccb4), (0x4150, 0xacac), (0x66d5, 0xc5fc), (0x91db, 0xd751),
  (0x6a62, 0xd0c0), (0x4ee5, 0xc774), (0x5272, 0xd560), (0x6bf7, 0xbaa8), (0x8d78, 0xc0b0),
  (0x9801, 0xd608), (0x7f84, 0xc870), (0x490b, 0xc6b1), (0x8011, 0xb2e8), (0x6794, 0xc2ec),
  (0x9e9a, 0xac00), (0x721d, 0xc791), (0x371f, 0xac10), (0x4fa4, 0xace0), (0x86aa, 0xb450),
  (0x5a2d, 0xc560), (0x9533, 0xc601), (0x68b6, 0xbbf8), (0x423d, 0xadfc), (0x3841, 0xacfc),
  (0x50c6, 0xb828), (0x8bcc, 0xcd08), (0x6f4f, 0xc728), (0x7dd8, 0xd568), (0x3eda, 0xbd95),
  (0x575f, 0xbd84), (0x8e65, 0xb828), (0x65e8, 0xc9c0), (0x9cee, 0xacc4), (0x7071, 0xd6a8),
  (0x3573, 0xd749), (0x84fe, 0xb85c), (0x9e83, 0xd3ec), (0x7902, 0xd76c), (0x5d85, 0xc624),
  (0x8693, 0xc778), (0x6112, 0xac8c), (0x4595, 0xcc28), (0x3f99, 0xd754), (0x749f, 0xacbd),
  (0x8a20, 0xc2e0), (0x4922, 0xbcc4), (0x99ad, 0xc5b4), (0x782c, 0xb9bd), (0x5caf, 0xbe44),
  (0x81bd, 0xb2f4), (0x603c, 0xb300), (0x44bf, 0xb8cc), (0x3ec3, 0xace1), (0x77c9, 0xbe48),
  (0x954a, 0xc12d), (0x484c, 0xad49), (0x98d7, 0xb958), (0x7b56, 0xcc45), (0x5fd9, 0xb9dd),
  (0x80e7, 0xb871), (0x6366, 0xae08), (0x47e9, 0xac01), (0x39ed, 0xacf5), (0x76f3, 0xb9dd),
  (0x9474, 0xd734), (0x4b76, 0xae30), (0x7a80, 0xb454), (0x9d05, 0xd658), (0x5007, 0xc6d0),
  (0x358a, 0xc2ec), (0x6290, 0xb20c), (0x8515, 0xccb4), (0x979e, 0xbe44), (0x6b21, 0xcc28),
  (0x4aa0, 0xc81c), (0x9c2f, 0xc57d), (0x5331, 0xada4), (0x34b4, 0xace8), (0x6dba, 0xac70),
  (0x843f, 0xd65c), (0x3d45, 0xd0d0), (0x96c8, 0xd658), (0x6a4b, 0xad50), (0x55ca, 0xd64d),
  (0x9f59, 0xd3ec), (0x525b, 0xac15), (0x37de, 0xc794), (0x6ce4, 0xc0ac), (0x8769, 0xc911),
  (0x3c6f, 0xc560), (0x91f2, 0xc0ac), (0x7575, 0xd654), (0x54f4, 0xb7c9), (0x7206, 0xd3ed),
  (0x5689, 0xb3cc), (0x3708, 0xbaa9), (0x8d8f, 0xd65c), (0x5a16, 0xcc29), (0x739b, 0xb9c8),
  (0x911c, 0xbd80), (0x4226, 0xc885), (0x5bab, 0xad81), (0x92b1, 0xc870), (0x6f38, 0xc810),
  (0x43bb, 0xc8fc)]

/-- hanja/table.go:23817-24072 -/
def rawTable93 : List (Nat × Nat) := [
  (0x5748, 0xac31), (0x68cd, 0xace4), (0x8e4e, 0xc804), (0x7c5a, 0xb85c), (0x50dd, 0xc794),
  (0x8fe3, 0xb82c), (0x646a, 0xc7a5), (0x7def, 0xc704), (0x9370, 0xd658), (0x4c7a, 0xd574),
  (0x65ff, 0xc624), (0x5f03, 0xae30), (0x9609, 0xc5c4), (0x698c, 0xbe44), (0x4713, 0xc12d),
  (0x3917, 0xd0dc), (0x519c, 0xb18d), (0x88a2, 0xbc88), (0x6c25, 0xc11c), (0x9b2b, 0xd568),
  (0x7eae, 0xad49), (0x5435, 0xcd08), (0x833b, 0xb9dd), (0x66be, 0xb3c8), (0x9dc4, 0xacc4),
  (0x7147, 0xd718), (0x3649, 0xc804), (0x4ece, 0xc885), (0x85d4, 0xb8cc), (0x5957, 0xd22c),
  (0x905d, 0xb2f5), (0x6be0, 0xac00), (0x4167, 0xc5fc), (0x3b6b, 0xc88c), (0x53f0, 0xd0dc),
  (0x8af6, 0xc2ec), (0x6e79, 0xc804), (0x3a04, 0xc870), (0x8c8b, 0xd55c), (0x730a, 0xc608),
  (0x4f8d, 0xc2dc), (0x7e97, 0xc218), (0x9818, 0xb839), (0x5b1a, 0xb834), (0x66a7, 0xc560),
  (0x8028, 0xb204), (0x432a, 0xc5fc), (0x392e, 0xad11), (0x93b5, 0xac00), (0x7234, 0xd655),
  (0x4eb7, 0xb834), (0x7dc1, 0xcca9), (0x9f42, 0xd76c), (0x5a44, 0xbd80), (0x65d1, 0xc758),
  (0x8752, 0xba74), (0x4254, 0xcc2c), (0x3858, 0xb834), (0x92df, 0xce68), (0x715e, 0xc0b4),
  (0x7ceb, 0xd658), (0x9e6c, 0xd73c), (0x596e, 0xbd84), (0x64fb, 0xc218), (0x867c, 0xd758),
  (0x417e, 0xc7a0), (0x3f82, 0xd574), (0x7088, 0xc5ed), (0x8f0d, 0xc695), (0x4a0f, 0xc790),
  (0x9d96, 0xcd94), (0x7919, 0xc560), (0x5898, 0xac74), (0x85a6, 0xcc9c), (0x6129, 0xacf5),
  (0x40a8, 0xcc28), (0x3eac, 0xacf5), (0x77b2, 0xd73c), (0x8e37, 0xcc28), (0x4939, 0xc218),
  (0x9cc0, 0xc81c), (0x7843, 0xc8fc), (0x5fc2, 0xad6c), (0x84d0, 0xc695), (0x6053, 0xc11c),
  (0x47d2, 0xad8c), (0x3dd6, 0xc870), (0x76dc, 0xb3c4), (0x8d61, 0xc12c), (0x4863, 0xd63c),
  (0x7f6d, 0xc5ed), (0x5eec, 0xb824), (0x8bfa, 0xb099), (0x677d, 0xcd98), (0x46fc, 0xd6fc),
  (0x5c81, 0xc138), (0x3d00, 0xbc94), (0x9787, 0xc778), (0x680e, 0xb825), (0x4491, 0xcd08),
  (0x501e, 0xacbd), (0x69a3, 0xc694), (0x8b24, 0xd45c), (0x7530, 0xc804), (0x51b3, 0xacb0),
  (0x3632, 0xad6d), (0x88b9, 0xb9d0), (0x5d40, 0xc8fc), (0x7ac5, 0xaddc), (0x37c7, 0xc88c),
  (0x9446, 0xcd94), (0x4550, 0xbcf5), (0x62d5, 0xd0c0), (0x95db, 0xb2f9), (0x6e62, 0xbcbd),
  (0x4ae5, 0xc678), (0x5672, 0xcf8c), (0x6ff7, 0xb9cc), (0x8978, 0xcc2c), (0x9c01, 0xcc9c),
  (0x7b84, 0xbe44), (0x3486, 0xd761), (0x4d0b, 0xd658), (0x8411, 0xcd94), (0x6394, 0xacac),
  (0x9a9a, 0xc18c), (0x761d, 0xad00), (0x4ba4, 0xd559), (0x82aa, 0xae30), (0x5e2d, 0xc11d),
  (0x9133, 0xb9f9), (0x6cb6, 0xc2dc), (0x463d, 0xc608), (0x3c41, 0xc218), (0x54c6, 0xce58),
  (0x8fcc, 0xb3cc), (0x6b4f, 0xadfc), (0x79d8, 0xbe44), (0x3ada, 0xbb3c), (0x535f, 0xacc4),
  (0x8a65, 0xd569), (0x61e8, 0xc5fc), (0x98ee, 0xc74c), (0x7471, 0xc804), (0x49f8, 0xace0),
  (0x80fe, 0xc790), (0x9a83, 0xc778), (0x7d02, 0xc8fc), (0x5985, 0xd64d), (0x8293, 0xc790),
  (0x6512, 0xcc2c), (0x4195, 0xc5f4), (0x3b99, 0xc545), (0x709f, 0xb2ec), (0x8e20, 0xc6d0),
  (0x4d22, 0xbbf8), (0x9dad, 0xbc29), (0x7c2c, 0xb85c), (0x58af, 0xd0c0), (0x85bd, 0xc9c4),
  (0x643c, 0xad8c), (0x40bf, 0xb2f5), (0x3ac3, 0xc5b8), (0x73c9, 0xbbfc), (0x914a, 0xc815),
  (0x4c4c, 0xc774), (0x9cd7, 0xb9cc), (0x7f56, 0xb77c), (0x5bd9, 0xc720), (0x84e7, 0xc870),
  (0x6766, 0xad6c), (0x43e9, 0xd611), (0x3ded, 0xbd09), (0x72f3, 0xc5ec), (0x9074, 0xb9b0),
  (0x4f76, 0xae38), (0x7e80, 0xbcf5), (0x9905, 0xbcd1), (0x5407, 0xc790), (0x6690, 0xc704),
  (0x8115, 0xb9cc), (0x361b, 0xac10), (0x939e, 0xbe44), (0x6f21, 0xc0c1), (0x4ea0, 0xb450),
  (0x982f, 0xaddc), (0x5731, 0xcc9c), (0x69ba, 0xc2b9), (0x803f, 0xacbd), (0x3945, 0xc218),
  (0x92c8, 0xc625), (0x6e4b, 0xc704), (0x51ca, 0xccad), (0x9b59, 0xcc38), (0x565b, 0xad50),
  (0x68e4, 0xc11d), (0x8369, 0xc2e0), (0x386f, 0xd0dd), (0x95f2, 0xd55c), (0x7175, 0xb0a8),
  (0x50f4, 0xd55c), (0x7606, 0xcc38), (0x5289, 0xb958), (0x898f, 0xaddc), (0x5e16, 0xcca9),
  (0x779b, 0xc885), (0x349d, 0xba78), (0x951c, 0xae30), (0x4626, 0xb2c8), (0x5fab, 0xc704),
  (0x96b1, 0xc740), (0x6b38, 0xc560), (0x47bb, 0xc6a9), (0x5348, 0xc624), (0x6ccd, 0xbd84),
  (0x8a4e, 0xac70), (0x785a, 0xad50), (0x54dd, 0xb18d), (0x355c, 0xc0ac), (0x8be3, 0xc608),
  (0x606a, 0xac01), (0x79ef, 0xc801), (0x36f1, 0xc678), (0x9770, 0xc62c), (0x487a, 0xc608),
  (0x61ff, 0xc758), (0x5b03, 0xc218), (0x9209, 0xb0a9), (0x6d8c, 0xc6a9), (0x4313, 0xbc88),
  (0x3d17, 0xc720), (0x559c, 0xd76c), (0x8ca2, 0xacf5), (0x6825, 0xc790), (0x9f2b, 0xc11d),
  (0x7aae, 0xad81), (0x37b0, 0xd5c8), (0x5035, 0xbb34), (0x873b, 0xccad), (0x62be, 0xac81),
  (0x99c4, 0xd0dc), (0x7547, 0xade0), (0x4ace, 0xcca0), (0x81d4, 0xd604), (0x5d57, 0xc138),
  (0x945d, 0xbd09), (0x6fe0, 0xd638), (0x4567, 0xd6a8), (0x3f6b, 0xc639), (0x57f0, 0xcc44),
  (0x8ef6, 0xc561), (0x6a79, 0xb85c), (0x4604, 0xc800), (0x6a87, 0xcde8), (0x950e, 0xac1c),
  (0x5e14, 0xd53c)]

/-- hanja/table.go:24073-24328 -/
def rawTable94 : List (Nat × Nat) := [
  (0x889b, 0xc800), (0x51a1, 0xbabd), (0x7624, 0xb958), (0x3f2a, 0xd611), (0x452e, 0xc0ac),
  (0x69b1, 0xcd5c), (0x9438, 0xd0c1), (0x5d3e, 0xc694), (0x87c5, 0xc790), (0x50cb, 0xd0d0),
  (0x754e, 0xacac), (0x3e54, 0xac15), (0x4458, 0xcc28), (0x68db, 0xc721), (0x9362, 0xbcf5),
  (0x5c68, 0xad6c), (0x86ef, 0xb178), (0x4ff5, 0xd45c), (0x7478, 0xbe48), (0x9eff, 0xc6d0),
  (0x3d7e, 0xc815), (0x4382, 0xd3ec), (0x6d09, 0xd6c4), (0x928c, 0xc874), (0x360f, 0xb3d7),
  (0x5b92, 0xc900), (0x8b1d, 0xc0ac), (0x5423, 0xc2ec), (0x73a2, 0xbd84), (0x3ca8, 0xc6a9),
  (0x42ac, 0xcc28), (0x6c33, 0xc628), (0x91b6, 0xc5fc), (0x3539, 0xb97c), (0x5abc, 0xc628),
  (0x8a47, 0xc559), (0x534d, 0xb9cc), (0x72cc, 0xc131), (0x3bd2, 0xba71), (0x41d6, 0xc6b4),
  (0x6b5d, 0xc5ed), (0x90e0, 0xacbd), (0x3463, 0xb78c), (0x59e6, 0xac04), (0x8971, 0xb871),
  (0x5277, 0xc0b0), (0x71f6, 0xb18d), (0x3afc, 0xc81c), (0x4100, 0xd654), (0x6583, 0xd3d0),
  (0x8202, 0xc6a9), (0x3891, 0xc218), (0x5910, 0xd615), (0x7d93, 0xacbd), (0x9a12, 0xc18c),
  (0x8397, 0xcc28), (0x7120, 0xc26c), (0x56a5, 0xc5f0), (0x9ba7, 0xc81c), (0x4a32, 0xb204),
  (0x6eb5, 0xc740), (0x8f34, 0xc21c), (0x6242, 0xc810), (0x4bc7, 0xace8), (0x8cc9, 0xd73c),
  (0x3950, 0xc6d0), (0x7a52, 0xc870), (0x63d7, 0xc21c), (0x8056, 0xc131), (0x36e5, 0xd0d1),
  (0x5764, 0xace4), (0x7be7, 0xcc29), (0x9866, 0xcd08), (0x81eb, 0xad50), (0x6f74, 0xc800),
  (0x54f9, 0xbd80), (0x99fb, 0xd55c), (0x4886, 0xc6a9), (0x8d88, 0xc7a0), (0x720d, 0xc0ad),
  (0x6096, 0xd328), (0x4f1f, 0xc704), (0x9021, 0xc900), (0x37a4, 0xc74c), (0x78a6, 0xac1d),
  (0x672f, 0xcd9c), (0x55b8, 0xd3ff), (0x96ba, 0xac01), (0x3a3d, 0xbcbd), (0x7f3f, 0xd56d),
  (0x4041, 0xb7c9), (0x8543, 0xbc88), (0x6dc8, 0xad74), (0x5851, 0xc18c), (0x9d53, 0xbc1c),
  (0x46da, 0xb7b5), (0x8bdc, 0xc120), (0x7061, 0xb780), (0x5eea, 0xb984), (0x4d73, 0xd68c),
  (0x8e75, 0xcd95), (0x35f8, 0xc704), (0x76fa, 0xd754), (0x8b06, 0xc120), (0x500c, 0xad00),
  (0x748f, 0xccb4), (0x3d95, 0xac04), (0x4799, 0xc7a1), (0x681c, 0xc0c9), (0x96a3, 0xb9b0),
  (0x5fa9, 0xbcf5), (0x8a30, 0xc900), (0x5336, 0xad6c), (0x77b9, 0xc560), (0x3cbf, 0xc655),
  (0x46c3, 0xc644), (0x6b46, 0xd760), (0x91cd, 0xc911), (0x5ed3, 0xd655), (0x855a, 0xc545),
  (0x5260, 0xacbd), (0x76e3, 0xac10), (0x3fe9, 0xb2f9), (0x9d6a, 0xc554), (0x41ed, 0xb85c),
  (0x6a70, 0xace0), (0x90f7, 0xd5a5), (0x59fd, 0xada4), (0x6301, 0xc9c0), (0x8484, 0xad00),
  (0x4d8a, 0xb275), (0x7b11, 0xc18c), (0x9c94, 0xc720), (0x4a1b, 0xc11d), (0x659a, 0xac00),
  (0x9525, 0xcd94), (0x622b, 0xc5ed), (0x7daa, 0xcc9c), (0x87ae, 0xccb4), (0x4cb4, 0xc9d0),
  (0x7a3b, 0xb3c4), (0x4545, 0xc18c), (0x64c4, 0xb85c), (0x944f, 0xb155), (0x5d55, 0xc885),
  (0x7cd4, 0xc218), (0x86d8, 0xc591), (0x4fde, 0xc720), (0x7565, 0xb7b5), (0x9ee8, 0xb2f9),
  (0x446f, 0xc81c), (0x67ee, 0xb3cc), (0x9779, 0xb0a9), (0x5c7f, 0xc11c), (0x7ffe, 0xd604),
  (0x4f08, 0xc2ec), (0x738b, 0xc655), (0x8c0a, 0xc758), (0x6718, 0xc804), (0x489d, 0xc544),
  (0x8d9f, 0xc7c1), (0x3a26, 0xc1a1), (0x7f28, 0xc601), (0x60ad, 0xac04), (0x812c, 0xd3ec),
  (0x3bbb, 0xc870), (0x543a, 0xb450), (0x78bd, 0xacf5), (0x993c, 0xd76c), (0x82c1, 0xc885),
  (0x6c4a, 0xcc28), (0x55cf, 0xcc28), (0x9ad1, 0xcd09), (0x495c, 0xd55c), (0x6ddf, 0xc804),
  (0x8e5e, 0xaddc), (0x616c, 0xadfc), (0x4af1, 0xc720), (0x8ff3, 0xacbd), (0x347a, 0xc900),
  (0x797c, 0xad00), (0x8380, 0xc2e0), (0x6405, 0xad50), (0x568e, 0xd638), (0x9b90, 0xd0dc),
  (0x3f13, 0xb834), (0x7c15, 0xb975), (0x4117, 0xc5f0), (0x8619, 0xc608), (0x6e9e, 0xc18c),
  (0x5927, 0xb300), (0x9e29, 0xc9d0), (0x4bb0, 0xc801), (0x88b2, 0xc774), (0x7137, 0xbe44),
  (0x63c0, 0xac04), (0x4e49, 0xc758), (0x934b, 0xacfc), (0x36ce, 0xb824), (0x7bd0, 0xace0),
  (0x6659, 0xc900), (0x50e2, 0xcc9c), (0x95e4, 0xd658), (0x3967, 0xc21c), (0x7e69, 0xc2b9),
  (0x436b, 0xd0c0), (0x806d, 0xadc0), (0x68f2, 0xc11c), (0x5b7b, 0xb0b4), (0x987d, 0xc644),
  (0x4204, 0xd568), (0x6e87, 0xb8e8), (0x378d, 0xd658), (0x910e, 0xc2dd), (0x5a14, 0xadf9),
  (0x8c9b, 0xd658), (0x55a1, 0xc704), (0x7224, 0xb780), (0x3b2a, 0xcca9), (0x412e, 0xbd80),
  (0x6db1, 0xc561), (0x36b7, 0xb0b4), (0x9038, 0xc77c), (0x593e, 0xd611), (0x83c5, 0xad00),
  (0x54cb, 0xc9c0), (0x714e, 0xc804), (0x9bd5, 0xae30), (0x3a54, 0xb454), (0x4058, 0xc694),
  (0x6cdb, 0xbc94), (0x35e1, 0xc787), (0x9762, 0xba74), (0x5868, 0xacf5), (0x82ef, 0xbd84),
  (0x4bf5, 0xc54c), (0x7078, 0xad6c), (0x9aff, 0xc0ac), (0x397e, 0xb2c9), (0x4782, 0xc5f0),
  (0x6909, 0xc2b9), (0x968c, 0xc554), (0x5f92, 0xb3c4), (0x8f1d, 0xd718), (0x5023, 0xbc29),
  (0x77a2, 0xbabd), (0x38a8, 0xd55c), (0x46ac, 0xb9b0), (0x6833, 0xb85c), (0x95b6, 0xcc3d),
  (0x5ebc, 0xacbd), (0x8e47, 0xac74), (0x574d, 0xb2e8), (0x76cc, 0xc644), (0x3fd2, 0xc8fc),
  (0x45d6, 0xccb4)]

/-- hanja/table.go:24329-24584 -/
def rawTable95 : List (Nat × Nat) := [
  (0x6f5d, 0xd761), (0x94e0, 0xac1c), (0x5de6, 0xc88c), (0x8d71, 0xc8fc), (0x5677, 0xd760),
  (0x75f6, 0xc804), (0x3efc, 0xb2f4), (0x4500, 0xc720), (0x6183, 0xc6a9), (0x8602, 0xc608),
  (0x3c91, 0xc218), (0x5d10, 0xace4), (0x7993, 0xc591), (0x9e12, 0xc5ec), (0x8797, 0xb2f9),
  (0x7520, 0xccad), (0x52a5, 0xac31), (0x4e32, 0xad00), (0x6ab5, 0xacc4), (0x8b34, 0xace4),
  (0x6642, 0xc2dc), (0x4fc7, 0xad11), (0x88c9, 0xac04), (0x3d50, 0xad90), (0x7e52, 0xc99d),
  (0x67d7, 0xc1a1), (0x8456, 0xb3cc), (0x5364, 0xb85c), (0x7fe7, 0xd6e4), (0x9c66, 0xc2b9),
  (0x85eb, 0xb2f4), (0x6b74, 0xb825), (0x50f9, 0xac00), (0x9dfb, 0xb2e8), (0x4c86, 0xc18c),
  (0x8988, 0xd575), (0x350b, 0xac10), (0x760d, 0xc591), (0x6496, 0xac10), (0x4b1f, 0xb958),
  (0x9421, 0xcca0), (0x7ca6, 0xb9b0), (0x632f, 0xc9c4), (0x51b8, 0xbc18), (0x92ba, 0xc7a5),
  (0x3e3d, 0xd328), (0x7b3f, 0xb77d), (0x4441, 0xc625), (0x8143, 0xadc0), (0x69c8, 0xb204),
  (0x5c51, 0xc124), (0x9953, 0xc7c1), (0x42da, 0xc775), (0x8fdc, 0xc6d0), (0x7461, 0xc0ac),
  (0x5aea, 0xb85c), (0x4973, 0xc6b0), (0x8a75, 0xc120), (0x72fa, 0xc740), (0x8f06, 0xd574),
  (0x540c, 0xb3d9), (0x708f, 0xac1c), (0x3995, 0xb96d), (0x4399, 0xbe48), (0x6c1c, 0xc591),
  (0x92a3, 0xc5ec), (0x3522, 0xc808), (0x5ba9, 0xc2dc), (0x8e30, 0xc720), (0x5736, 0xacb9),
  (0x73b9, 0xd604), (0x38bf, 0xd6c4), (0x42c3, 0xbaa8), (0x6f46, 0xd615), (0x95cd, 0xb3c4),
  (0x344c, 0xc655), (0x5ad3, 0xbe44), (0x815a, 0xc815), (0x5660, 0xb2ec), (0x72e3, 0xc870),
  (0x3be9, 0xc774), (0x996a, 0xc784), (0x45ed, 0xd658), (0x6e70, 0xb96d), (0x94f7, 0xc5ec),
  (0x3776, 0xb4dd), (0x5dfd, 0xc190), (0x6701, 0xcc38), (0x8084, 0xc774), (0x498a, 0xb1e8),
  (0x7f11, 0xad6c), (0x9894, 0xc554), (0x4e1b, 0xcd1d), (0x619a, 0xd0c4), (0x36a0, 0xd6a8),
  (0x9125, 0xad50), (0x662b, 0xad6c), (0x79aa, 0xc120), (0x83ae, 0xb0a8), (0x48b4, 0xcc9c),
  (0x7e3b, 0xbbf8), (0x9bbe, 0xb1cc), (0x4145, 0xaddc), (0x60c4, 0xb141), (0x904f, 0xc54c),
  (0x5955, 0xd601), (0x78d4, 0xcc45), (0x82d8, 0xacbd), (0x4bde, 0xacfc), (0x7165, 0xd658),
  (0x9ae8, 0xace4), (0x406f, 0xd761), (0x63ee, 0xd718), (0x9379, 0xc120), (0x587f, 0xb8e8),
  (0x7bfe, 0xba78), (0x4b08, 0xd0dc), (0x778b, 0xc9c4), (0x880a, 0xb834), (0x6318, 0xb82c),
  (0x4c9d, 0xcc3d), (0x899f, 0xc9c0), (0x3e26, 0xd638), (0x7b28, 0xbd84), (0x64ad, 0xd30c),
  (0x852c, 0xc18c), (0x3fbb, 0xc800), (0x503a, 0xcc44), (0x7cbd, 0xc885), (0x9d3c, 0xb77d),
  (0x86c1, 0xc870), (0x684a, 0xad8c), (0x51cf, 0xac10), (0x9ed1, 0xd751), (0x4d5c, 0xb18d),
  (0x69df, 0xbe48), (0x8a5e, 0xc0ac), (0x656c, 0xacbd), (0x4ef1, 0xac80), (0x8bf3, 0xad11),
  (0x7d7c, 0xc9c4), (0x8780, 0xc7a5), (0x6005, 0xcc3d), (0x528e, 0xac80), (0x9f90, 0xbc29),
  (0x3b13, 0xd45c), (0x7815, 0xc1c4), (0x4517, 0xc0c1), (0x8219, 0xd654), (0x6a9e, 0xd574),
  (0x5d27, 0xc22d), (0x9a29, 0xadc0), (0x4fb0, 0xad70), (0x8cb2, 0xc790), (0x7537, 0xb0a8),
  (0x67c0, 0xd53c), (0x4a49, 0xbcf4), (0x974b, 0xb825), (0x7fd0, 0xc9c8), (0x6259, 0xc7a5),
  (0x54e2, 0xb871), (0x91e4, 0xc0bc), (0x3d67, 0xac08), (0x7a69, 0xc628), (0x476b, 0xc791),
  (0x846d, 0xac00), (0x6cf2, 0xc81c), (0x5f7b, 0xcca0), (0x9c7d, 0xb3c4), (0x4e04, 0xc0c1),
  (0x6287, 0xace8), (0x3b8d, 0xc794), (0x9d0e, 0xad6c), (0x5614, 0xad6c), (0x809b, 0xd56d),
  (0x59a1, 0xd754), (0x7e24, 0xc18c), (0x372a, 0xc2e0), (0x4d2e, 0xc0b0), (0x61b1, 0xcd94),
  (0x3ab7, 0xb450), (0x9c38, 0xad6c), (0x553e, 0xd0c0), (0x8fc5, 0xc2e0), (0x58cb, 0xb2f9),
  (0x7d4e, 0xd589), (0x97d5, 0xb3c8), (0x3654, 0xc704), (0x4c58, 0xb9ac), (0x60db, 0xd63c),
  (0x39e1, 0xd574), (0x9b62, 0xae30), (0x5468, 0xc8fc), (0x8eef, 0xd33d), (0x47f5, 0xad6c),
  (0x7c78, 0xc2e0), (0x96ff, 0xc870), (0x357e, 0xc19f), (0x4b82, 0xbc1c), (0x6509, 0xd655),
  (0x9a8c, 0xd5d8), (0x3e0f, 0xbbf8), (0x5392, 0xac11), (0x831d, 0xcc44), (0x5c23, 0xc655),
  (0x7ba2, 0xc6d0), (0x34a8, 0xc120), (0x4aac, 0xbc1c), (0x6433, 0xd560), (0x99b6, 0xc9c0),
  (0x3d39, 0xbbf8), (0x52bc, 0xd560), (0x8247, 0xc815), (0x5b4d, 0xc5c4), (0x7acc, 0xcc98),
  (0x49d6, 0xc804), (0x635d, 0xd0c8), (0x98e0, 0xc2dd), (0x3c63, 0xd1f4), (0x51e6, 0xcc98),
  (0x8171, 0xac74), (0x5a77, 0xc815), (0x79f6, 0xc790), (0x4900, 0xc57d), (0x6d83, 0xace4),
  (0x8a02, 0xc815), (0x5110, 0xbe48), (0x7593, 0xb0b4), (0x9212, 0xc0bd), (0x8b97, 0xd68d),
  (0x7920, 0xc790), (0x5ea5, 0xd734), (0x93a7, 0xac1c), (0x4232, 0xbc18), (0x66b5, 0xd55c),
  (0x8734, 0xcc99), (0x6a42, 0xc874), (0x43c7, 0xd45c), (0x84c9, 0xc6a9), (0x7252, 0xcca9),
  (0x6bd7, 0xbe44), (0x8856, 0xd56d), (0x3ee5, 0xc720), (0x5f64, 0xb3d9), (0x73e7, 0xc694),
  (0x9066, 0xad00), (0x89eb, 0xc18d), (0x6774, 0xd5d8), (0x5cf9, 0xb3c4), (0x91fb, 0xd658),
  (0x4086, 0xaca9), (0x8588, 0xd68c), (0x390b, 0xbd84), (0x7a0d, 0xcd08), (0x6896, 0xd328),
  (0x471f, 0xcc38)]

/-- hanja/table.go:24585-24840 -/
def rawTable96 : List (Nat × Nat) := [
  (0x9821, 0xd790), (0x3fa4, 0xac15), (0x70a6, 0xbc1c), (0x6f2f, 0xd0d1), (0x5db8, 0xc601),
  (0x9eba, 0xba74), (0x773f, 0xb9e5), (0x4841, 0xb871), (0x8d43, 0xc7a5), (0x65c8, 0xb958),
  (0x5051, 0xd48d), (0x9553, 0xac00), (0x4eda, 0xd5cc), (0x83dc, 0xcc44), (0x7861, 0xad49),
  (0x56ea, 0xcc3d), (0x4573, 0xbbf8), (0x8675, 0xc0ac), (0x3df8, 0xc5fd), (0x7efa, 0xb958),
  (0x8306, 0xbb18), (0x580c, 0xace0), (0x7c8f, 0xd0dc), (0x3595, 0xc54c), (0x4f99, 0xce59),
  (0x601c, 0xb839), (0x9ea3, 0xc554), (0x3922, 0xc6b1), (0x57a9, 0xc545), (0x8230, 0xd568),
  (0x5b36, 0xbe44), (0x7fb9, 0xac31), (0x34bf, 0xb9ac), (0x4ec3, 0xc815), (0x6346, 0xace4),
  (0x99cd, 0xd3c9), (0x384c, 0xbaa8), (0x56d3, 0xc124), (0x8d5a, 0xc7a0), (0x5a60, 0xc644),
  (0x7ee3, 0xc218), (0x37e9, 0xbbfc), (0x956a, 0xac15), (0x49ed, 0xcd1d), (0x6270, 0xc6b0),
  (0x98f7, 0xc790), (0x3b76, 0xbc29), (0x51fd, 0xd568), (0x6b01, 0xb18d), (0x8c84, 0xc0ac),
  (0x458a, 0xc608), (0x7311, 0xace4), (0x9494, 0xbb38), (0x421b, 0xad34), (0x6d9a, 0xc138),
  (0x3aa0, 0xac10), (0x9d25, 0xc728), (0x6a2b, 0xacac), (0x75aa, 0xbe44), (0x8fae, 0xbcc0),
  (0x44b4, 0xc720), (0x723b, 0xd6a8), (0x97be, 0xd654), (0x4d45, 0xc624), (0x6cc4, 0xc124),
  (0x9c4f, 0xc2ec), (0x5555, 0xb3c4), (0x74d4, 0xc601), (0x8ed8, 0xb3c8), (0x47de, 0xc8fc),
  (0x7d65, 0xbcf5), (0x96e8, 0xc6b0), (0x4c6f, 0xb9b0), (0x6fee, 0xbcf5), (0x9f79, 0xcc28),
  (0x547f, 0xac70), (0x77fe, 0xbc18), (0x4708, 0xcd08), (0x7b8b, 0xc804), (0x840a, 0xb798),
  (0x6f18, 0xc21c), (0x409d, 0xd0c0), (0x859f, 0xb834), (0x7728, 0xc7a1), (0x68ad, 0xc0ac),
  (0x892c, 0xc0c1), (0x5c3a, 0xcc99), (0x70bd, 0xce58), (0x913c, 0xcc2c), (0x8ac1, 0xcca0),
  (0x644a, 0xd0c4), (0x5dcf, 0xad8c), (0x92d1, 0xc804), (0x415c, 0xd0c0), (0x65df, 0xc5ec),
  (0x865e, 0xc6b0), (0x696c, 0xac08), (0x42f1, 0xb798), (0x87f3, 0xc2ec), (0x3c7a, 0xb824),
  (0x717c, 0xcd94), (0x8b80, 0xb3c5), (0x6c05, 0xcc3d), (0x5e8e, 0xac1c), (0x9390, 0xc694),
  (0x3713, 0xb2f5), (0x7415, 0xbcd1), (0x4917, 0xac10), (0x8e19, 0xc12d), (0x669e, 0xad50),
  (0x5127, 0xcc2c), (0x9629, 0xc2b9), (0x43b0, 0xc791), (0x80b2, 0xc721), (0x7937, 0xb78c),
  (0x6bc0, 0xd6fc), (0x4649, 0xc21c), (0x9b4b, 0xcd94), (0x3ece, 0xc2ac), (0x73d0, 0xbc95),
  (0x6e59, 0xc5ed), (0x58e2, 0xb825), (0x9de4, 0xb2e8), (0x7669, 0xb77c), (0x4b6b, 0xacc4),
  (0x886d, 0xbd80), (0x60f2, 0xc6b4), (0x537b, 0xac01), (0x907d, 0xac70), (0x4a04, 0xc554),
  (0x6687, 0xac00), (0x3f8d, 0xb0b4), (0x990e, 0xb77d), (0x5214, 0xacb0), (0x849b, 0xacb0),
  (0x5da1, 0xad90), (0x7a24, 0xc218), (0x492e, 0xc12d), (0x65b1, 0xc791), (0x3eb7, 0xc220),
  (0x9838, 0xacbd), (0x513e, 0xb0ad), (0x8bc5, 0xc800), (0x5ccb, 0xc21c), (0x794e, 0xc758),
  (0x93d5, 0xc624), (0x4858, 0xc804), (0x64db, 0xc5fd), (0x3de1, 0xacbd), (0x9f62, 0xb839),
  (0x5068, 0xcc28), (0x8aef, 0xc804), (0x43f5, 0xbabd), (0x7878, 0xd559), (0x92ff, 0xc0c1),
  (0x4f82, 0xd0c1), (0x6109, 0xc720), (0x9e8c, 0xc6b0), (0x3a0f, 0xd0c4), (0x5792, 0xb8e8),
  (0x871d, 0xae30), (0x5823, 0xc6b0), (0x7fa2, 0xc735), (0x4eac, 0xacbd), (0x6033, 0xd669),
  (0x9db6, 0xb2f9), (0x3939, 0xad6c), (0x56bc, 0xc791), (0x8647, 0xad8c), (0x5f4d, 0xd655),
  (0x7ecc, 0xcd9c), (0x37d2, 0xade0), (0x675d, 0xc774), (0x9ce0, 0xd654), (0x3863, 0xb8e1),
  (0x55e6, 0xc0c9), (0x8571, 0xcd08), (0x5e77, 0xbcd1), (0x7df6, 0xd3b8), (0x36fc, 0xc0bd),
  (0x4d00, 0xb3d9), (0x6983, 0xd5d8), (0x8e02, 0xc12d), (0x3491, 0xd68c), (0x5510, 0xb2f9),
  (0x7193, 0xc624), (0x9612, 0xaca9), (0x8f97, 0xc804), (0x7d20, 0xc18c), (0x5aa5, 0xd3b8),
  (0x97a7, 0xcd94), (0x4632, 0xce68), (0x62b5, 0xc800), (0x8334, 0xd68c), (0x6e42, 0xc545),
  (0x47c7, 0xae30), (0x80c9, 0xbc15), (0x3550, 0xc0ac), (0x7652, 0xc720), (0x6fd7, 0xba71),
  (0x8c56, 0xcd95), (0x3ae5, 0xba85), (0x5b64, 0xace0), (0x77e7, 0xc2e0), (0x9466, 0xd604),
  (0x8deb, 0xacf5), (0x6374, 0xcd1d), (0x58f9, 0xc77c), (0x95fb, 0xbb38), (0x4486, 0xcca0),
  (0x8188, 0xaca9), (0x3d0b, 0xc219), (0x7e0d, 0xbc29), (0x6c96, 0xcda9), (0x431f, 0xbcbd),
  (0x9c21, 0xb958), (0x3ba4, 0xc1a1), (0x74a6, 0xc560), (0x6b2f, 0xd790), (0x59b8, 0xc544),
  (0x9aba, 0xd6c4), (0x363d, 0xc7ac), (0x733f, 0xc6d0), (0x4c41, 0xad50), (0x8943, 0xd3ec),
  (0x61c8, 0xd574), (0x5451, 0xd0c4), (0x9153, 0xc5fc), (0x4ada, 0xacfc), (0x87dc, 0xad50),
  (0x7c61, 0xcca8), (0x52ea, 0xac39), (0x4173, 0xcd94), (0x8275, 0xbcd1), (0x39f8, 0xd33d),
  (0x7afa, 0xcd95), (0x8706, 0xd604), (0x5c0c, 0xc8fc), (0x788f, 0xc791), (0x4b99, 0xc5ed),
  (0x641c, 0xc218), (0x9aa3, 0xc794), (0x3d22, 0xc911), (0x53a9, 0xad6c), (0x8630, 0xb9cc),
  (0x5f36, 0xac15), (0x7bb9, 0xc57d), (0x4ac3, 0xc9c4), (0x6746, 0xac04), (0x9dcd, 0xad50),
  (0x3c4c, 0xcca9), (0x52d3, 0xac1c), (0x895a, 0xc218), (0x5e60, 0xbb34), (0x7ae3, 0xc900),
  (0x916a, 0xb77d)]

/-- hanja/table.go:24841-25096 -/
def rawTable97 : List (Nat × Nat) := [
  (0x6670, 0xc11d), (0x9cf7, 0xc9c0), (0x3f76, 0xae30), (0x55fd, 0xc218), (0x6f01, 0xc5b4),
  (0x8884, 0xc624), (0x418a, 0xbbf8), (0x7711, 0xc720), (0x9094, 0xae30), (0x461b, 0xae30),
  (0x699a, 0xc694), (0x3ea0, 0xc720), (0x9925, 0xbe44), (0x6e2b, 0xc124), (0x71aa, 0xc774),
  (0x8bae, 0xc758), (0x40b4, 0xc5f0), (0x763b, 0xb8e8), (0x93be, 0xc628), (0x4945, 0xae08),
  (0x68c4, 0xae30), (0x984f, 0xc548), (0x5155, 0xc2dc), (0x70d4, 0xb3d9), (0x8ad8, 0xd45c),
  (0x43de, 0xb9d0), (0x7965, 0xc0c1), (0x92e8, 0xcca0), (0x486f, 0xcd1d), (0x6bee, 0xbaa8),
  (0x9b79, 0xbaa8), (0x507f, 0xc0c1), (0x73fe, 0xd604), (0x4308, 0xd0d1), (0x7f8b, 0xbbf8),
  (0x800a, 0xc9c8), (0x6b18, 0xcd09), (0x449d, 0xd6a8), (0x819f, 0xb960), (0x3626, 0xadfc),
  (0x7328, 0xc6d0), (0x6cad, 0xc220), (0x8d2c, 0xd3c4), (0x37bb, 0xd638), (0x583a, 0xacc4),
  (0x74bd, 0xc0c8), (0x953c, 0xc218), (0x8ec1, 0xb8e8), (0x604a, 0xd611), (0x59cf, 0xb2f4),
  (0x96d1, 0xc7a1), (0x455c, 0xcde8), (0x61df, 0xb300), (0x825e, 0xc694), (0x6d6c, 0xb9ac),
  (0x46f1, 0xc81c), (0x83f3, 0xae08), (0x387a, 0xb2e8), (0x757c, 0xcc3d), (0x8f80, 0xc8fc),
  (0x6805, 0xcc45), (0x5a8e, 0xc800), (0x9790, 0xd558), (0x7015, 0xbe48), (0x4d17, 0xaca9),
  (0x8a19, 0xc2e0), (0x629e, 0xd0dd), (0x5527, 0xc989), (0x9229, 0xd638), (0x47b0, 0xcc45),
  (0x84b2, 0xd3ec), (0x7d37, 0xb839), (0x6fc0, 0xaca9), (0x4249, 0xace0), (0x9f4b, 0xc7ac),
  (0x3ace, 0xd718), (0x77d0, 0xd559), (0x6a59, 0xb4f1), (0x5ce2, 0xb9ac), (0x99e4, 0xce58),
  (0x3567, 0xd788), (0x7269, 0xbb3c), (0x4f6b, 0xac01), (0x8c6d, 0xac00), (0x64f2, 0xcc99),
  (0x577b, 0xc9c0), (0x947d, 0xcc2c), (0x5604, 0xad50), (0x7a87, 0xbc15), (0x850e, 0xc124),
  (0x4e14, 0xcc28), (0x989b, 0xc804), (0x371a, 0xc219), (0x41a1, 0xb791), (0x6624, 0xb839),
  (0x552e, 0xc218), (0x79b1, 0xb3c4), (0x8438, 0xc720), (0x4d3e, 0xcc28), (0x97c5, 0xd604),
  (0x3644, 0xd3d0), (0x40cb, 0xc720), (0x654e, 0xad50), (0x8fd5, 0xc624), (0x5458, 0xc6d0),
  (0x78db, 0xcc38), (0x8362, 0xc6b0), (0x4c68, 0xc81c), (0x96ef, 0xbb38), (0x356e, 0xbd80),
  (0x5ff5, 0xb150), (0x6478, 0xbaa8), (0x8eff, 0xbcd1), (0x5382, 0xc5c4), (0x7d09, 0xc778),
  (0x828c, 0xc6b0), (0x4b92, 0xd3ec), (0x3498, 0xc218), (0x9b1d, 0xac04), (0x4423, 0xc190),
  (0x63a2, 0xd0d0), (0x52ac, 0xad6c), (0x7c33, 0xac04), (0x81b6, 0xc724), (0x4abc, 0xc808),
  (0x9a47, 0xc9c0), (0x434d, 0xbd80), (0x62cc, 0xbc18), (0x51d6, 0xc900), (0x7b5d, 0xc7c1),
  (0x80e0, 0xac70), (0x49e6, 0xc704), (0x9971, 0xd3ec), (0x4277, 0xc5c4), (0x61f6, 0xb77c),
  (0x5100, 0xc758), (0x7583, 0xd0c4), (0x9202, 0xce68), (0x4910, 0xc7a0), (0x6d93, 0xc5f0),
  (0x8a12, 0xc778), (0x9397, 0xc7c1), (0x3c1e, 0xce58), (0x6120, 0xc628), (0x46a5, 0xc57d),
  (0x8ba7, 0xd64d), (0x3db3, 0xc2e0), (0x5a32, 0xc65c), (0x7eb5, 0xc885), (0x9f34, 0xc5b8),
  (0x7242, 0xc7a5), (0x5bc7, 0xad6c), (0x9cc9, 0xc7a5), (0x6a52, 0xc6b4), (0x73d7, 0xc120),
  (0x9056, 0xb0a8), (0x4764, 0xb8cc), (0x6be7, 0xc735), (0x8866, 0xac04), (0x91eb, 0xd654),
  (0x3a72, 0xad8c), (0x7f74, 0xbe44), (0x44f9, 0xc758), (0x89fb, 0xb825), (0x5886, 0xccb4),
  (0x9d88, 0xcc98), (0x620d, 0xc218), (0x7096, 0xb3c8), (0x5f1f, 0xc81c), (0x8021, 0xc11c),
  (0x68a6, 0xbabd), (0x772f, 0xbbf8), (0x45b8, 0xc544), (0x86ba, 0xc5fc), (0x6f3f, 0xc7a5),
  (0x5041, 0xce6d), (0x9543, 0xc790), (0x38c6, 0xbbf8), (0x7dc8, 0xd589), (0x4851, 0xbbfc),
  (0x8d53, 0xac31), (0x56da, 0xc218), (0x9bdc, 0xcca9), (0x3f5f, 0xb82c), (0x6061, 0xb9b0),
  (0x4eea, 0xc758), (0x5d73, 0xcc28), (0x9e75, 0xb85c), (0x66fa, 0xc870), (0x3585, 0xc220),
  (0x9b06, 0xc1a1), (0x400c, 0xc9c4), (0x648f, 0xc7a0), (0x5799, 0xad11), (0x781c, 0xd48d),
  (0x86a3, 0xacf5), (0x4fa9, 0xcf8c), (0x34af, 0xc5fd), (0x9a30, 0xb4f1), (0x4336, 0xce58),
  (0x67b9, 0xd3ec), (0x56c3, 0xc7a1), (0x7b46, 0xd544), (0x81cd, 0xc81c), (0x4ed3, 0xcc3d),
  (0x37d9, 0xcc45), (0x955a, 0xbd95), (0x4260, 0xbbf8), (0x66e3, 0xc5f0), (0x8d6a, 0xc815),
  (0x51ed, 0xbe59), (0x7a70, 0xc591), (0x80f7, 0xd749), (0x49fd, 0xcd5c), (0x7301, 0xb9ac),
  (0x9484, 0xb780), (0x3807, 0xcd94), (0x5d8a, 0xcc38), (0x6b11, 0xcc2c), (0x8c94, 0xbe44),
  (0x5a1b, 0xc624), (0x759a, 0xad6c), (0x8525, 0xcd1d), (0x722b, 0xc870), (0x6daa, 0xbd80),
  (0x97ae, 0xc81c), (0x3b31, 0xccb4), (0x5cb4, 0xad6c), (0x6a3b, 0xada4), (0x8fbe, 0xccb4),
  (0x5545, 0xd0c1), (0x74c4, 0xb3c5), (0x3dca, 0xbd84), (0x844f, 0xc804), (0x4d55, 0xac70),
  (0x6cd4, 0xac10), (0x96d8, 0xd655), (0x3a5b, 0xb2e8), (0x5fde, 0xbbfc), (0x6565, 0xc5fc),
  (0x8ee8, 0xb839), (0x546f, 0xd3c9), (0x77ee, 0xc65c), (0x3cf4, 0xbc00), (0x8779, 0xc6b4),
  (0x4c7f, 0xcc38), (0x6ffe, 0xb824), (0x3e89, 0xd639), (0x5f08, 0xd601), (0x638b, 0xc800),
  (0x9c0a, 0xb828), (0x7718, 0xc2e0), (0x589d, 0xc694), (0x9d9f, 0xb3cc), (0x6f28, 0xbd09),
  (0x70ad, 0xd0c4)]

/-- hanja/table.go:25097-25352 -/
def rawTable98 : List (Nat × Nat) := [
  (0x912c, 0xc704), (0x443a, 0xb2f4), (0x68bd, 0xc9c0), (0x893c, 0xc120), (0x92c1, 0xb824),
  (0x3f48, 0xc758), (0x7c4a, 0xc801), (0x45cf, 0xc218), (0x8ad1, 0xcc29), (0x38dd, 0xc22d),
  (0x595c, 0xbe44), (0x7ddf, 0xc885), (0x9e5e, 0xc694), (0x716c, 0xc591), (0x5af1, 0xc7a5),
  (0x697c, 0xb8e8), (0x9380, 0xc218), (0x3703, 0xb828), (0x7405, 0xb791), (0x468e, 0xcc3d),
  (0x8b90, 0xc218), (0x6c15, 0xd53c), (0x5117, 0xc758), (0x9619, 0xad90), (0x399c, 0xd655),
  (0x7e9e, 0xb828), (0x4927, 0xd68c), (0x8e29, 0xcc44), (0x5bb0, 0xc7ac), (0x98b2, 0xb82c),
  (0x3c35, 0xc878), (0x6137, 0xac1c), (0x73c0, 0xbc15), (0x5e49, 0xb151), (0x834b, 0xc774),
  (0x6bd0, 0xc560), (0x7659, 0xc11c), (0x40e2, 0xae08), (0x85e4, 0xb4f1), (0x6e69, 0xb3d9),
  (0x536b, 0xc704), (0x906d, 0xc870), (0x3bf0, 0xce58), (0x78f2, 0xac70), (0x4b7b, 0xbd84),
  (0x887d, 0xc784), (0x5204, 0xc778), (0x7e87, 0xb8b0), (0x810e, 0xc0b4), (0x4a14, 0xbc15),
  (0x9c9b, 0xad50), (0x45a1, 0xb275), (0x6224, 0xac1c), (0x512e, 0xb825), (0x7db1, 0xac15),
  (0x8038, 0xc6a9), (0x493e, 0xb3c4), (0x93c5, 0xc218), (0x44cb, 0xc9c0), (0x614e, 0xc2e0),
  (0x8bd5, 0xc2dc), (0x5058, 0xac04), (0x7cdb, 0xb2f9), (0x8762, 0xd608), (0x4868, 0xcc28),
  (0x92ef, 0xace0), (0x5bf5, 0xcd1d), (0x6078, 0xd1b5), (0x8aff, 0xc9d1), (0x5782, 0xc218),
  (0x7909, 0xad50), (0x868c, 0xbc29), (0x4f92, 0xc548), (0x9f1d, 0xc5f0), (0x4023, 0xbe44),
  (0x67a2, 0xcd94), (0x56ac, 0xbe48), (0x7833, 0xb825), (0x85b6, 0xb9e4), (0x4ebc, 0xc9d1),
  (0x37c2, 0xbaa8), (0x9e47, 0xd55c), (0x474d, 0xad70), (0x66cc, 0xc870), (0x55d6, 0xc218),
  (0x7f5d, 0xc800), (0x84e0, 0xb9ac), (0x36ec, 0xb959), (0x9d71, 0xb959), (0x4677, 0xb4dd),
  (0x65f6, 0xc2dc), (0x3481, 0xc6b0), (0x5500, 0xc720), (0x7183, 0xbb34), (0x9602, 0xc560),
  (0x4d10, 0xbcf4), (0x6993, 0xd544), (0x8e12, 0xc704), (0x9797, 0xc870), (0x381e, 0xc9d5),
  (0x6520, 0xbbf8), (0x42a5, 0xc18c), (0x8fa7, 0xd310), (0x39b3, 0xc7ac), (0x5e32, 0xbcd1),
  (0x7ab5, 0xc870), (0x9b34, 0xbd80), (0x3540, 0xc8fc), (0x7642, 0xb8cc), (0x5fc7, 0xb975),
  (0x98c9, 0xb8cc), (0x6e52, 0xc999), (0x77d7, 0xcd09), (0x9456, 0xba78), (0x4364, 0xc81c),
  (0x6fe7, 0xb300), (0x8c66, 0xac70), (0x95eb, 0xc5fc), (0x3e72, 0xd6a8), (0x7b74, 0xd611),
  (0x40f9, 0xb780), (0x8dfb, 0xc81c), (0x5c86, 0xc694), (0x9988, 0xada4), (0x660d, 0xd6e4),
  (0x7496, 0xac70), (0x5b1f, 0xc758), (0x8421, 0xbc15), (0x6ca6, 0xb95c), (0x362d, 0xc694),
  (0x732f, 0xb2e8), (0x41b8, 0xc815), (0x82ba, 0xc694), (0x6b3f, 0xac10), (0x5441, 0xade0),
  (0x9143, 0xb839), (0x3cc6, 0xd1b5), (0x79c8, 0xc120), (0x4c51, 0xc124), (0x8953, 0xc694),
  (0x52da, 0xc608), (0x3b5f, 0xacf5), (0x6461, 0xac1c), (0x4aea, 0xc0c1), (0x5973, 0xb140),
  (0x9a75, 0xc7a5), (0x62fa, 0xcc45), (0x9f06, 0xb9f9), (0x440c, 0xc804), (0x608f, 0xd611),
  (0x5399, 0xc0ac), (0x7c1c, 0xd0d5), (0x82a3, 0xbd80), (0x4ba9, 0xace8), (0x9e30, 0xb839),
  (0x4736, 0xd56d), (0x63b9, 0xb9f9), (0x52c3, 0xbc1c), (0x7f46, 0xad00), (0x85cd, 0xb78c),
  (0x4ad3, 0xc624), (0x915a, 0xbd84), (0x4660, 0xad90), (0x62e3, 0xac04), (0x896a, 0xb9d0),
  (0x55ed, 0xc9d3), (0x7e70, 0xc870), (0x84f7, 0xd1f4), (0x7701, 0xc131), (0x9084, 0xd658),
  (0x3c07, 0xc12c), (0x598a, 0xc784), (0x6f11, 0xac1c), (0x8894, 0xd558), (0x5e1b, 0xbc31),
  (0x719a, 0xd544), (0x8125, 0xd611), (0x762b, 0xd0c4), (0x69aa, 0xb9c8), (0x93ae, 0xc9c4),
  (0x3f31, 0xc900), (0x58b4, 0xd669), (0x6e3b, 0xc131), (0x8bbe, 0xc124), (0x5145, 0xcda9),
  (0x70c4, 0xad50), (0x39ca, 0xbc1c), (0x804f, 0xc774), (0x4955, 0xbcc4), (0x68d4, 0xd63c),
  (0x92d8, 0xc624), (0x3e5b, 0xc694), (0x5bde, 0xb9c9), (0x6165, 0xc870), (0x8ae8, 0xbcf5),
  (0x506f, 0xc758), (0x73ee, 0xd328), (0x38f4, 0xd669), (0x8379, 0xcd08), (0x487f, 0xb839),
  (0x6bfe, 0xd0d1), (0x3a89, 0xac11), (0x5b08, 0xc694), (0x678b, 0xbc29), (0x980a, 0xc6b1),
  (0x3616, 0xc548), (0x7318, 0xc81c), (0x5c9d, 0xc791), (0x999f, 0xb3c4), (0x6b28, 0xad6c),
  (0x37ab, 0xc8fc), (0x74ad, 0xace4), (0x952c, 0xb2f4), (0x403a, 0xcd94), (0x6cbd, 0xace0),
  (0x8d3c, 0xc801), (0x96c1, 0xc548), (0x3b48, 0xacb0), (0x784a, 0xc704), (0x41cf, 0xd1f4),
  (0x8ed1, 0xb300), (0x3cdd, 0xc655), (0x5d5c, 0xae30), (0x79df, 0xc870), (0x9a5e, 0xbe48),
  (0x756c, 0xc5ec), (0x5ef1, 0xc639), (0x9bf3, 0xc800), (0x6d7c, 0xb9e4), (0x9780, 0xb3c4),
  (0x7005, 0xd615), (0x428e, 0xad8c), (0x8f90, 0xbcf5), (0x6815, 0xc815), (0x5517, 0xb450),
  (0x9219, 0xae08), (0x3d9c, 0xc5f0), (0x7a9e, 0xb2f4), (0x4d27, 0xc704), (0x8a29, 0xd749),
  (0x5fb0, 0xc815), (0x9cb2, 0xace4), (0x3835, 0xd669), (0x6537, 0xace0), (0x77c0, 0xbbf8),
  (0x5a49, 0xc644), (0x874b, 0xb78d), (0x6fd0, 0xc800), (0x3557, 0xc720), (0x7259, 0xc544),
  (0x44e2, 0xace0), (0x81e4, 0xd604), (0x6a69, 0xacbd), (0x576b, 0xc810), (0x946d, 0xb780),
  (0x3ff0, 0xc624)]

/-- hanja/table.go:25353-25608 -/
def rawTable99 : List (Nat × Nat) := [
  (0x7cf2, 0xb824), (0x4f7b, 0xc870), (0x8c7d, 0xb19c), (0x5e04, 0xc815), (0x7287, 0xbd84),
  (0x8d0e, 0xb9cc), (0x4614, 0xac1d), (0x909b, 0xacf5), (0x3f1a, 0xac15), (0x49a1, 0xd658),
  (0x6e24, 0xbc1c), (0x5d2e, 0xace0), (0x71b1, 0xc5f4), (0x8c38, 0xcc9c), (0x453e, 0xc54c),
  (0x3e44, 0xc9c1), (0x48cb, 0xcc44), (0x6d4e, 0xc81c), (0x87d5, 0xc8fc), (0x5c58, 0xb9cc),
  (0x70db, 0xcd09), (0x8b62, 0xc218), (0x4468, 0xd0c0), (0x9eef, 0xc554), (0x3d6e, 0xc21c),
  (0x57f5, 0xd0c0), (0x6c78, 0xbc29), (0x86ff, 0xd568), (0x5b82, 0xc6a9), (0x7509, 0xd568),
  (0x8a8c, 0xc9c0), (0x4392, 0xc794), (0x3c98, 0xad6c), (0x931d, 0xc885), (0x4c23, 0xb9dd),
  (0x6ba2, 0xccb4), (0x5aac, 0xbcf4), (0x7433, 0xb9bc), (0x89b6, 0xb77c), (0x42bc, 0xce58),
  (0x3bc2, 0xb300), (0x9247, 0xc0ac), (0x4b4d, 0xd638), (0x6acc, 0xc6b0), (0x59d6, 0xac70),
  (0x735d, 0xd73c), (0x88e0, 0xad70), (0x41e6, 0xc559), (0x3aec, 0xc21c), (0x9171, 0xc7a5),
  (0x4a77, 0xbc29), (0x69f6, 0xadc0), (0x3881, 0xce58), (0x5900, 0xc218), (0x7d83, 0xcd08),
  (0x9a02, 0xc131), (0x4110, 0xad8c), (0x6593, 0xb780), (0x8212, 0xc11c), (0x9b97, 0xb3d9),
  (0x341e, 0xae38), (0x6920, 0xcc38), (0x4ea5, 0xd574), (0x83a7, 0xd604), (0x35b3, 0xc5ff),
  (0x5232, 0xaddc), (0x76b5, 0xc791), (0x9734, 0xccb4), (0x3940, 0xc2dd), (0x7a42, 0xc218),
  (0x53c7, 0xccb4), (0x94c9, 0xd604), (0x6252, 0xbc30), (0x7bd7, 0xd655), (0x9856, 0xc2e0),
  (0x4f64, 0xc640), (0x63e7, 0xb784), (0x8066, 0xcd1d), (0x99eb, 0xacbd), (0x7774, 0xace4),
  (0x4cf9, 0xad6c), (0x81fb, 0xc9c4), (0x5086, 0xc6d0), (0x9588, 0xd55c), (0x6a0d, 0xc801),
  (0x7896, 0xb860), (0x571f, 0xd1a0), (0x8821, 0xb824), (0x60a6, 0xc5f4), (0x3a2d, 0xd638),
  (0x7f2f, 0xc99d), (0x8eba, 0xb2f9), (0x673f, 0xc790), (0x5841, 0xb8e8), (0x9d43, 0xc8fc),
  (0x75c8, 0xc639), (0x4051, 0xc591), (0x8553, 0xc6b4), (0x5eda, 0xc8fc), (0x93dc, 0xb2f9),
  (0x375f, 0xbaa8), (0x6861, 0xc694), (0x46ea, 0xad81), (0x5573, 0xad8c), (0x9675, 0xb989),
  (0x6efa, 0xc720), (0x3d85, 0xd559), (0x9306, 0xcc3d), (0x480c, 0xb2f5), (0x6c8f, 0xc808),
  (0x5f99, 0xc0ac), (0x701c, 0xc735), (0x8ea3, 0xad6c), (0x47a9, 0xd761), (0x3caf, 0xb78c),
  (0x9230, 0xc2dc), (0x4b36, 0xc548), (0x6fb9, 0xb2f4), (0x5ec3, 0xd3d0), (0x7346, 0xd638),
  (0x89cd, 0xc804), (0x46d3, 0xac10), (0x3fd9, 0xbe44), (0x9d5a, 0xb3c5), (0x4a60, 0xc815),
  (0x6ee3, 0xc21c), (0x856a, 0xbb34), (0x59ed, 0xd5d8), (0x7270, 0xc720), (0x88f7, 0xad8c),
  (0x41fd, 0xc81c), (0x7b01, 0xcd95), (0x9c84, 0xac00), (0x558a, 0xd568), (0x6311, 0xb3c4),
  (0x8494, 0xc2dc), (0x521b, 0xcc3d), (0x7d9a, 0xc18d), (0x8d25, 0xd328), (0x7a2b, 0xbcbd),
  (0x65aa, 0xad6c), (0x54b4, 0xd68c), (0x623b, 0xd0dc), (0x87be, 0xc778), (0x5d45, 0xac10),
  (0x7cc4, 0xbcc0), (0x35ca, 0xc9d1), (0x8c4f, 0xd568), (0x4555, 0xb9cc), (0x64d4, 0xb2f4),
  (0x9ed8, 0xbb35), (0x57de, 0xc81c), (0x6d65, 0xc74d), (0x86e8, 0xb9e5), (0x5c6f, 0xb454),
  (0x7fee, 0xd575), (0x34f4, 0xc5f0), (0x8f79, 0xb825), (0x447f, 0xc219), (0x67fe, 0xc815),
  (0x3689, 0xace0), (0x5708, 0xad8c), (0x6b8b, 0xc794), (0x940a, 0xc591), (0x3a16, 0xce58),
  (0x7f18, 0xc5f0), (0x509d, 0xd0d1), (0x959f, 0xbe44), (0x6728, 0xbaa9), (0x3bab, 0xd560),
  (0x78ad, 0xd0d5), (0x992c, 0xd638), (0x4c3a, 0xac1c), (0x60bd, 0xcc98), (0x813c, 0xb7c9),
  (0x9ac1, 0xacfc), (0x3748, 0xb828), (0x744a, 0xac10), (0x82d1, 0xc6d0), (0x515c, 0xb450),
  (0x75df, 0xc18c), (0x965e, 0xc2b9), (0x796c, 0xc9c0), (0x52f1, 0xb9e4), (0x97f3, 0xc74c),
  (0x617c, 0xcc99), (0x9b80, 0xd0c0), (0x3f03, 0xb835), (0x7c05, 0xc0b0), (0x4e8e, 0xc6b0),
  (0x8390, 0xce68), (0x6415, 0xac11), (0x5917, 0xc6d0), (0x9e19, 0xc57d), (0x769e, 0xd638),
  (0x4127, 0xc789), (0x8629, 0xbc88), (0x53b0, 0xcc3d), (0x90b2, 0xd544), (0x3435, 0xc720),
  (0x6937, 0xac10), (0x7bc0, 0xc808), (0x5649, 0xb2f4), (0x8b4b, 0xb780), (0x63d0, 0xc81c),
  (0x3957, 0xbbfc), (0x7e59, 0xbc88), (0x48e2, 0xc801), (0x8de4, 0xad50), (0x6669, 0xb9cc),
  (0x5b6b, 0xc190), (0x986d, 0xd6d9), (0x70f2, 0xcca0), (0x437b, 0xc120), (0x807d, 0xccad),
  (0x5a04, 0xb8e8), (0x7687, 0xd669), (0x890e, 0xc720), (0x4214, 0xac00), (0x949b, 0xd0dc),
  (0x3b1a, 0xcca0), (0x4da1, 0xc2e4), (0x6a24, 0xc870), (0x592e, 0xc559), (0x75b1, 0xd3ec),
  (0x8838, 0xad8c), (0x413e, 0xc6a9), (0x9bc5, 0xc120), (0x3a44, 0xc0ac), (0x4ccb, 0xb3d9),
  (0x694e, 0xd718), (0x83d5, 0xb860), (0x5858, 0xb2f9), (0x74db, 0xd658), (0x8f62, 0xb825),
  (0x4068, 0xd655), (0x9aef, 0xc5fc), (0x396e, 0xcd08), (0x53f5, 0xd30c), (0x6878, 0xd76c),
  (0x82ff, 0xbbf8), (0x5f82, 0xc870), (0x7109, 0xc5b8), (0x8e8c, 0xbb34), (0x4792, 0xb3d9),
  (0x3898, 0xb834), (0x971d, 0xb839), (0x4823, 0xc120), (0x6fa2, 0xb2f9), (0x5eac, 0xbc29),
  (0x7033, 0xcc9c), (0x8db6, 0xc624), (0x46bc, 0xb275), (0x3fc2, 0xce58), (0x9647, 0xb871),
  (0x4f4d, 0xc704)]

/-- hanja/table.go:25609-25864 -/
def rawTable100 : List (Nat × Nat) := [
  (0x6ecc, 0xcc99), (0x5dd6, 0xc554), (0x775d, 0xb9ac), (0x8ce0, 0xbc30), (0x45e6, 0xbd09),
  (0x3eec, 0xb3c4), (0x9571, 0xc758), (0x4e77, 0xc0b4), (0x6df6, 0xb798), (0x3c81, 0xacf5),
  (0x5d00, 0xb791), (0x7983, 0xc2dd), (0x9e02, 0xacc4), (0x4510, 0xc804), (0x6193, 0xd61c),
  (0x8612, 0xad6c), (0x9f97, 0xb839), (0x6d20, 0xbaa8), (0x4aa5, 0xd574), (0x87a7, 0xae30),
  (0x5632, 0xc870), (0x72b5, 0xd790), (0x9334, 0xb85d), (0x3d40, 0xc871), (0x7e42, 0xb960),
  (0x57c7, 0xc6a9), (0x90c9, 0xd615), (0x6652, 0xc1c4), (0x7fd7, 0xac70), (0x9c56, 0xad90),
  (0x4b64, 0xacac), (0x67e7, 0xace0), (0x8466, 0xc704), (0x9deb, 0xc219), (0x3672, 0xc639),
  (0x7374, 0xbabd), (0x48f9, 0xbc8c), (0x85fb, 0xc870), (0x5486, 0xd3ec), (0x9188, 0xb2f4),
  (0x6e0d, 0xc9c0), (0x7c96, 0xb9d0), (0x531f, 0xac15), (0x8c21, 0xc18d), (0x64a6, 0xcc28),
  (0x3e2d, 0xd30c), (0x7b2f, 0xb178), (0x49b8, 0xc6b0), (0x8aba, 0xce58), (0x633f, 0xc0bd),
  (0x5c41, 0xbe44), (0x9943, 0xb9c9), (0x34c6, 0xb95c), (0x71c8, 0xb4f1), (0x4451, 0xbcf5),
  (0x8153, 0xbe44), (0x5ada, 0xb9cc), (0x97dc, 0xb3c4), (0x6c61, 0xc624), (0x42ea, 0xc544),
  (0x5173, 0xc18c), (0x9275, 0xb3d9), (0x6afa, 0xb839), (0x3985, 0xcc44), (0x9706, 0xc815),
  (0x4c0c, 0xcd1d), (0x688f, 0xace1), (0x5b99, 0xc8fc), (0x741c, 0xb798), (0x8aa3, 0xbb34),
  (0x43a9, 0xce58), (0x38af, 0xb3c8), (0x9630, 0xbe44), (0x4f36, 0xb839), (0x6bb9, 0xc608),
  (0x5ac3, 0xc9c4), (0x7746, 0xd658), (0x8dcd, 0xace0), (0x42d3, 0xcd94), (0x3bd9, 0xcca0),
  (0x995a, 0xd574), (0x4e60, 0xc2b5), (0x6ae3, 0xb828), (0x816a, 0xc6b4), (0x5ded, 0xbd80),
  (0x7670, 0xc639), (0x8cf7, 0xc7ac), (0x45fd, 0xc720), (0x7f01, 0xce58), (0x9884, 0xc608),
  (0x3407, 0xad74), (0x518a, 0xcc45), (0x6711, 0xc138), (0x8094, 0xc774), (0x561b, 0xb9c8),
  (0x799a, 0xc791), (0x8925, 0xc695), (0x7e2b, 0xbd09), (0x61aa, 0xd55c), (0x9bae, 0xc120),
  (0x3731, 0xc9c8), (0x50b4, 0xad6c), (0x663b, 0xc559), (0x83be, 0xb9dd), (0x5945, 0xd3ec),
  (0x78c4, 0xb2f9), (0x884f, 0xc6d0), (0x4155, 0xac70), (0x60d4, 0xb2f4), (0x9ad8, 0xace0),
  (0x365b, 0xbcf4), (0x53de, 0xc704), (0x6965, 0xc6d0), (0x82e8, 0xb2c8), (0x586f, 0xb958),
  (0x7bee, 0xb78c), (0x8b79, 0xd638), (0x407f, 0xbb35), (0x63fe, 0xc628), (0x5308, 0xd749),
  (0x6f8b, 0xd6a1), (0x900a, 0xc190), (0x3e16, 0xc800), (0x7b18, 0xc810), (0x549d, 0xc0ac),
  (0x919f, 0xc601), (0x6328, 0xc560), (0x3fab, 0xd3b8), (0x7cad, 0xd569), (0x9d2c, 0xd559),
  (0x483a, 0xbb38), (0x64bd, 0xad50), (0x853c, 0xc560), (0x9ec1, 0xd5a5), (0x704a, 0xcca8),
  (0x49cf, 0xbd09), (0x86d1, 0xbaa8), (0x34dd, 0xd615), (0x555c, 0xcca0), (0x71df, 0xc601),
  (0x925e, 0xc6d4), (0x7d6c, 0xc124), (0x56f1, 0xcc3d), (0x93f3, 0xc7c1), (0x657c, 0xd68c),
  (0x9f80, 0xce5c), (0x3b03, 0xb300), (0x7805, 0xb840), (0x4a8e, 0xc1e0), (0x8790, 0xc624),
  (0x6015, 0xd30c), (0x5d17, 0xac15), (0x9a19, 0xd3b8), (0x359c, 0xacf3), (0x729e, 0xad50),
  (0x4527, 0xb824), (0x8229, 0xc120), (0x57b0, 0xc694), (0x94b2, 0xc815), (0x6d37, 0xc9c8),
  (0x7fc0, 0xcda9), (0x5249, 0xc88c), (0x8f4b, 0xc5f0), (0x67d0, 0xbaa8), (0x3d57, 0xbe59),
  (0x7a59, 0xbcf5), (0x4ce2, 0xae30), (0x89e4, 0xada4), (0x6269, 0xd655), (0x5f6b, 0xc870),
  (0x9c6d, 0xc81c), (0x37f0, 0xba85), (0x74f2, 0xd1a4), (0x477b, 0xac70), (0x847d, 0xc694),
  (0x8181, 0xacb8), (0x6604, 0xd310), (0x4a87, 0xbc15), (0x9991, 0xadfc), (0x7e14, 0xc0c1),
  (0x8d1e, 0xc815), (0x71a1, 0xb8e8), (0x5624, 0xc575), (0x3aa7, 0xd761), (0x80ab, 0xc21c),
  (0x652e, 0xb0ad), (0x49b1, 0xc704), (0x98bb, 0xc694), (0x7d3e, 0xc9c4), (0x8c48, 0xae30),
  (0x70cb, 0xd734), (0x554e, 0xc624), (0x39d1, 0xd718), (0x6458, 0xc801), (0x48db, 0xce60),
  (0x97e5, 0xb3c5), (0x7c68, 0xb834), (0x8b72, 0xc591), (0x6ff5, 0xbe48), (0x5478, 0xbe44),
  (0x38fb, 0xc560), (0x8403, 0xcdcc), (0x6382, 0xc810), (0x4d09, 0xd658), (0x9c13, 0xc0c8),
  (0x7b92, 0xcd94), (0x8a9c, 0xc0ac), (0x7423, 0xbc30), (0x53a2, 0xc0c1), (0xfa27, 0xd6a8),
  (0x3d29, 0xc639), (0x832d, 0xad50), (0x62ac, 0xd0dc), (0x4c33, 0xc815), (0x9b3d, 0xb9e4),
  (0x7abc, 0xc18c), (0x89c6, 0xc2dc), (0x734d, 0xacbd), (0x52cc, 0xad8c), (0x3c53, 0xb839),
  (0x8257, 0xc775), (0x61d6, 0xad04), (0x4b5d, 0xd68c), (0x9a67, 0xad6d), (0x79e6, 0xc9c4),
  (0x88f0, 0xcca0), (0x7277, 0xc804), (0x51f6, 0xd749), (0x3b7d, 0xc800), (0x6100, 0xcd08),
  (0x4583, 0xc57d), (0x8685, 0xc561), (0x340e, 0xae00), (0x7910, 0xac01), (0x5d93, 0xd30c),
  (0x9e95, 0xade0), (0x5120, 0xb835), (0x35a3, 0xd22c), (0x9222, 0xb151), (0x76a5, 0xd638),
  (0x6a32, 0xc774), (0x4eb5, 0xc124), (0x93b7, 0xb9c8), (0x4242, 0xb8e8), (0x8744, 0xb9dd),
  (0x6bc7, 0xd6fc), (0x5a52, 0xb2f4), (0x3ed5, 0xad74), (0x9f54, 0xce5c), (0x43d7, 0xac1c),
  (0x84d9, 0xc88c), (0x7764, 0xbe44), (0x5be7, 0xb839), (0x9ce9, 0xad6c), (0x4f74, 0xc774),
  (0x9076, 0xc694)]

/-- hanja/table.go:25865-26120 -/
def rawTable101 : List (Nat × Nat) := [
  (0x74f9, 0xacac), (0x6886, 0xbc29), (0x520d, 0xcd94), (0x970f, 0xbe44), (0x3f94, 0xb824),
  (0x4096, 0xc11d), (0x8598, 0xb2ec), (0x6f1f, 0xb2f9), (0x58a6, 0xbc88), (0x9da8, 0xb2e8),
  (0x472f, 0xad6d), (0x8831, 0xace0), (0x75b8, 0xb2ec), (0x5f3f, 0xac74), (0x6041, 0xc784),
  (0x8eca, 0xcc28), (0x374f, 0xac1c), (0x7851, 0xd33d), (0x66da, 0xbabd), (0x5061, 0xb2f4),
  (0x9563, 0xb8cc), (0x3de8, 0xbd09), (0x7eea, 0xc11c), (0x83ec, 0xcd08), (0x6d73, 0xc775),
  (0x56fa, 0xace0), (0x9bfc, 0xc885), (0x8f89, 0xd718), (0x700c, 0xd45c), (0x548f, 0xc601),
  (0x3912, 0xace0), (0x8316, 0xac01), (0x6799, 0xc640), (0x481c, 0xc6a9), (0x9b26, 0xd22c),
  (0x7fa9, 0xc758), (0x8eb3, 0xad81), (0x7336, 0xc720), (0x57b9, 0xbc29), (0x383c, 0xc0ac),
  (0x8240, 0xbd80), (0x66c3, 0xd0dc), (0x4b46, 0xb141), (0x9a50, 0xb3c8), (0x7ed3, 0xacb0),
  (0x89dd, 0xc800), (0x7260, 0xd0c0), (0x56e3, 0xb2e8), (0x3b66, 0xd0dd), (0x61ed, 0xad11),
  (0x4a70, 0xc9d1), (0x957a, 0xc624), (0x79fd, 0xc608), (0x4301, 0xc694), (0x920b, 0xc640),
  (0x6d8a, 0xb144), (0x5b11, 0xc758), (0x3a90, 0xb960), (0x6a1b, 0xaddc), (0x459a, 0xc624),
  (0x94a4, 0xac80), (0x422b, 0xb0a9), (0x5daa, 0xc5c5), (0x8d35, 0xadc0), (0x6cb4, 0xb824),
  (0x5a3b, 0xb3d9), (0x35ba, 0xcd98), (0x6545, 0xace0), (0x44c4, 0xc740), (0x97ce, 0xb9e4),
  (0x7d55, 0xc808), (0x5cd4, 0xbaa8), (0x8c5f, 0xc561), (0x6fde, 0xbe44), (0x5565, 0xc0ac),
  (0x34e4, 0xac08), (0x646f, 0xc9c0), (0x47ee, 0xbcf5), (0x96f8, 0xc554), (0x7c7f, 0xcd0c),
  (0x5ffe, 0xd788), (0x6f08, 0xc81c), (0x538b, 0xc555), (0x908d, 0xc6d0), (0x4718, 0xacbd),
  (0x841a, 0xd0c1), (0x689d, 0xc870), (0x5f28, 0xcd08), (0x9c2a, 0xc555), (0x40ad, 0xad50),
  (0x85af, 0xc11c), (0x3738, 0xc5bc), (0x743a, 0xbc95), (0x58bd, 0xad50), (0x9dbf, 0xc790),
  (0x4c4a, 0xbbf8), (0x914c, 0xc791), (0x75cf, 0xc720), (0x695c, 0xd638), (0x92e1, 0xd568),
  (0x3c6a, 0xd63c), (0x416c, 0xc560), (0x866e, 0xae30), (0x6af1, 0xc5bc), (0x597c, 0xd0c0),
  (0x3dff, 0xd5d8), (0x9e7e, 0xcc28), (0x4405, 0xd76c), (0x8907, 0xbcf5), (0x768e, 0xad50),
  (0x5c15, 0xc18c), (0x6117, 0xbb34), (0x4e9e, 0xc544), (0x93a0, 0xac15), (0x3425, 0xc124),
  (0x7927, 0xb8b0), (0x6bb0, 0xb3c5), (0x5137, 0xb824), (0x9639, 0xac70), (0x3ebe, 0xd615),
  (0x43c0, 0xb784), (0x80c2, 0xc2e0), (0x6e49, 0xcca8), (0x5bd0, 0xb9e4), (0x98d2, 0xc0bd),
  (0x4659, 0xc9c0), (0x8b5b, 0xcc38), (0x70e2, 0xd0dd), (0x5e69, 0xbd84), (0x636b, 0xbb38),
  (0x48f2, 0xbc18), (0x8df4, 0xc120), (0x3679, 0xbabd), (0x7b7b, 0xac15), (0x8581, 0xc6b1),
  (0x6204, 0xd655), (0x4e87, 0xb9c8), (0x9d91, 0xd615), (0x7a14, 0xc784), (0x891e, 0xc628),
  (0x75a1, 0xc591), (0x5224, 0xd310), (0x3ea7, 0xd6a8), (0x84ab, 0xcc28), (0x612e, 0xc694),
  (0x4db1, 0xb3d9), (0x9cbb, 0xce58), (0x793e, 0xc0ac), (0x8848, 0xc774), (0x74cb, 0xc801),
  (0x514e, 0xd1a0), (0x3dd1, 0xc5f0), (0x6058, 0xaddc), (0x4cdb, 0xc548), (0x93e5, 0xc218),
  (0x7868, 0xcc28), (0x8f72, 0xac00), (0x6bf5, 0xc0b0), (0x5078, 0xd22c), (0x3cfb, 0xcc45),
  (0x8003, 0xace0), (0x6782, 0xc6d4), (0x4909, 0xbc00), (0x9813, 0xb3c8), (0x7f92, 0xbd84),
  (0x8e9c, 0xcc2c), (0x7023, 0xd574), (0x57a2, 0xad6c), (0x3929, 0xac01), (0x872d, 0xd568),
  (0x66ac, 0xc124), (0x4833, 0xce5c), (0x9f3d, 0xad6c), (0x7ebc, 0xc9c4), (0x8dc6, 0xd0dc),
  (0x774d, 0xd604), (0x56cc, 0xc18c), (0x3853, 0xace4), (0x8657, 0xd5c8), (0x65d6, 0xc758),
  (0x4f5d, 0xad6c), (0x9e67, 0xc790), (0x7de6, 0xc2dc), (0x8cf0, 0xcd98), (0x7677, 0xac04),
  (0x55f6, 0xd544), (0x3f7d, 0xace0), (0x6500, 0xbc18), (0x4183, 0xb3c4), (0x8285, 0xc775),
  (0x7d10, 0xb274), (0x5993, 0xae30), (0x9a95, 0xc219), (0x5520, 0xb85c), (0x9622, 0xc62c),
  (0x72a5, 0xd45c), (0x6e32, 0xc120), (0x4ab5, 0xc544), (0x97b7, 0xaca9), (0x4642, 0xc885),
  (0x8344, 0xd574), (0x6fc7, 0xc0c9), (0x5e52, 0xc885), (0x3ad5, 0xad11), (0x9b54, 0xb9c8),
  (0x47d7, 0xc2dc), (0x80d9, 0xc870), (0x3662, 0xb9cc), (0x7364, 0xb3c8), (0x5fe7, 0xc6b0),
  (0x98e9, 0xb3c8), (0x4b74, 0xd658), (0x37f7, 0xb2f5), (0x9476, 0xc7a5), (0x70f9, 0xd33d),
  (0x6c86, 0xd56d), (0x560d, 0xb8e8), (0x930f, 0xc544), (0x3b94, 0xcda9), (0x4496, 0xc2e0),
  (0x8198, 0xd45c), (0x6b1f, 0xad00), (0x5ca6, 0xb9bd), (0x99a8, 0xd615), (0x432f, 0xad8c),
  (0x8c31, 0xbcf4), (0x34b6, 0xacf5), (0x71b8, 0xc7a0), (0x5b3f, 0xc5f0), (0x6441, 0xc740),
  (0x49c8, 0xc11c), (0x8aca, 0xad6d), (0x7c51, 0xcc2c), (0x62da, 0xbcc0), (0x5461, 0xbb38),
  (0x9163, 0xac10), (0x39e8, 0xad6c), (0x7aea, 0xc218), (0x87ec, 0xc120), (0x6973, 0xb9e4),
  (0x52fa, 0xc791), (0x8b89, 0xc720), (0x740c, 0xb989), (0x508f, 0xb2f9), (0x3d12, 0xc5ed),
  (0x8716, 0xd68c), (0x6399, 0xc7c1), (0x4c1c, 0xb825), (0x9f26, 0xcd08), (0x7ba9, 0xb77c),
  (0x8ab3, 0xad74), (0x7736, 0xad11), (0x53b9, 0xad6c), (0x3c3c, 0xc12d), (0x8640, 0xc81c),
  (0x62c3, 0xc794)]

/-- hanja/table.go:26121-26376 -/
def rawTable102 : List (Nat × Nat) := [
  (0x4f46, 0xb2e8), (0x9e50, 0xac10), (0x7ad3, 0xbaa8), (0x8ddd, 0xac70), (0x7660, 0xc81c),
  (0x52e3, 0xc801), (0x3f66, 0xc21c), (0x65ed, 0xc6b1), (0x4e70, 0xb9e4), (0x917a, 0xd3ec),
  (0x7dfd, 0xc815), (0x4701, 0xd61c), (0x960b, 0xd601), (0x698a, 0xc2e0), (0x5f11, 0xc2dc),
  (0x3e90, 0xc870), (0x6e1b, 0xac10), (0x419a, 0xb3d9), (0x3721, 0xc885), (0x90a4, 0xd754),
  (0x462b, 0xb140), (0x59aa, 0xad6c), (0x8935, 0xb9ac), (0x68b4, 0xcc9c), (0x5e3b, 0xcc45),
  (0x6145, 0xc18c), (0x40c4, 0xacbd), (0x364b, 0xae30), (0x93ce, 0xd544), (0x7955, 0xbe44),
  (0x58d4, 0xb3c4), (0x885f, 0xb3c4), (0x6bde, 0xbe44), (0x5165, 0xc785), (0x606f, 0xc2dd),
  (0x43ee, 0xd611), (0x92f8, 0xac70), (0x787f, 0xacf5), (0x5bfe, 0xb300), (0x6b08, 0xcde8),
  (0x578b, 0xd615), (0x948d, 0xd1a0), (0x4318, 0xbcc4), (0x801a, 0xd53c), (0x6c9d, 0xcd94),
  (0x5b28, 0xc790), (0x982a, 0xb8b0), (0x44ad, 0xb4f1), (0x81af, 0xb4f1), (0x703a, 0xcc38),
  (0x5cbd, 0xb3d9), (0x99bf, 0xb824), (0x484a, 0xbc18), (0x34cd, 0xcda9), (0x954c, 0xc804),
  (0x71cf, 0xc728), (0x6d5c, 0xbe48), (0x49df, 0xd568), (0x96e1, 0xb958), (0x386a, 0xb208),
  (0x456c, 0xac15), (0x826e, 0xac04), (0x6ef1, 0xad6c), (0x5d7c, 0xc0b0), (0x39ff, 0xcc3d),
  (0x9a7e, 0xac00), (0x4005, 0xc0ac), (0x8d07, 0xc724), (0x358c, 0xad7f), (0x728e, 0xbd09),
  (0x5815, 0xd0c0), (0x6517, 0xbbf8), (0x4a9e, 0xc7a1), (0x97a0, 0xad6d), (0x7d27, 0xae34),
  (0x6fb0, 0xb834), (0x5537, 0xc721), (0x9239, 0xd53c), (0x3abe, 0xaca9), (0x47c0, 0xce58),
  (0x84c2, 0xba85), (0x6a49, 0xb9b0), (0x5fd0, 0xd0d0), (0x9cd2, 0xacb8), (0x4259, 0xc6b4),
  (0x8f5b, 0xb300), (0x37e0, 0xac15), (0x74e2, 0xd45c), (0x5a69, 0xc548), (0x676b, 0xc9c0),
  (0x4cf2, 0xc9c4), (0x89f4, 0xc0c1), (0x7f7b, 0xc704), (0x8981, 0xc694), (0x6e04, 0xbe44),
  (0x4287, 0xd3ec), (0x9191, 0xc11c), (0x7614, 0xace0), (0x851e, 0xb8e8), (0x79a1, 0xb9c8),
  (0x5e24, 0xb140), (0x88ab, 0xd53c), (0x6d2e, 0xb3c4), (0x41b1, 0xb2f4), (0x90bb, 0xb9b0),
  (0x753e, 0xce58), (0x8448, 0xc2dc), (0x78cb, 0xcc28), (0x5d4e, 0xc6b0), (0x6c58, 0xcc9c),
  (0x40db, 0xb828), (0x7468, 0xc9c4), (0x8372, 0xb9ac), (0x67f5, 0xcc45), (0x5c78, 0xd64d),
  (0x8c03, 0xc870), (0x6b82, 0xc870), (0x4509, 0xb825), (0x9413, 0xb300), (0x7392, 0xac15),
  (0x829c, 0xbb34), (0x7c23, 0xada4), (0x5ba2, 0xac1d), (0x3529, 0xc555), (0x8b2d, 0xc804),
  (0x6aac, 0xbabd), (0x4433, 0xc5b4), (0x933d, 0xb9d8), (0x72bc, 0xd6c4), (0x81c6, 0xc5b5),
  (0x7b4d, 0xc21c), (0x5acc, 0xd610), (0x3453, 0xc900), (0x8a57, 0xd615), (0x69d6, 0xd0c1),
  (0x435d, 0xb2f5), (0x9267, 0xbb34), (0x71e6, 0xcc2c), (0x80f0, 0xc774), (0x7a77, 0xad81),
  (0x59f6, 0xc555), (0x6900, 0xc644), (0x4d83, 0xd568), (0x8e85, 0xcd09), (0x3c0e, 0xcd94),
  (0x7110, 0xc624), (0x5593, 0xc694), (0x9695, 0xc6b4), (0x5920, 0xad6c), (0x3da3, 0xc810),
  (0x9a22, 0xd558), (0x7ea5, 0xd758), (0x6232, 0xd76c), (0x46b5, 0xb450), (0x9bb7, 0xc81c),
  (0x4a42, 0xd568), (0x8f44, 0xd560), (0x63c7, 0xb0a8), (0x5252, 0xcc29), (0x36d5, 0xc555),
  (0x9754, 0xcc9c), (0x4bd7, 0xd3d0), (0x8cd9, 0xc8fc), (0x3a62, 0xba78), (0x7f64, 0xc81c),
  (0x53e7, 0xad18), (0x94e9, 0xc1c4), (0x4774, 0xc7ac), (0x3bf7, 0xbcf5), (0x9876, 0xc815),
  (0x7cf9, 0xba71), (0x6086, 0xc5ec), (0x5a0d, 0xc131), (0x9f0f, 0xba71), (0x3794, 0xc2dc),
  (0x4896, 0xc728), (0x8d98, 0xd601), (0x671f, 0xae30), (0x50a6, 0xace8), (0x95a8, 0xaddc),
  (0x4f2f, 0xbc31), (0x8031, 0xb9c8), (0x38b6, 0xd544), (0x7db8, 0xb95c), (0x573f, 0xac08),
  (0x6841, 0xd56d), (0x45c8, 0xb9f9), (0x86ca, 0xace0), (0x3f4f, 0xd761), (0x7051, 0xc1c4),
  (0x6eda, 0xace4), (0x5861, 0xc804), (0x9d63, 0xb798), (0x35e8, 0xd574), (0x76ea, 0xd0d5),
  (0x8bec, 0xbb34), (0x6573, 0xc560), (0x5efa, 0xac74), (0x93fc, 0xcc45), (0x8789, 0xc639),
  (0x780c, 0xccb4), (0x5c8f, 0xc644), (0x8b16, 0xc18d), (0x6f99, 0xc11d), (0x401c, 0xb9e4),
  (0x9326, 0xae08), (0x77a9, 0xcd09), (0x86b3, 0xc9c0), (0x7b36, 0xc2dc), (0x5fb9, 0xcca0),
  (0x8a40, 0xcc38), (0x6ec3, 0xc639), (0x4346, 0xc800), (0x9250, 0xc11d), (0x76d3, 0xc6b0),
  (0x81dd, 0xb77c), (0x7a60, 0xb18d), (0x5ee3, 0xad11), (0x69ed, 0xc0c9), (0x4270, 0xd6a8),
  (0x9d7a, 0xc57c), (0x71fd, 0xc8fc), (0x4b01, 0xc774), (0x9a0b, 0xb798), (0x658a, 0xc81c),
  (0x5311, 0xad81), (0x621b, 0xc54c), (0x4d9a, 0xad6c), (0x3b21, 0xb839), (0x9ca4, 0xb9ac),
  (0x4a2b, 0xb9e5), (0x55aa, 0xc0c1), (0x8535, 0xc7a5), (0x64b4, 0xb3c8), (0x523b, 0xac01),
  (0x3dba, 0xcca8), (0x6d45, 0xcc9c), (0x4cc4, 0xc790), (0x3a4b, 0xc219), (0x7555, 0xac15),
  (0x54d4, 0xd544), (0x845f, 0xd669), (0x67de, 0xc791), (0x5d65, 0xac78), (0x3ce4, 0xc219),
  (0x6c6f, 0xad49), (0x4fee, 0xc218), (0x9ef8, 0xb85c), (0x747f, 0xc608), (0x57fe, 0xcd94),
  (0x6708, 0xc6d4), (0x5b8b, 0xc1a1), (0x988d, 0xc601), (0x4f18, 0xc6b0), (0x8c1a, 0xc5b8),
  (0x609d, 0xb9ac)]

/-- hanja/table.go:26377-26632 -/
def rawTable103 : List (Nat × Nat) := [
  (0x5728, 0xc7ac), (0x942a, 0xb85c), (0x48ad, 0xc120), (0x8daf, 0xc801), (0x3f38, 0xc6a9),
  (0x7c3a, 0xc0c8), (0x50bd, 0xc7a5), (0x95bf, 0xbb38), (0x444a, 0xc720), (0x38cd, 0xd0dc),
  (0x994c, 0xcc2c), (0x7dcf, 0xcd1d), (0x615c, 0xbbfc), (0x45df, 0xc608), (0x9ae1, 0xace4),
  (0x346a, 0xc81c), (0x496c, 0xbc15), (0x8e6e, 0xc120), (0x62f1, 0xacf5), (0x517c, 0xacb8),
  (0x35ff, 0xd558), (0x967e, 0xc789), (0x4c05, 0xc218), (0x8107, 0xd611), (0x398c, 0xcc2c),
  (0x7e8e, 0xc12c), (0x5415, 0xb824), (0x6917, 0xc815), (0x469e, 0xb300), (0x9ba0, 0xc678),
  (0x3c25, 0xd61c), (0x7127, 0xcd1d), (0x63b0, 0xbc30), (0x5937, 0xc774), (0x9e39, 0xad04),
  (0x36be, 0xd615), (0x4bc0, 0xc12d), (0x88c2, 0xb82c), (0x6649, 0xc9c4), (0x53d0, 0xbc1c),
  (0x90d2, 0xb791), (0x4e59, 0xc744), (0x835b, 0xc694), (0x3be0, 0xacac), (0x78e2, 0xcc3d),
  (0x5669, 0xc545), (0x6b6b, 0xac70), (0x40f2, 0xbc18), (0x85f4, 0xc628), (0x3e79, 0xacbd),
  (0x737b, 0xd5cc), (0x8d81, 0xc9c4), (0x6a04, 0xc9c4), (0x4687, 0xc0dd), (0x9591, 0xd55c),
  (0x7214, 0xd76c), (0x811e, 0xc88c), (0x7da1, 0xb7c9), (0x5a24, 0xc7a5), (0x36a7, 0xc5c4),
  (0x8cab, 0xad00), (0x692e, 0xc0bc), (0x45b1, 0xad11), (0x94bb, 0xcca9), (0x713e, 0xb150),
  (0x8048, 0xc720), (0x7ccb, 0xc804), (0x594e, 0xaddc), (0x35d1, 0xbc30), (0x6858, 0xd1f4),
  (0x44db, 0xad74), (0x9be5, 0xb959), (0x7068, 0xacf5), (0x8772, 0xb784), (0x63f5, 0xac74),
  (0x5878, 0xc6b0), (0x34fb, 0xac15), (0x8803, 0xb77c), (0x6f82, 0xc9d5), (0x4109, 0xc544),
  (0x9013, 0xccb4), (0x7792, 0xb9cc), (0x869c, 0xc544), (0x7823, 0xd0c0), (0x5fa2, 0xc12d),
  (0x8f2d, 0xc5f0), (0x6eac, 0xac15), (0x4033, 0xb784), (0x973d, 0xc81c), (0x76bc, 0xc77c),
  (0x85c6, 0xac74), (0x7f4d, 0xb8b0), (0x5ecc, 0xce58), (0x8e57, 0xb85d), (0x6dd6, 0xb1e8),
  (0x475d, 0xc758), (0x9667, 0xb0a0), (0x75e6, 0xc624), (0x84f0, 0xc0ac), (0x7e77, 0xb18d),
  (0x5df6, 0xc18c), (0x377d, 0xc218), (0x6d00, 0xc8fc), (0x4983, 0xc791), (0x8a85, 0xc8fc),
  (0x380e, 0xc9d1), (0x7510, 0xb9b0), (0x5193, 0xad6c), (0x9295, 0xcca0), (0x5d20, 0xb3d9),
  (0x39a3, 0xc704), (0x9e22, 0xc5f0), (0x7aa5, 0xaddc), (0x6632, 0xbe44), (0x42b5, 0xad6c),
  (0x4e42, 0xc608), (0x8b44, 0xc99d), (0x67c7, 0xd654), (0x5652, 0xb828), (0x9354, 0xc545),
  (0x4fd7, 0xc18d), (0x88d9, 0xad70), (0x3e62, 0xac00), (0x7b64, 0xb791), (0x57e7, 0xad6c),
  (0x90e9, 0xd6a8), (0x4374, 0xc704), (0x3ff7, 0xcd94), (0x9c76, 0xc0c1), (0x78f9, 0xc810),
  (0x6486, 0xb0b4), (0x5e0d, 0xd638), (0x9b0f, 0xcd94), (0x4c96, 0xc8fc), (0x8998, 0xc810),
  (0x631f, 0xd611), (0x54a6, 0xc774), (0x91a8, 0xb9ac), (0x4b2f, 0xb150), (0x8431, 0xd6e4),
  (0x3cb6, 0xb85d), (0x79b8, 0xc720), (0x533f, 0xb2c9), (0x6c41, 0xc999), (0x41c8, 0xc131),
  (0x82ca, 0xc561), (0x3b4f, 0xd718), (0x7451, 0xc804), (0x6ada, 0xb824), (0x5c61, 0xb8e8),
  (0x9963, 0xc2dd), (0x72ea, 0xb3d9), (0x8fec, 0xc655), (0x6173, 0xac04), (0x5afa, 0xd55c),
  (0x97fc, 0xbd09), (0x8389, 0xb9ac), (0x7c0c, 0xc18d), (0x588f, 0xc7a5), (0x3512, 0xd734),
  (0x8f16, 0xc8fc), (0x6b99, 0xd63c), (0x441c, 0xc9c4), (0x9726, 0xbe48), (0x73a9, 0xc644),
  (0x82b3, 0xbc29), (0x7f36, 0xbd80), (0x5bb9, 0xc6a9), (0x343c, 0xc2b9), (0x8e40, 0xc811),
  (0x6ac3, 0xada4), (0x4746, 0xd640), (0x9650, 0xd55c), (0x72d3, 0xd53c), (0x85dd, 0xc608),
  (0x7e60, 0xc608), (0x5ae3, 0xc5b8), (0x3766, 0xc900), (0x6ded, 0xac70), (0x4670, 0xb9ac),
  (0x997a, 0xad50), (0x75fd, 0xd1f4), (0x4f01, 0xae30), (0x9e0b, 0xb155), (0x618a, 0xbe44),
  (0x5711, 0xd3ec), (0x3690, 0xd22c), (0x661b, 0xac70), (0x499a, 0xad04), (0x3f21, 0xc218),
  (0x98a4, 0xc804), (0x4e2b, 0xc544), (0x51aa, 0xba71), (0x8135, 0xc624), (0x60b4, 0xcdcc),
  (0x563b, 0xd76c), (0x39ba, 0xc695), (0x6945, 0xbcf5), (0x48c4, 0xb3c4), (0x3e4b, 0xc218),
  (0x9bce, 0xc131), (0x7155, 0xd76c), (0x50d4, 0xc900), (0x805f, 0xc11c), (0x63de, 0xc554),
  (0x5965, 0xc624), (0x38e4, 0xcc9c), (0x686f, 0xc815), (0x4bee, 0xb0b4), (0x9af8, 0xacf5),
  (0x707f, 0xcc2c), (0x53fe, 0xb8cc), (0x6308, 0xc124), (0x5f8b, 0xb960), (0x9c8d, 0xd3ec),
  (0x4b18, 0xd6a8), (0x881a, 0xd559), (0x649d, 0xd718), (0x5328, 0xc7a5), (0x902a, 0xcc29),
  (0x4cad, 0xc2dc), (0x89af, 0xad6c), (0x3b38, 0xb3c4), (0x783a, 0xb824), (0x54bd, 0xc778),
  (0x91bf, 0xbbf8), (0x404a, 0xc54c), (0x3ccd, 0xd3ec), (0x9d4c, 0xb3c4), (0x79cf, 0xbaa8),
  (0x655c, 0xb151), (0x41df, 0xac74), (0x9ee1, 0xc5fc), (0x4d6c, 0xb2f5), (0x8a6e, 0xc804),
  (0x66f1, 0xc555), (0x557c, 0xc81c), (0x927e, 0xbaa8), (0x4805, 0xace4), (0x8507, 0xae30),
  (0x3d8c, 0xb828), (0x7a8e, 0xc870), (0x5015, 0xc218), (0x6d17, 0xc138), (0x429e, 0xc801),
  (0x9fa0, 0xc57d), (0x3825, 0xb8b0), (0x7527, 0xc0bc), (0x67b0, 0xd3c9), (0x5d37, 0xcd94),
  (0x9a39, 0xb824), (0x4fc0, 0xd1f4), (0x8cc2, 0xb8b0), (0x6249, 0xbe44), (0x57d0, 0xce68),
  (0x94d2, 0xc774)]

/-- hanja/table.go:26633-26888 -/
def rawTable104 : List (Nat × Nat) := [
  (0x4a59, 0xd604), (0x875b, 0xc704), (0x3fe0, 0xad11), (0x7ce2, 0xbaa8), (0x5269, 0xc789),
  (0x6f6b, 0xb9cc), (0x44f2, 0xc608), (0x81f4, 0xce58), (0x3a79, 0xcca9), (0x777b, 0xd6e4),
  (0x9181, 0xb85d), (0x7604, 0xcd08), (0x5a87, 0xce5c), (0x3f0a, 0xb454), (0x8991, 0xd3b8),
  (0x6e14, 0xc5b4), (0x9d1e, 0xd6a8), (0x61a1, 0xcc45), (0x4624, 0xcd9c), (0x90ab, 0xbc29),
  (0x752e, 0xbabd), (0x59b1, 0xcd08), (0x3e34, 0xc18c), (0x88bb, 0xc774), (0x6d3e, 0xd30c),
  (0x9c48, 0xc124), (0x60cb, 0xc644), (0x454e, 0xbcf5), (0x7458, 0xc57c), (0x58db, 0xc5fc),
  (0x3d5e, 0xc218), (0x87e5, 0xd669), (0x6c68, 0xace8), (0x9b72, 0xb85c), (0x7ff5, 0xd6c4),
  (0x4478, 0xc885), (0x9403, 0xb1e8), (0x7382, 0xae30), (0x5d09, 0xb2f5), (0x3c88, 0xc18c),
  (0x8c13, 0xc704), (0x6b92, 0xc6b4), (0x3519, 0xbcd1), (0x9a9c, 0xc624), (0x6423, 0xba78),
  (0x43a2, 0xac78), (0x932d, 0xc870), (0x72ac, 0xacac), (0x5c33, 0xace8), (0x3bb2, 0xcd94),
  (0x8b3d, 0xac15), (0x6abc, 0xc740), (0x3443, 0xc694), (0x99c6, 0xad6c), (0x634d, 0xd55c),
  (0x42cc, 0xacac), (0x9257, 0xacb8), (0x71d6, 0xc2ec), (0x5b5d, 0xd6a8), (0x3adc, 0xb2e8),
  (0x8a67, 0xcc30), (0x69e6, 0xc6a9), (0x98f0, 0xbc18), (0x6277, 0xc624), (0x41f6, 0xac01),
  (0x7100, 0xace1), (0x5583, 0xb0a8), (0x9685, 0xc6b0), (0x6910, 0xac70), (0x4d93, 0xc81c),
  (0x8e95, 0xc8fc), (0x4120, 0xc120), (0x8222, 0xc0b0), (0x66a5, 0xc548), (0x3930, 0xc791),
  (0x7a32, 0xb3c4), (0x5eb5, 0xc554), (0x83b7, 0xd68d), (0x5242, 0xc81c), (0x36c5, 0xc774),
  (0x9744, 0xc560), (0x7bc7, 0xd3b8), (0x4a52, 0xc6b0), (0x8f54, 0xb9b0), (0x53d7, 0xc218),
  (0x94d9, 0xb1e8), (0x6764, 0xd68c), (0x4be7, 0xacbd), (0x8ce9, 0xc885), (0x5f74, 0xbc15),
  (0x8076, 0xc12d), (0x64f9, 0xd0c4), (0x3784, 0xc554), (0x7886, 0xd30c), (0x420d, 0xb9f9),
  (0x870f, 0xc720), (0x5096, 0xcc3d), (0x9598, 0xac11), (0x3a1d, 0xc124), (0x7f1f, 0xd638),
  (0x48a6, 0xc194), (0x8da8, 0xcd94), (0x572f, 0xc774), (0x9831, 0xb784), (0x65b8, 0xcd09),
  (0x4f3f, 0xc774), (0x7041, 0xc5f0), (0x5dc8, 0xad6d), (0x9eca, 0xaddc), (0x6851, 0xc0c1),
  (0x35d8, 0xbc15), (0x76da, 0xad6c), (0x4061, 0xc12c), (0x8563, 0xc21c), (0x6eea, 0xc5ec),
  (0x93ec, 0xd558), (0x3871, 0xad6c), (0x7d73, 0xac15), (0x46fa, 0xacc4), (0x8bfc, 0xcc29),
  (0x9f89, 0xc5b4), (0x600c, 0xbe44), (0x448f, 0xc2b9), (0x9316, 0xb3c5), (0x7799, 0xb9c9),
  (0x581c, 0xb828), (0x3c9f, 0xc601), (0x8b26, 0xacbd), (0x6fa9, 0xd559), (0x9eb3, 0xb798),
  (0x6336, 0xad6d), (0x47b9, 0xd669), (0x9240, 0xac11), (0x76c3, 0xbc30), (0x5b46, 0xc601),
  (0x3fc9, 0xd1f4), (0x8a50, 0xc0ac), (0x6ed3, 0xc7ac), (0x99dd, 0xd0c0), (0x6260, 0xcc28),
  (0x46e3, 0xbe59), (0x71ed, 0xcd09), (0x5a70, 0xc804), (0x3ef3, 0xb9ac), (0x857a, 0xc999),
  (0x69fd, 0xc870), (0x5301, 0xbb38), (0x820b, 0xd754), (0x7d8a, 0xd611), (0x4b11, 0xc704),
  (0x7a1b, 0xade0), (0x559a, 0xd658), (0x84a4, 0xb3c4), (0x522b, 0xbcc4), (0x4daa, 0xcc30),
  (0x9d35, 0xad50), (0x7cb4, 0xb9ac), (0x4a3b, 0xbcd1), (0x7545, 0xcc3d), (0x54c4, 0xd64d),
  (0x87ce, 0xb9cc), (0x6d55, 0xc9c4), (0x4cd4, 0xace1), (0x9c5f, 0xd6c4), (0x7fde, 0xac15),
  (0x4565, 0xb2c8), (0x746f, 0xb791), (0x57ee, 0xb2c8), (0x3d75, 0xcd94), (0x86f8, 0xc18c),
  (0x6c7f, 0xc11c), (0x4ffe, 0xbe44), (0x3a06, 0xb984), (0x7f08, 0xbb18), (0x438b, 0xace0),
  (0x808d, 0xad6c), (0x5718, 0xb2e8), (0x3b9b, 0xc2dc), (0x941a, 0xc544), (0x789d, 0xc5f0),
  (0x4f28, 0xc21c), (0x8c2a, 0xc801), (0x50ad, 0xc6a9), (0x95af, 0xc0ac), (0x643a, 0xd734),
  (0x48bd, 0xd56d), (0x8dbf, 0xc0bd), (0x5c4a, 0xacc4), (0x814c, 0xc5c4), (0x65cf, 0xc871),
  (0x345a, 0xb098), (0x795c, 0xd638), (0x5ddf, 0xd669), (0x82e1, 0xc774), (0x516c, 0xacf5),
  (0x35ef, 0xc7a3), (0x966e, 0xd1f4), (0x7af1, 0xc804), (0x497c, 0xbb3c), (0x8e7e, 0xb3c8),
  (0x5405, 0xd6e4), (0x9907, 0xb3d9), (0x668e, 0xc601), (0x4c15, 0xb824), (0x7117, 0xad6d),
  (0x5e9e, 0xbc29), (0x83a0, 0xc720), (0x6927, 0xba85), (0x36ae, 0xb2f4), (0x7bb0, 0xc21c),
  (0x4137, 0xc11d), (0x8639, 0xd68c), (0x53c0, 0xc804), (0x90c2, 0xac1c), (0x3947, 0xc794),
  (0x7e49, 0xd63c), (0x4bd0, 0xd574), (0x88d2, 0xbd80), (0x5659, 0xae08), (0x9b5b, 0xb3c4),
  (0x60e2, 0xc1c4), (0x4e69, 0xacc4), (0x736b, 0xd5d8), (0x58f2, 0xb9e4), (0x9df4, 0xd55c),
  (0x6b7b, 0xc0ac), (0x9581, 0xb9d0), (0x7204, 0xb82c), (0x5e87, 0xbe44), (0x3b0a, 0xd658),
  (0x8d91, 0xc790), (0x6a14, 0xc18c), (0x3697, 0xc790), (0x991e, 0xc804), (0x65a1, 0xc54c),
  (0x4224, 0xacb8), (0x94ab, 0xbc29), (0x712e, 0xd754), (0x5db1, 0xac08), (0x3a34, 0xac74),
  (0x8cbb, 0xbe44), (0x693e, 0xc804), (0x35c1, 0xc545), (0x9848, 0xacbd), (0x64cb, 0xb2f9),
  (0x414e, 0xc720), (0x7058, 0xd0c4), (0x5cdb, 0xb9ac), (0x395e, 0xc218), (0x83e5, 0xc11d),
  (0x6868, 0xc7a5), (0x34eb, 0xb300), (0x9f72, 0xc6b0), (0x7bf5, 0xcd1d), (0x4078, 0xb0ad),
  (0x9003, 0xb3c4)]

/-- hanja/table.go:26889-27144 -/
def rawTable105 : List (Nat × Nat) := [
  (0x7782, 0xbc8c), (0x5909, 0xbcc0), (0x3888, 0xd1f4), (0x8813, 0xbabd), (0x6f92, 0xd64d),
  (0x9e9c, 0xb960), (0x6023, 0xc6b0), (0x47a2, 0xc791), (0x972d, 0xc560), (0x76ac, 0xd559),
  (0x5833, 0xbbf8), (0x3fb2, 0xc624), (0x8f3d, 0xbd84), (0x6ebc, 0xc2b5), (0x9dc6, 0xc804),
  (0x674d, 0xc790), (0x46cc, 0xd3ec), (0x9657, 0xcd08), (0x75d6, 0xc544), (0x5f5d, 0xc774),
  (0x3edc, 0xc885), (0x8e67, 0xc870), (0x6de6, 0xac10), (0x376d, 0xc131), (0x9cf0, 0xc785),
  (0x6677, 0xadc0), (0x45f6, 0xb78d), (0x7500, 0xcd94), (0x5183, 0xbaa8), (0x9285, 0xb3d9),
  (0x6d10, 0xd589), (0x4993, 0xcca8), (0x8a95, 0xd0c4), (0x4520, 0xc18c), (0x8622, 0xb871),
  (0x62a5, 0xbcf4), (0x3d30, 0xb2a5), (0x7e32, 0xb958), (0x5ab5, 0xc789), (0x87b7, 0xbe44),
  (0x5642, 0xc900), (0x9344, 0xacbd), (0x7fc7, 0xbd88), (0x4e52, 0xbcd1), (0x8b54, 0xc120),
  (0x57d7, 0xbcf4), (0x90d9, 0xbd80), (0x6364, 0xbbf8), (0x4fe7, 0xc9c0), (0x88e9, 0xace4),
  (0x5b74, 0xc758), (0x8476, 0xc815), (0x60f9, 0xc57c), (0x7c86, 0xc0ac), (0x460d, 0xcc44),
  (0x830f, 0xb871), (0x5496, 0xac00), (0x9198, 0xac11), (0x3e1d, 0xd5d8), (0x7b1f, 0xace0),
  (0x4ca6, 0xb300), (0x89a8, 0xc545), (0x532f, 0xd68c), (0x9c31, 0xb828), (0x61b8, 0xc12c),
  (0x4b3f, 0xbbf8), (0x7441, 0xbaa8), (0x59c8, 0xb839), (0x9aca, 0xc790), (0x6c51, 0xd0c1),
  (0x72da, 0xb2ec), (0x4461, 0xcc28), (0x8163, 0xc81c), (0x6aea, 0xb825), (0x97ec, 0xb3c4),
  (0x3c71, 0xd68c), (0x7973, 0xc2e0), (0x42fa, 0xcd94), (0x8ffc, 0xacb0), (0x3502, 0xb9b0),
  (0x9b89, 0xc870), (0x640c, 0xc804), (0x408f, 0xc870), (0x9716, 0xb9bc), (0x7399, 0xc5ec),
  (0x5c1c, 0xac00), (0x389f, 0xc9c0), (0x8f26, 0xb828), (0x6ba9, 0xcc2c), (0x342c, 0xb958),
  (0x9ab3, 0xd53c), (0x6736, 0xd0c0), (0x43b9, 0xbb38), (0x9640, 0xd0c0), (0x72c3, 0xb274),
  (0x5f46, 0xbcc4), (0x3bc9, 0xc800), (0x8e50, 0xcc99), (0x6ad3, 0xb85c), (0x3756, 0xc758),
  (0x9ddd, 0xd544), (0x6660, 0xc131), (0x42e3, 0xbc88), (0x75ed, 0xbd95), (0x5e70, 0xd5cc),
  (0x3af3, 0xc2e0), (0x817a, 0xc120), (0x6dfd, 0xc9c0), (0x5701, 0xc740), (0x3680, 0xd76c),
  (0x860b, 0xbe48), (0x798a, 0xacc4), (0x4f11, 0xd734), (0x7e1b, 0xbc15), (0x519a, 0xac10),
  (0x80a4, 0xbd80), (0x562b, 0xc5f0), (0x49aa, 0xd560), (0x9935, 0xc704), (0x78b4, 0xc0ac),
  (0x4e3b, 0xc8fc), (0x7145, 0xb2e8), (0x50c4, 0xd45c), (0x83ce, 0xace4), (0x6955, 0xd0c0),
  (0x48d4, 0xc1c4), (0x985f, 0xb8cc), (0x7bde, 0xb148), (0x4165, 0xac08), (0x706f, 0xc815),
  (0x53ee, 0xc815), (0x3975, 0xd754), (0x82f8, 0xd638), (0x687f, 0xac04), (0x4bfe, 0xc870),
  (0x3e06, 0xace0), (0x7b08, 0xae09), (0x478b, 0xce5c), (0x848d, 0xc704), (0x5318, 0xb1cc),
  (0x3f9b, 0xce68), (0x901a, 0xd1b5), (0x7c9d, 0xb824), (0x4b28, 0xad6c), (0x882a, 0xb871),
  (0x54ad, 0xae38), (0x91af, 0xd61c), (0x603a, 0xc601), (0x4cbd, 0xc11d), (0x89bf, 0xc801),
  (0x584a, 0xad34), (0x854c, 0xb958), (0x61cf, 0xc900), (0x7d5c, 0xd608), (0x59df, 0xd574),
  (0x86e1, 0xc775), (0x556c, 0xc0c9), (0x926e, 0xc2e0), (0x7ef1, 0xc0c1), (0x4d7c, 0xc0c1),
  (0x8a7e, 0xd749), (0x5005, 0xc26c), (0x9d07, 0xbcf4), (0x628e, 0xc6b4), (0x4815, 0xcc44),
  (0x7517, 0xc5b8), (0x5a9e, 0xc81c), (0x87a0, 0xc758), (0x6d27, 0xc720), (0x7fb0, 0xd0c4),
  (0x4537, 0xae08), (0x8239, 0xc120), (0x57c0, 0xc218), (0x94c2, 0xbc15), (0x3d47, 0xcca8),
  (0x7a49, 0xce58), (0x4fd0, 0xb9ac), (0x8cd2, 0xc0ac), (0x5259, 0xcc3d), (0x9f5b, 0xc138),
  (0x64e2, 0xd0c1), (0x4a69, 0xc6d0), (0x776b, 0xcca9), (0x5cf2, 0xb9ac), (0x99f4, 0xd574),
  (0x6f7b, 0xc11c), (0x9981, 0xb1cc), (0x7e04, 0xc2b9), (0x5287, 0xadf9), (0x370a, 0xc804),
  (0x8191, 0xbe48), (0x6614, 0xc11d), (0x3a97, 0xd22c), (0x951e, 0xacfc), (0x69a1, 0xc18c),
  (0x4e24, 0xb7c9), (0x98ab, 0xbd80), (0x7d2e, 0xcc30), (0x51b1, 0xd638), (0x3634, 0xc88c),
  (0x80bb, 0xae0d), (0x653e, 0xbc29), (0x39c1, 0xac11), (0x9448, 0xb2c8), (0x68cb, 0xae30),
  (0x4d4e, 0xb2e8), (0x7c58, 0xb4f1), (0x50db, 0xae30), (0x355e, 0xc1c4), (0x8fe5, 0xd615),
  (0x6468, 0xb0b4), (0x38eb, 0xc885), (0x9372, 0xbbfc), (0x77f5, 0xccb4), (0x4c78, 0xc218),
  (0x9c03, 0xc678), (0x7b82, 0xb798), (0x5509, 0xc560), (0x3488, 0xac10), (0x8413, 0xc758),
  (0x6392, 0xbc30), (0x3d19, 0xc0bd), (0x929c, 0xd568), (0x6c23, 0xae30), (0x4ba2, 0xc0bd),
  (0x9b2d, 0xd22c), (0x7aac, 0xc720), (0x5433, 0xc624), (0x833d, 0xc911), (0x62bc, 0xc555),
  (0x3c43, 0xc74c), (0x91c6, 0xbcc0), (0x6b4d, 0xc624), (0x4acc, 0xbe44), (0x9a57, 0xd5d8),
  (0x79d6, 0xc9c0), (0x535d, 0xad00), (0x8267, 0xd655), (0x61e6, 0xb098), (0x3b6d, 0xd314),
  (0x90f0, 0xcd94), (0x6a77, 0xb450), (0x49f6, 0xad6c), (0x7900, 0xac04), (0x5d83, 0xcc38),
  (0x9e85, 0xd3ec), (0x6110, 0xba74), (0x4593, 0xb0a0), (0x8695, 0xcc9c), (0x4920, 0xc9c0),
  (0x8a22, 0xd754), (0x6ea5, 0xbd80), (0x7232, 0xc704), (0x56b5, 0xcc38), (0x8bb7, 0xb20c),
  (0x5a42, 0xba74)]

/-- hanja/table.go:27145-27400 -/
def rawTable106 : List (Nat × Nat) := [
  (0x3ec5, 0xd68c), (0x9f44, 0xc0ac), (0x73c7, 0xc870), (0x4252, 0xbc88), (0x8754, 0xac1c),
  (0x5bd7, 0xb155), (0x9cd9, 0xc6a9), (0x6f64, 0xc724), (0x43e7, 0xce58), (0x84e9, 0xbaa8),
  (0x5774, 0xb959), (0x8876, 0xc911), (0x6cf9, 0xb2e8), (0x3f84, 0xb3c5), (0x7086, 0xbb38),
  (0x4a0d, 0xc601), (0x8f0f, 0xc720), (0x5896, 0xd0d1), (0x9d98, 0xd638), (0x771f, 0xc9c4),
  (0x40a6, 0xc9c4), (0x85a8, 0xd6d9), (0x5f2f, 0xb9cc), (0x9031, 0xc8fc), (0x6db8, 0xd6c4),
  (0x473f, 0xc218), (0x7841, 0xac31), (0x55c8, 0xc639), (0x96ca, 0xad6c), (0x6051, 0xada4),
  (0x3dd8, 0xb300), (0x7eda, 0xd604), (0x4861, 0xd574), (0x8d63, 0xacf5), (0x66ea, 0xb77c),
  (0x9bec, 0xb9ac), (0x7573, 0xcca9), (0x4efa, 0xcc3d), (0x83fc, 0xb2f4), (0x3902, 0xae09),
  (0x9789, 0xb3c4), (0x680c, 0xb85c), (0x4c8f, 0xb85c), (0x9b16, 0xc0bc), (0x7f99, 0xace0),
  (0x501c, 0xcc99), (0x349f, 0xb1e8), (0x8326, 0xcc45), (0x67a9, 0xc1a1), (0x382c, 0xbd80),
  (0x96b3, 0xd734), (0x6b36, 0xc218), (0x4fb9, 0xc815), (0x9a40, 0xb9e5), (0x7ec3, 0xb828),
  (0x5346, 0xc878), (0x37c9, 0xb85c), (0x8250, 0xc885), (0x66d3, 0xd3ec), (0x3b56, 0xb300),
  (0x91dd, 0xce68), (0x6a60, 0xb098), (0x4ee3, 0xb300), (0x79ed, 0xc790), (0x5270, 0xc789),
  (0x36f3, 0xc608), (0x8d7a, 0xae08), (0x61fd, 0xd658), (0x5b01, 0xb4f1), (0x3a80, 0xc6b0),
  (0x8a0b, 0xc870), (0x758a, 0xcca9), (0x4311, 0xacac), (0x721b, 0xb780), (0x5d9a, 0xb8cc),
  (0x8ca4, 0xc774), (0x5a2b, 0xc5f0), (0x45aa, 0xc790), (0x9535, 0xc7a5), (0x74b4, 0xcd08),
  (0x423b, 0xd3ec), (0x7d45, 0xacbd), (0x5cc4, 0xc5ed), (0x8fce, 0xc601), (0x6555, 0xce59),
  (0x44d4, 0xd6a8), (0x945f, 0xb3c5), (0x77de, 0xc728), (0x4d65, 0xc6b8), (0x7c6f, 0xc601),
  (0x5fee, 0xae30), (0x3575, 0xb9dd), (0x8ef8, 0xcd95), (0x647f, 0xc74c), (0x47fe, 0xcca0),
  (0x7708, 0xd0d0), (0x4b8b, 0xb82c), (0x888d, 0xd3ec), (0x5f18, 0xd64d), (0x9c1a, 0xc120),
  (0x709d, 0xcc3d), (0x4728, 0xd658), (0x842a, 0xacfc), (0x58ad, 0xc131), (0x9daf, 0xc575),
  (0x6c3a, 0xc218), (0x40bd, 0xb3c4), (0x85bf, 0xc758), (0x544a, 0xace0), (0x894c, 0xb2e8),
  (0x6dcf, 0xd638), (0x3c5a, 0xc794), (0x715c, 0xc6b1), (0x55df, 0xcc28), (0x8ae1, 0xc2dc),
  (0x596c, 0xc7a5), (0x3def, 0xbd09), (0x9e6e, 0xd658), (0x72f1, 0xc625), (0x417c, 0xb9cc),
  (0x867e, 0xd558), (0x5c05, 0xadf9), (0x9107, 0xd6c4), (0x6e8e, 0xc5f0), (0x4415, 0xc9d1),
  (0x7917, 0xbe48), (0x569e, 0xcca0), (0x8ba0, 0xc5b8), (0x6127, 0xad34), (0x3eae, 0xc6b0),
  (0x73b0, 0xd604), (0x4937, 0xc5b8), (0x8e39, 0xb2e8), (0x5bc0, 0xcc44), (0x98c2, 0xb8cc),
  (0x7649, 0xb2e8), (0x43d0, 0xacb0), (0x80d2, 0xb2c8), (0x5e59, 0xb9c9), (0x935b, 0xb2e8),
  (0x68e2, 0xb9dd), (0x4669, 0xbabd), (0x7b6b, 0xc9c0), (0x50f2, 0xc120), (0x95f4, 0xac04),
  (0x637b, 0xb150), (0x9d81, 0xacbd), (0x7a04, 0xce21), (0x5687, 0xd558), (0x8591, 0xac15),
  (0x6214, 0xc794), (0x3e97, 0xcc2c), (0x911e, 0xc740), (0x6da1, 0xc640), (0x4a24, 0xc801),
  (0x9cab, 0xc989), (0x792e, 0xd3ec), (0x55b1, 0xb9ac), (0x84bb, 0xc57d), (0x613e, 0xac1c),
  (0x3dc1, 0xd1b5), (0x9048, 0xc2dd), (0x6ccb, 0xd718), (0x494e, 0xc21c), (0x7858, 0xd68c),
  (0x54db, 0xbfd0), (0x8be5, 0xd574), (0x6068, 0xd55c), (0x3ceb, 0xb2f5), (0x9772, 0xae08),
  (0x73f5, 0xc815), (0x4878, 0xba78), (0x9803, 0xacbd), (0x7f82, 0xacac), (0x5109, 0xac80),
  (0x8013, 0xc815), (0x6792, 0xc57c), (0x3919, 0xc740), (0x969c, 0xc7a5), (0x6823, 0xc784),
  (0x4fa2, 0xc7ac), (0x9f2d, 0xc2dc), (0x7eac, 0xc704), (0x5033, 0xc0ac), (0x37b2, 0xc6c5),
  (0x873d, 0xb7c9), (0x66bc, 0xbcc4), (0x3843, 0xd669), (0x95c6, 0xbc18), (0x6f4d, 0xc720),
  (0x4ecc, 0xbe59), (0x9e57, 0xc545), (0x7dd6, 0xc11c), (0x575d, 0xd30c), (0x36dc, 0xc720),
  (0x8667, 0xd734), (0x65e6, 0xb2e8), (0x3f6d, 0xc5f0), (0x94f0, 0xad50), (0x6e77, 0xcd98),
  (0x7d00, 0xae30), (0x5983, 0xbe44), (0x9a85, 0xd654), (0x6510, 0xac74), (0x4193, 0xc5f0),
  (0x8295, 0xc720), (0x4d20, 0xc624), (0x8e22, 0xcc99), (0x6aa5, 0xc758), (0x3530, 0xd56d),
  (0x7632, 0xc885), (0x52b5, 0xad8c), (0x8fb7, 0xc77c), (0x5e42, 0xba71), (0x3ac5, 0xae30),
  (0x9b44, 0xbc31), (0x77c7, 0xbabd), (0x4652, 0xcd95), (0x8354, 0xb824), (0x5fd7, 0xc9c0),
  (0x98d9, 0xd45c), (0x6b64, 0xcc28), (0x47e7, 0xc804), (0x80e9, 0xce74), (0x5374, 0xac01),
  (0x8c76, 0xbd84), (0x68f9, 0xb3c4), (0x3b84, 0xbc29), (0x7486, 0xad6c), (0x4e0d, 0xbd88),
  (0x8b0f, 0xc18c), (0x5c96, 0xad6c), (0x9998, 0xad35), (0x361d, 0xb2d9), (0x731f, 0xb835),
  (0x44a6, 0xbc94), (0x81a8, 0xd33d), (0x5b2f, 0xb300), (0x9431, 0xcca8), (0x69b8, 0xcc44),
  (0x433f, 0xd3ed), (0x7c41, 0xb8b0), (0x51c8, 0xc815), (0x92ca, 0xc695), (0x6451, 0xad35),
  (0x39d8, 0xc790), (0x7ada, 0xc800), (0x4c61, 0xad6d), (0x8963, 0xbe44), (0x62ea, 0xcc9c),
  (0x3471, 0xc694), (0x7173, 0xd638), (0x4afa, 0xd6a1), (0x87fc, 0xacbd), (0x3d02, 0xb2f4),
  (0x9389, 0xb2f5)]

/-- hanja/table.go:27401-27504 -/
def rawTable107 : List (Nat × Nat) := [
  (0x6c0c, 0xb85c), (0x488f, 0xb450), (0x9f16, 0xbd84), (0x7b99, 0xbcf5), (0x541c, 0xcd94),
  (0x8726, 0xb95c), (0x63a9, 0xc5c4), (0x3c2c, 0xc21c), (0x92b3, 0xc608), (0x6f36, 0xd658),
  (0x4bb9, 0xc608), (0x9e40, 0xbb34), (0x7ac3, 0xc870), (0x5746, 0xb9e4), (0x8650, 0xd559),
  (0x62d3, 0xcc99), (0x3f56, 0xb0a8), (0x95dd, 0xd45c), (0x6e60, 0xd0c4), (0x4ae3, 0xd61c),
  (0x7ded, 0xc704), (0x5670, 0xc639), (0x897a, 0xacac), (0x65fd, 0xb3c8), (0x5f01, 0xbcc0),
  (0x3e80, 0xd640), (0x8e0b, 0xac01), (0x718a, 0xc6c5), (0x4711, 0xc624), (0x761b, 0xacc4),
  (0x599a, 0xbc30), (0x88a4, 0xbb34), (0x5e2b, 0xc0ac), (0x41aa, 0xd64d), (0x9135, 0xc870),
  (0x70b4, 0xc559), (0x463b, 0xc721), (0x7945, 0xc694), (0x58c4, 0xc57c), (0x8bce, 0xad74),
  (0x6155, 0xbaa8), (0x40d4, 0xd64d), (0x905f, 0xc9c0), (0x73de, 0xb77d), (0x4965, 0xb834),
  (0x786f, 0xc5f0), (0x5bee, 0xb8cc), (0x8af8, 0xc81c), (0x607f, 0xc6a9), (0x43fe, 0xbc29),
  (0x3606, 0xb300), (0x7308, 0xd328), (0x4f8b, 0xb840), (0x8c8d, 0xb9ac), (0x5b18, 0xc218),
  (0x379b, 0xae30), (0x981a, 0xacbd), (0x749d, 0xad34), (0x4328, 0xcc44), (0x802a, 0xbc29),
  (0x5cad, 0xb839), (0x99af, 0xac04), (0x683a, 0xc9c0), (0x44bd, 0xb9dd), (0x81bf, 0xb18d),
  (0x504a, 0xc6b0), (0x8d4c, 0xb3c4), (0x69cf, 0xacb8), (0x385a, 0xad6c), (0x755c, 0xcd95),
  (0x51df, 0xb3c5), (0x8ee1, 0xae08), (0x5d6c, 0xc678), (0x39ef, 0xb85c), (0x9a6e, 0xd0c0),
  (0x76f1, 0xc6b0), (0x457c, 0xc5f0), (0x827e, 0xc560), (0x5805, 0xacac), (0x9507, 0xcca0),
  (0x6a8e, 0xae08), (0x4015, 0xc778), (0x7d17, 0xc0ac), (0x529e, 0xd310), (0x8fa0, 0xc8c4),
  (0x6527, 0xc804), (0x3aae, 0xb839), (0x77b0, 0xac10), (0x4d37, 0xd63c), (0x8a39, 0xc218),
  (0x5fc0, 0xc591), (0x9cc2, 0xc678), (0x3547, 0xb78d), (0x7249, 0xbc18), (0x47d0, 0xb825),
  (0x84d2, 0xd55c), (0x5a59, 0xc815), (0x975b, 0xc804), (0x6ce2, 0xd30c), (0x4269, 0xad6c),
  (0x7f6b, 0xad18), (0x54f2, 0xcca0), (0x91f4, 0xc775), (0x677b, 0xb274)]

/-- hanja/table.go:8-27505, the literal `table`: (key, value) pairs in source order. -/
def rawTable : List (Nat × Nat) := List.flatten [
  rawTable0, rawTable1, rawTable2, rawTable3, rawTable4, rawTable5, rawTable6, rawTable7,
  rawTable8, rawTable9, rawTable10, rawTable11, rawTable12, rawTable13, rawTable14, rawTable15,
  rawTable16, rawTable17, rawTable18, rawTable19, rawTable20, rawTable21, rawTable22, rawTable23,
  rawTable24, rawTable25, rawTable26, rawTable27, rawTable28, rawTable29, rawTable30, rawTable31,
  rawTable32, rawTable33, rawTable34, rawTable35, rawTable36, rawTable37, rawTable38, rawTable39,
  rawTable40, rawTable41, rawTable42, rawTable43, rawTable44, rawTable45, rawTable46, rawTable47,
  rawTable48, rawTable49, rawTable50, rawTable51, rawTable52, rawTable53, rawTable54, rawTable55,
  rawTable56, rawTable57, rawTable58, rawTable59, rawTable60, rawTable61, rawTable62, rawTable63,
  rawTable64, rawTable65, rawTable66, rawTable67, rawTable68, rawTable69, rawTable70, rawTable71,
  rawTable72, rawTable73, rawTable74, rawTable75, rawTable76, rawTable77, rawTable78, rawTable79,
  rawTable80, rawTable81, rawTable82, rawTable83, rawTable84, rawTable85, rawTable86, rawTable87,
  rawTable88, rawTable89, rawTable90, rawTable91, rawTable92, rawTable93, rawTable94, rawTable95,
  rawTable96, rawTable97, rawTable98, rawTable99, rawTable100, rawTable101, rawTable102, rawTable103,
  rawTable104, rawTable105, rawTable106, rawTable107]

end Hanja
