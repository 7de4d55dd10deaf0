import Verif.Util

/-! The named character reference table of gosub_html5/src/tokenizer/replacement_tables.rs
79-2312 (`TOKEN_NAMED_CHARS`), generated from that file entry by entry (2231 entries, in source
order).  Values are given as code points. -/

namespace Verif.CharRef

/-- gosub_html5/src/tokenizer/replacement_tables.rs, entries 1 to 200 of `TOKEN_NAMED_CHARS`. -/
def named0 : List (List Char × List Nat) := [
  (['A', 'E', 'l', 'i', 'g', ';'], [0xc6]),
  (['A', 'M', 'P', ';'], [0x26]),
  (['A', 'a', 'c', 'u', 't', 'e', ';'], [0xc1]),
  (['A', 'b', 'r', 'e', 'v', 'e', ';'], [0x102]),
  (['A', 'c', 'i', 'r', 'c', ';'], [0xc2]),
  (['A', 'c', 'y', ';'], [0x410]),
  (['A', 'f', 'r', ';'], [0x1d504]),
  (['A', 'g', 'r', 'a', 'v', 'e', ';'], [0xc0]),
  (['A', 'l', 'p', 'h', 'a', ';'], [0x391]),
  (['A', 'm', 'a', 'c', 'r', ';'], [0x100]),
  (['A', 'n', 'd', ';'], [0x2a53]),
  (['A', 'o', 'g', 'o', 'n', ';'], [0x104]),
  (['A', 'o', 'p', 'f', ';'], [0x1d538]),
  (['A', 'p', 'p', 'l', 'y', 'F', 'u', 'n', 'c', 't', 'i', 'o', 'n', ';'], [0x2061]),
  (['A', 'r', 'i', 'n', 'g', ';'], [0xc5]),
  (['A', 's', 'c', 'r', ';'], [0x1d49c]),
  (['A', 's', 's', 'i', 'g', 'n', ';'], [0x2254]),
  (['A', 't', 'i', 'l', 'd', 'e', ';'], [0xc3]),
  (['A', 'u', 'm', 'l', ';'], [0xc4]),
  (['B', 'a', 'c', 'k', 's', 'l', 'a', 's', 'h', ';'], [0x2216]),
  (['B', 'a', 'r', 'v', ';'], [0x2ae7]),
  (['B', 'a', 'r', 'w', 'e', 'd', ';'], [0x2306]),
  (['B', 'c', 'y', ';'], [0x411]),
  (['B', 'e', 'c', 'a', 'u', 's', 'e', ';'], [0x2235]),
  (['B', 'e', 'r', 'n', 'o', 'u', 'l', 'l', 'i', 's', ';'], [0x212c]),
  (['B', 'e', 't', 'a', ';'], [0x392]),
  (['B', 'f', 'r', ';'], [0x1d505]),
  (['B', 'o', 'p', 'f', ';'], [0x1d539]),
  (['B', 'r', 'e', 'v', 'e', ';'], [0x2d8]),
  (['B', 's', 'c', 'r', ';'], [0x212c]),
  (['B', 'u', 'm', 'p', 'e', 'q', ';'], [0x224e]),
  (['C', 'H', 'c', 'y', ';'], [0x427]),
  (['C', 'O', 'P', 'Y', ';'], [0xa9]),
  (['C', 'a', 'c', 'u', 't', 'e', ';'], [0x106]),
  (['C', 'a', 'p', ';'], [0x22d2]),
  (['C', 'a', 'p', 'i', 't', 'a', 'l', 'D', 'i', 'f', 'f', 'e', 'r', 'e', 'n', 't', 'i', 'a', 'l', 'D', ';'], [0x2145]),
  (['C', 'a', 'y', 'l', 'e', 'y', 's', ';'], [0x212d]),
  (['C', 'c', 'a', 'r', 'o', 'n', ';'], [0x10c]),
  (['C', 'c', 'e', 'd', 'i', 'l', ';'], [0xc7]),
  (['C', 'c', 'i', 'r', 'c', ';'], [0x108]),
  (['C', 'c', 'o', 'n', 'i', 'n', 't', ';'], [0x2230]),
  (['C', 'd', 'o', 't', ';'], [0x10a]),
  (['C', 'e', 'd', 'i', 'l', 'l', 'a', ';'], [0xb8]),
  (['C', 'e', 'n', 't', 'e', 'r', 'D', 'o', 't', ';'], [0xb7]),
  (['C', 'f', 'r', ';'], [0x212d]),
  (['C', 'h', 'i', ';'], [0x3a7]),
  (['C', 'i', 'r', 'c', 'l', 'e', 'D', 'o', 't', ';'], [0x2299]),
  (['C', 'i', 'r', 'c', 'l', 'e', 'M', 'i', 'n', 'u', 's', ';'], [0x2296]),
  (['C', 'i', 'r', 'c', 'l', 'e', 'P', 'l', 'u', 's', ';'], [0x2295]),
  (['C', 'i', 'r', 'c', 'l', 'e', 'T', 'i', 'm', 'e', 's', ';'], [0x2297]),
  (['C', 'l', 'o', 'c', 'k', 'w', 'i', 's', 'e', 'C', 'o', 'n', 't', 'o', 'u', 'r', 'I', 'n', 't', 'e', 'g', 'r', 'a', 'l', ';'], [0x2232]),
  (['C', 'l', 'o', 's', 'e', 'C', 'u', 'r', 'l', 'y', 'D', 'o', 'u', 'b', 'l', 'e', 'Q', 'u', 'o', 't', 'e', ';'], [0x201d]),
  (['C', 'l', 'o', 's', 'e', 'C', 'u', 'r', 'l', 'y', 'Q', 'u', 'o', 't', 'e', ';'], [0x2019]),
  (['C', 'o', 'l', 'o', 'n', ';'], [0x2237]),
  (['C', 'o', 'l', 'o', 'n', 'e', ';'], [0x2a74]),
  (['C', 'o', 'n', 'g', 'r', 'u', 'e', 'n', 't', ';'], [0x2261]),
  (['C', 'o', 'n', 'i', 'n', 't', ';'], [0x222f]),
  (['C', 'o', 'n', 't', 'o', 'u', 'r', 'I', 'n', 't', 'e', 'g', 'r', 'a', 'l', ';'], [0x222e]),
  (['C', 'o', 'p', 'f', ';'], [0x2102]),
  (['C', 'o', 'p', 'r', 'o', 'd', 'u', 'c', 't', ';'], [0x2210]),
  (['C', 'o', 'u', 'n', 't', 'e', 'r', 'C', 'l', 'o', 'c', 'k', 'w', 'i', 's', 'e', 'C', 'o', 'n', 't', 'o', 'u', 'r', 'I', 'n', 't', 'e', 'g', 'r', 'a', 'l', ';'], [0x2233]),
  (['C', 'r', 'o', 's', 's', ';'], [0x2a2f]),
  (['C', 's', 'c', 'r', ';'], [0x1d49e]),
  (['C', 'u', 'p', ';'], [0x22d3]),
  (['C', 'u', 'p', 'C', 'a', 'p', ';'], [0x224d]),
  (['D', 'D', ';'], [0x2145]),
  (['D', 'D', 'o', 't', 'r', 'a', 'h', 'd', ';'], [0x2911]),
  (['D', 'J', 'c', 'y', ';'], [0x402]),
  (['D', 'S', 'c', 'y', ';'], [0x405]),
  (['D', 'Z', 'c', 'y', ';'], [0x40f]),
  (['D', 'a', 'g', 'g', 'e', 'r', ';'], [0x2021]),
  (['D', 'a', 'r', 'r', ';'], [0x21a1]),
  (['D', 'a', 's', 'h', 'v', ';'], [0x2ae4]),
  (['D', 'c', 'a', 'r', 'o', 'n', ';'], [0x10e]),
  (['D', 'c', 'y', ';'], [0x414]),
  (['D', 'e', 'l', ';'], [0x2207]),
  (['D', 'e', 'l', 't', 'a', ';'], [0x394]),
  (['D', 'f', 'r', ';'], [0x1d507]),
  (['D', 'i', 'a', 'c', 'r', 'i', 't', 'i', 'c', 'a', 'l', 'A', 'c', 'u', 't', 'e', ';'], [0xb4]),
  (['D', 'i', 'a', 'c', 'r', 'i', 't', 'i', 'c', 'a', 'l', 'D', 'o', 't', ';'], [0x2d9]),
  (['D', 'i', 'a', 'c', 'r', 'i', 't', 'i', 'c', 'a', 'l', 'D', 'o', 'u', 'b', 'l', 'e', 'A', 'c', 'u', 't', 'e', ';'], [0x2dd]),
  (['D', 'i', 'a', 'c', 'r', 'i', 't', 'i', 'c', 'a', 'l', 'G', 'r', 'a', 'v', 'e', ';'], [0x60]),
  (['D', 'i', 'a', 'c', 'r', 'i', 't', 'i', 'c', 'a', 'l', 'T', 'i', 'l', 'd', 'e', ';'], [0x2dc]),
  (['D', 'i', 'a', 'm', 'o', 'n', 'd', ';'], [0x22c4]),
  (['D', 'i', 'f', 'f', 'e', 'r', 'e', 'n', 't', 'i', 'a', 'l', 'D', ';'], [0x2146]),
  (['D', 'o', 'p', 'f', ';'], [0x1d53b]),
  (['D', 'o', 't', ';'], [0xa8]),
  (['D', 'o', 't', 'D', 'o', 't', ';'], [0x20dc]),
  (['D', 'o', 't', 'E', 'q', 'u', 'a', 'l', ';'], [0x2250]),
  (['D', 'o', 'u', 'b', 'l', 'e', 'C', 'o', 'n', 't', 'o', 'u', 'r', 'I', 'n', 't', 'e', 'g', 'r', 'a', 'l', ';'], [0x222f]),
  (['D', 'o', 'u', 'b', 'l', 'e', 'D', 'o', 't', ';'], [0xa8]),
  (['D', 'o', 'u', 'b', 'l', 'e', 'D', 'o', 'w', 'n', 'A', 'r', 'r', 'o', 'w', ';'], [0x21d3]),
  (['D', 'o', 'u', 'b', 'l', 'e', 'L', 'e', 'f', 't', 'A', 'r', 'r', 'o', 'w', ';'], [0x21d0]),
  (['D', 'o', 'u', 'b', 'l', 'e', 'L', 'e', 'f', 't', 'R', 'i', 'g', 'h', 't', 'A', 'r', 'r', 'o', 'w', ';'], [0x21d4]),
  (['D', 'o', 'u', 'b', 'l', 'e', 'L', 'e', 'f', 't', 'T', 'e', 'e', ';'], [0x2ae4]),
  (['D', 'o', 'u', 'b', 'l', 'e', 'L', 'o', 'n', 'g', 'L', 'e', 'f', 't', 'A', 'r', 'r', 'o', 'w', ';'], [0x27f8]),
  (['D', 'o', 'u', 'b', 'l', 'e', 'L', 'o', 'n', 'g', 'L', 'e', 'f', 't', 'R', 'i', 'g', 'h', 't', 'A', 'r', 'r', 'o', 'w', ';'], [0x27fa]),
  (['D', 'o', 'u', 'b', 'l', 'e', 'L', 'o', 'n', 'g', 'R', 'i', 'g', 'h', 't', 'A', 'r', 'r', 'o', 'w', ';'], [0x27f9]),
  (['D', 'o', 'u', 'b', 'l', 'e', 'R', 'i', 'g', 'h', 't', 'A', 'r', 'r', 'o', 'w', ';'], [0x21d2]),
  (['D', 'o', 'u', 'b', 'l', 'e', 'R', 'i', 'g', 'h', 't', 'T', 'e', 'e', ';'], [0x22a8]),
  (['D', 'o', 'u', 'b', 'l', 'e', 'U', 'p', 'A', 'r', 'r', 'o', 'w', ';'], [0x21d1]),
  (['D', 'o', 'u', 'b', 'l', 'e', 'U', 'p', 'D', 'o', 'w', 'n', 'A', 'r', 'r', 'o', 'w', ';'], [0x21d5]),
  (['D', 'o', 'u', 'b', 'l', 'e', 'V', 'e', 'r', 't', 'i', 'c', 'a', 'l', 'B', 'a', 'r', ';'], [0x2225]),
  (['D', 'o', 'w', 'n', 'A', 'r', 'r', 'o', 'w', ';'], [0x2193]),
  (['D', 'o', 'w', 'n', 'A', 'r', 'r', 'o', 'w', 'B', 'a', 'r', ';'], [0x2913]),
  (['D', 'o', 'w', 'n', 'A', 'r', 'r', 'o', 'w', 'U', 'p', 'A', 'r', 'r', 'o', 'w', ';'], [0x21f5]),
  (['D', 'o', 'w', 'n', 'B', 'r', 'e', 'v', 'e', ';'], [0x311]),
  (['D', 'o', 'w', 'n', 'L', 'e', 'f', 't', 'R', 'i', 'g', 'h', 't', 'V', 'e', 'c', 't', 'o', 'r', ';'], [0x2950]),
  (['D', 'o', 'w', 'n', 'L', 'e', 'f', 't', 'T', 'e', 'e', 'V', 'e', 'c', 't', 'o', 'r', ';'], [0x295e]),
  (['D', 'o', 'w', 'n', 'L', 'e', 'f', 't', 'V', 'e', 'c', 't', 'o', 'r', ';'], [0x21bd]),
  (['D', 'o', 'w', 'n', 'L', 'e', 'f', 't', 'V', 'e', 'c', 't', 'o', 'r', 'B', 'a', 'r', ';'], [0x2956]),
  (['D', 'o', 'w', 'n', 'R', 'i', 'g', 'h', 't', 'T', 'e', 'e', 'V', 'e', 'c', 't', 'o', 'r', ';'], [0x295f]),
  (['D', 'o', 'w', 'n', 'R', 'i', 'g', 'h', 't', 'V', 'e', 'c', 't', 'o', 'r', ';'], [0x21c1]),
  (['D', 'o', 'w', 'n', 'R', 'i', 'g', 'h', 't', 'V', 'e', 'c', 't', 'o', 'r', 'B', 'a', 'r', ';'], [0x2957]),
  (['D', 'o', 'w', 'n', 'T', 'e', 'e', ';'], [0x22a4]),
  (['D', 'o', 'w', 'n', 'T', 'e', 'e', 'A', 'r', 'r', 'o', 'w', ';'], [0x21a7]),
  (['D', 'o', 'w', 'n', 'a', 'r', 'r', 'o', 'w', ';'], [0x21d3]),
  (['D', 's', 'c', 'r', ';'], [0x1d49f]),
  (['D', 's', 't', 'r', 'o', 'k', ';'], [0x110]),
  (['E', 'N', 'G', ';'], [0x14a]),
  (['E', 'T', 'H', ';'], [0xd0]),
  (['E', 'a', 'c', 'u', 't', 'e', ';'], [0xc9]),
  (['E', 'c', 'a', 'r', 'o', 'n', ';'], [0x11a]),
  (['E', 'c', 'i', 'r', 'c', ';'], [0xca]),
  (['E', 'c', 'y', ';'], [0x42d]),
  (['E', 'd', 'o', 't', ';'], [0x116]),
  (['E', 'f', 'r', ';'], [0x1d508]),
  (['E', 'g', 'r', 'a', 'v', 'e', ';'], [0xc8]),
  (['E', 'l', 'e', 'm', 'e', 'n', 't', ';'], [0x2208]),
  (['E', 'm', 'a', 'c', 'r', ';'], [0x112]),
  (['E', 'm', 'p', 't', 'y', 'S', 'm', 'a', 'l', 'l', 'S', 'q', 'u', 'a', 'r', 'e', ';'], [0x25fb]),
  (['E', 'm', 'p', 't', 'y', 'V', 'e', 'r', 'y', 'S', 'm', 'a', 'l', 'l', 'S', 'q', 'u', 'a', 'r', 'e', ';'], [0x25ab]),
  (['E', 'o', 'g', 'o', 'n', ';'], [0x118]),
  (['E', 'o', 'p', 'f', ';'], [0x1d53c]),
  (['E', 'p', 's', 'i', 'l', 'o', 'n', ';'], [0x395]),
  (['E', 'q', 'u', 'a', 'l', ';'], [0x2a75]),
  (['E', 'q', 'u', 'a', 'l', 'T', 'i', 'l', 'd', 'e', ';'], [0x2242]),
  (['E', 'q', 'u', 'i', 'l', 'i', 'b', 'r', 'i', 'u', 'm', ';'], [0x21cc]),
  (['E', 's', 'c', 'r', ';'], [0x2130]),
  (['E', 's', 'i', 'm', ';'], [0x2a73]),
  (['E', 't', 'a', ';'], [0x397]),
  (['E', 'u', 'm', 'l', ';'], [0xcb]),
  (['E', 'x', 'i', 's', 't', 's', ';'], [0x2203]),
  (['E', 'x', 'p', 'o', 'n', 'e', 'n', 't', 'i', 'a', 'l', 'E', ';'], [0x2147]),
  (['F', 'c', 'y', ';'], [0x424]),
  (['F', 'f', 'r', ';'], [0x1d509]),
  (['F', 'i', 'l', 'l', 'e', 'd', 'S', 'm', 'a', 'l', 'l', 'S', 'q', 'u', 'a', 'r', 'e', ';'], [0x25fc]),
  (['F', 'i', 'l', 'l', 'e', 'd', 'V', 'e', 'r', 'y', 'S', 'm', 'a', 'l', 'l', 'S', 'q', 'u', 'a', 'r', 'e', ';'], [0x25aa]),
  (['F', 'o', 'p', 'f', ';'], [0x1d53d]),
  (['F', 'o', 'r', 'A', 'l', 'l', ';'], [0x2200]),
  (['F', 'o', 'u', 'r', 'i', 'e', 'r', 't', 'r', 'f', ';'], [0x2131]),
  (['F', 's', 'c', 'r', ';'], [0x2131]),
  (['G', 'J', 'c', 'y', ';'], [0x403]),
  (['G', 'T', ';'], [0x3e]),
  (['G', 'a', 'm', 'm', 'a', ';'], [0x393]),
  (['G', 'a', 'm', 'm', 'a', 'd', ';'], [0x3dc]),
  (['G', 'b', 'r', 'e', 'v', 'e', ';'], [0x11e]),
  (['G', 'c', 'e', 'd', 'i', 'l', ';'], [0x122]),
  (['G', 'c', 'i', 'r', 'c', ';'], [0x11c]),
  (['G', 'c', 'y', ';'], [0x413]),
  (['G', 'd', 'o', 't', ';'], [0x120]),
  (['G', 'f', 'r', ';'], [0x1d50a]),
  (['G', 'g', ';'], [0x22d9]),
  (['G', 'o', 'p', 'f', ';'], [0x1d53e]),
  (['G', 'r', 'e', 'a', 't', 'e', 'r', 'E', 'q', 'u', 'a', 'l', ';'], [0x2265]),
  (['G', 'r', 'e', 'a', 't', 'e', 'r', 'E', 'q', 'u', 'a', 'l', 'L', 'e', 's', 's', ';'], [0x22db]),
  (['G', 'r', 'e', 'a', 't', 'e', 'r', 'F', 'u', 'l', 'l', 'E', 'q', 'u', 'a', 'l', ';'], [0x2267]),
  (['G', 'r', 'e', 'a', 't', 'e', 'r', 'G', 'r', 'e', 'a', 't', 'e', 'r', ';'], [0x2aa2]),
  (['G', 'r', 'e', 'a', 't', 'e', 'r', 'L', 'e', 's', 's', ';'], [0x2277]),
  (['G', 'r', 'e', 'a', 't', 'e', 'r', 'S', 'l', 'a', 'n', 't', 'E', 'q', 'u', 'a', 'l', ';'], [0x2a7e]),
  (['G', 'r', 'e', 'a', 't', 'e', 'r', 'T', 'i', 'l', 'd', 'e', ';'], [0x2273]),
  (['G', 's', 'c', 'r', ';'], [0x1d4a2]),
  (['G', 't', ';'], [0x226b]),
  (['H', 'A', 'R', 'D', 'c', 'y', ';'], [0x42a]),
  (['H', 'a', 'c', 'e', 'k', ';'], [0x2c7]),
  (['H', 'a', 't', ';'], [0x5e]),
  (['H', 'c', 'i', 'r', 'c', ';'], [0x124]),
  (['H', 'f', 'r', ';'], [0x210c]),
  (['H', 'i', 'l', 'b', 'e', 'r', 't', 'S', 'p', 'a', 'c', 'e', ';'], [0x210b]),
  (['H', 'o', 'p', 'f', ';'], [0x210d]),
  (['H', 'o', 'r', 'i', 'z', 'o', 'n', 't', 'a', 'l', 'L', 'i', 'n', 'e', ';'], [0x2500]),
  (['H', 's', 'c', 'r', ';'], [0x210b]),
  (['H', 's', 't', 'r', 'o', 'k', ';'], [0x126]),
  (['H', 'u', 'm', 'p', 'D', 'o', 'w', 'n', 'H', 'u', 'm', 'p', ';'], [0x224e]),
  (['H', 'u', 'm', 'p', 'E', 'q', 'u', 'a', 'l', ';'], [0x224f]),
  (['I', 'E', 'c', 'y', ';'], [0x415]),
  (['I', 'J', 'l', 'i', 'g', ';'], [0x132]),
  (['I', 'O', 'c', 'y', ';'], [0x401]),
  (['I', 'a', 'c', 'u', 't', 'e', ';'], [0xcd]),
  (['I', 'c', 'i', 'r', 'c', ';'], [0xce]),
  (['I', 'c', 'y', ';'], [0x418]),
  (['I', 'd', 'o', 't', ';'], [0x130]),
  (['I', 'f', 'r', ';'], [0x2111]),
  (['I', 'g', 'r', 'a', 'v', 'e', ';'], [0xcc]),
  (['I', 'm', ';'], [0x2111]),
  (['I', 'm', 'a', 'c', 'r', ';'], [0x12a]),
  (['I', 'm', 'a', 'g', 'i', 'n', 'a', 'r', 'y', 'I', ';'], [0x2148]),
  (['I', 'm', 'p', 'l', 'i', 'e', 's', ';'], [0x21d2]),
  (['I', 'n', 't', ';'], [0x222c]),
  (['I', 'n', 't', 'e', 'g', 'r', 'a', 'l', ';'], [0x222b])]

/-- gosub_html5/src/tokenizer/replacement_tables.rs, entries 201 to 400 of `TOKEN_NAMED_CHARS`. -/
def named1 : List (List Char × List Nat) := [
  (['I', 'n', 't', 'e', 'r', 's', 'e', 'c', 't', 'i', 'o', 'n', ';'], [0x22c2]),
  (['I', 'n', 'v', 'i', 's', 'i', 'b', 'l', 'e', 'C', 'o', 'm', 'm', 'a', ';'], [0x2063]),
  (['I', 'n', 'v', 'i', 's', 'i', 'b', 'l', 'e', 'T', 'i', 'm', 'e', 's', ';'], [0x2062]),
  (['I', 'o', 'g', 'o', 'n', ';'], [0x12e]),
  (['I', 'o', 'p', 'f', ';'], [0x1d540]),
  (['I', 'o', 't', 'a', ';'], [0x399]),
  (['I', 's', 'c', 'r', ';'], [0x2110]),
  (['I', 't', 'i', 'l', 'd', 'e', ';'], [0x128]),
  (['I', 'u', 'k', 'c', 'y', ';'], [0x406]),
  (['I', 'u', 'm', 'l', ';'], [0xcf]),
  (['J', 'c', 'i', 'r', 'c', ';'], [0x134]),
  (['J', 'c', 'y', ';'], [0x419]),
  (['J', 'f', 'r', ';'], [0x1d50d]),
  (['J', 'o', 'p', 'f', ';'], [0x1d541]),
  (['J', 's', 'c', 'r', ';'], [0x1d4a5]),
  (['J', 's', 'e', 'r', 'c', 'y', ';'], [0x408]),
  (['J', 'u', 'k', 'c', 'y', ';'], [0x404]),
  (['K', 'H', 'c', 'y', ';'], [0x425]),
  (['K', 'J', 'c', 'y', ';'], [0x40c]),
  (['K', 'a', 'p', 'p', 'a', ';'], [0x39a]),
  (['K', 'c', 'e', 'd', 'i', 'l', ';'], [0x136]),
  (['K', 'c', 'y', ';'], [0x41a]),
  (['K', 'f', 'r', ';'], [0x1d50e]),
  (['K', 'o', 'p', 'f', ';'], [0x1d542]),
  (['K', 's', 'c', 'r', ';'], [0x1d4a6]),
  (['L', 'J', 'c', 'y', ';'], [0x409]),
  (['L', 'T', ';'], [0x3c]),
  (['L', 'a', 'c', 'u', 't', 'e', ';'], [0x139]),
  (['L', 'a', 'm', 'b', 'd', 'a', ';'], [0x39b]),
  (['L', 'a', 'n', 'g', ';'], [0x27ea]),
  (['L', 'a', 'p', 'l', 'a', 'c', 'e', 't', 'r', 'f', ';'], [0x2112]),
  (['L', 'a', 'r', 'r', ';'], [0x219e]),
  (['L', 'c', 'a', 'r', 'o', 'n', ';'], [0x13d]),
  (['L', 'c', 'e', 'd', 'i', 'l', ';'], [0x13b]),
  (['L', 'c', 'y', ';'], [0x41b]),
  (['L', 'e', 'f', 't', 'A', 'n', 'g', 'l', 'e', 'B', 'r', 'a', 'c', 'k', 'e', 't', ';'], [0x27e8]),
  (['L', 'e', 'f', 't', 'A', 'r', 'r', 'o', 'w', ';'], [0x2190]),
  (['L', 'e', 'f', 't', 'A', 'r', 'r', 'o', 'w', 'B', 'a', 'r', ';'], [0x21e4]),
  (['L', 'e', 'f', 't', 'A', 'r', 'r', 'o', 'w', 'R', 'i', 'g', 'h', 't', 'A', 'r', 'r', 'o', 'w', ';'], [0x21c6]),
  (['L', 'e', 'f', 't', 'C', 'e', 'i', 'l', 'i', 'n', 'g', ';'], [0x2308]),
  (['L', 'e', 'f', 't', 'D', 'o', 'u', 'b', 'l', 'e', 'B', 'r', 'a', 'c', 'k', 'e', 't', ';'], [0x27e6]),
  (['L', 'e', 'f', 't', 'D', 'o', 'w', 'n', 'T', 'e', 'e', 'V', 'e', 'c', 't', 'o', 'r', ';'], [0x2961]),
  (['L', 'e', 'f', 't', 'D', 'o', 'w', 'n', 'V', 'e', 'c', 't', 'o', 'r', ';'], [0x21c3]),
  (['L', 'e', 'f', 't', 'D', 'o', 'w', 'n', 'V', 'e', 'c', 't', 'o', 'r', 'B', 'a', 'r', ';'], [0x2959]),
  (['L', 'e', 'f', 't', 'F', 'l', 'o', 'o', 'r', ';'], [0x230a]),
  (['L', 'e', 'f', 't', 'R', 'i', 'g', 'h', 't', 'A', 'r', 'r', 'o', 'w', ';'], [0x2194]),
  (['L', 'e', 'f', 't', 'R', 'i', 'g', 'h', 't', 'V', 'e', 'c', 't', 'o', 'r', ';'], [0x294e]),
  (['L', 'e', 'f', 't', 'T', 'e', 'e', ';'], [0x22a3]),
  (['L', 'e', 'f', 't', 'T', 'e', 'e', 'A', 'r', 'r', 'o', 'w', ';'], [0x21a4]),
  (['L', 'e', 'f', 't', 'T', 'e', 'e', 'V', 'e', 'c', 't', 'o', 'r', ';'], [0x295a]),
  (['L', 'e', 'f', 't', 'T', 'r', 'i', 'a', 'n', 'g', 'l', 'e', ';'], [0x22b2]),
  (['L', 'e', 'f', 't', 'T', 'r', 'i', 'a', 'n', 'g', 'l', 'e', 'B', 'a', 'r', ';'], [0x29cf]),
  (['L', 'e', 'f', 't', 'T', 'r', 'i', 'a', 'n', 'g', 'l', 'e', 'E', 'q', 'u', 'a', 'l', ';'], [0x22b4]),
  (['L', 'e', 'f', 't', 'U', 'p', 'D', 'o', 'w', 'n', 'V', 'e', 'c', 't', 'o', 'r', ';'], [0x2951]),
  (['L', 'e', 'f', 't', 'U', 'p', 'T', 'e', 'e', 'V', 'e', 'c', 't', 'o', 'r', ';'], [0x2960]),
  (['L', 'e', 'f', 't', 'U', 'p', 'V', 'e', 'c', 't', 'o', 'r', ';'], [0x21bf]),
  (['L', 'e', 'f', 't', 'U', 'p', 'V', 'e', 'c', 't', 'o', 'r', 'B', 'a', 'r', ';'], [0x2958]),
  (['L', 'e', 'f', 't', 'V', 'e', 'c', 't', 'o', 'r', ';'], [0x21bc]),
  (['L', 'e', 'f', 't', 'V', 'e', 'c', 't', 'o', 'r', 'B', 'a', 'r', ';'], [0x2952]),
  (['L', 'e', 'f', 't', 'a', 'r', 'r', 'o', 'w', ';'], [0x21d0]),
  (['L', 'e', 'f', 't', 'r', 'i', 'g', 'h', 't', 'a', 'r', 'r', 'o', 'w', ';'], [0x21d4]),
  (['L', 'e', 's', 's', 'E', 'q', 'u', 'a', 'l', 'G', 'r', 'e', 'a', 't', 'e', 'r', ';'], [0x22da]),
  (['L', 'e', 's', 's', 'F', 'u', 'l', 'l', 'E', 'q', 'u', 'a', 'l', ';'], [0x2266]),
  (['L', 'e', 's', 's', 'G', 'r', 'e', 'a', 't', 'e', 'r', ';'], [0x2276]),
  (['L', 'e', 's', 's', 'L', 'e', 's', 's', ';'], [0x2aa1]),
  (['L', 'e', 's', 's', 'S', 'l', 'a', 'n', 't', 'E', 'q', 'u', 'a', 'l', ';'], [0x2a7d]),
  (['L', 'e', 's', 's', 'T', 'i', 'l', 'd', 'e', ';'], [0x2272]),
  (['L', 'f', 'r', ';'], [0x1d50f]),
  (['L', 'l', ';'], [0x22d8]),
  (['L', 'l', 'e', 'f', 't', 'a', 'r', 'r', 'o', 'w', ';'], [0x21da]),
  (['L', 'm', 'i', 'd', 'o', 't', ';'], [0x13f]),
  (['L', 'o', 'n', 'g', 'L', 'e', 'f', 't', 'A', 'r', 'r', 'o', 'w', ';'], [0x27f5]),
  (['L', 'o', 'n', 'g', 'L', 'e', 'f', 't', 'R', 'i', 'g', 'h', 't', 'A', 'r', 'r', 'o', 'w', ';'], [0x27f7]),
  (['L', 'o', 'n', 'g', 'R', 'i', 'g', 'h', 't', 'A', 'r', 'r', 'o', 'w', ';'], [0x27f6]),
  (['L', 'o', 'n', 'g', 'l', 'e', 'f', 't', 'a', 'r', 'r', 'o', 'w', ';'], [0x27f8]),
  (['L', 'o', 'n', 'g', 'l', 'e', 'f', 't', 'r', 'i', 'g', 'h', 't', 'a', 'r', 'r', 'o', 'w', ';'], [0x27fa]),
  (['L', 'o', 'n', 'g', 'r', 'i', 'g', 'h', 't', 'a', 'r', 'r', 'o', 'w', ';'], [0x27f9]),
  (['L', 'o', 'p', 'f', ';'], [0x1d543]),
  (['L', 'o', 'w', 'e', 'r', 'L', 'e', 'f', 't', 'A', 'r', 'r', 'o', 'w', ';'], [0x2199]),
  (['L', 'o', 'w', 'e', 'r', 'R', 'i', 'g', 'h', 't', 'A', 'r', 'r', 'o', 'w', ';'], [0x2198]),
  (['L', 's', 'c', 'r', ';'], [0x2112]),
  (['L', 's', 'h', ';'], [0x21b0]),
  (['L', 's', 't', 'r', 'o', 'k', ';'], [0x141]),
  (['L', 't', ';'], [0x226a]),
  (['M', 'a', 'p', ';'], [0x2905]),
  (['M', 'c', 'y', ';'], [0x41c]),
  (['M', 'e', 'd', 'i', 'u', 'm', 'S', 'p', 'a', 'c', 'e', ';'], [0x205f]),
  (['M', 'e', 'l', 'l', 'i', 'n', 't', 'r', 'f', ';'], [0x2133]),
  (['M', 'f', 'r', ';'], [0x1d510]),
  (['M', 'i', 'n', 'u', 's', 'P', 'l', 'u', 's', ';'], [0x2213]),
  (['M', 'o', 'p', 'f', ';'], [0x1d544]),
  (['M', 's', 'c', 'r', ';'], [0x2133]),
  (['M', 'u', ';'], [0x39c]),
  (['N', 'J', 'c', 'y', ';'], [0x40a]),
  (['N', 'a', 'c', 'u', 't', 'e', ';'], [0x143]),
  (['N', 'c', 'a', 'r', 'o', 'n', ';'], [0x147]),
  (['N', 'c', 'e', 'd', 'i', 'l', ';'], [0x145]),
  (['N', 'c', 'y', ';'], [0x41d]),
  (['N', 'e', 'g', 'a', 't', 'i', 'v', 'e', 'M', 'e', 'd', 'i', 'u', 'm', 'S', 'p', 'a', 'c', 'e', ';'], [0x200b]),
  (['N', 'e', 'g', 'a', 't', 'i', 'v', 'e', 'T', 'h', 'i', 'c', 'k', 'S', 'p', 'a', 'c', 'e', ';'], [0x200b]),
  (['N', 'e', 'g', 'a', 't', 'i', 'v', 'e', 'T', 'h', 'i', 'n', 'S', 'p', 'a', 'c', 'e', ';'], [0x200b]),
  (['N', 'e', 'g', 'a', 't', 'i', 'v', 'e', 'V', 'e', 'r', 'y', 'T', 'h', 'i', 'n', 'S', 'p', 'a', 'c', 'e', ';'], [0x200b]),
  (['N', 'e', 's', 't', 'e', 'd', 'G', 'r', 'e', 'a', 't', 'e', 'r', 'G', 'r', 'e', 'a', 't', 'e', 'r', ';'], [0x226b]),
  (['N', 'e', 's', 't', 'e', 'd', 'L', 'e', 's', 's', 'L', 'e', 's', 's', ';'], [0x226a]),
  (['N', 'e', 'w', 'L', 'i', 'n', 'e', ';'], [0xa]),
  (['N', 'f', 'r', ';'], [0x1d511]),
  (['N', 'o', 'B', 'r', 'e', 'a', 'k', ';'], [0x2060]),
  (['N', 'o', 'n', 'B', 'r', 'e', 'a', 'k', 'i', 'n', 'g', 'S', 'p', 'a', 'c', 'e', ';'], [0xa0]),
  (['N', 'o', 'p', 'f', ';'], [0x2115]),
  (['N', 'o', 't', ';'], [0x2aec]),
  (['N', 'o', 't', 'C', 'o', 'n', 'g', 'r', 'u', 'e', 'n', 't', ';'], [0x2262]),
  (['N', 'o', 't', 'C', 'u', 'p', 'C', 'a', 'p', ';'], [0x226d]),
  (['N', 'o', 't', 'D', 'o', 'u', 'b', 'l', 'e', 'V', 'e', 'r', 't', 'i', 'c', 'a', 'l', 'B', 'a', 'r', ';'], [0x2226]),
  (['N', 'o', 't', 'E', 'l', 'e', 'm', 'e', 'n', 't', ';'], [0x2209]),
  (['N', 'o', 't', 'E', 'q', 'u', 'a', 'l', ';'], [0x2260]),
  (['N', 'o', 't', 'E', 'x', 'i', 's', 't', 's', ';'], [0x2204]),
  (['N', 'o', 't', 'G', 'r', 'e', 'a', 't', 'e', 'r', ';'], [0x226f]),
  (['N', 'o', 't', 'G', 'r', 'e', 'a', 't', 'e', 'r', 'E', 'q', 'u', 'a', 'l', ';'], [0x2271]),
  (['N', 'o', 't', 'G', 'r', 'e', 'a', 't', 'e', 'r', 'L', 'e', 's', 's', ';'], [0x2279]),
  (['N', 'o', 't', 'G', 'r', 'e', 'a', 't', 'e', 'r', 'T', 'i', 'l', 'd', 'e', ';'], [0x2275]),
  (['N', 'o', 't', 'L', 'e', 'f', 't', 'T', 'r', 'i', 'a', 'n', 'g', 'l', 'e', ';'], [0x22ea]),
  (['N', 'o', 't', 'L', 'e', 'f', 't', 'T', 'r', 'i', 'a', 'n', 'g', 'l', 'e', 'E', 'q', 'u', 'a', 'l', ';'], [0x22ec]),
  (['N', 'o', 't', 'L', 'e', 's', 's', ';'], [0x226e]),
  (['N', 'o', 't', 'L', 'e', 's', 's', 'E', 'q', 'u', 'a', 'l', ';'], [0x2270]),
  (['N', 'o', 't', 'L', 'e', 's', 's', 'G', 'r', 'e', 'a', 't', 'e', 'r', ';'], [0x2278]),
  (['N', 'o', 't', 'L', 'e', 's', 's', 'T', 'i', 'l', 'd', 'e', ';'], [0x2274]),
  (['N', 'o', 't', 'P', 'r', 'e', 'c', 'e', 'd', 'e', 's', ';'], [0x2280]),
  (['N', 'o', 't', 'P', 'r', 'e', 'c', 'e', 'd', 'e', 's', 'S', 'l', 'a', 'n', 't', 'E', 'q', 'u', 'a', 'l', ';'], [0x22e0]),
  (['N', 'o', 't', 'R', 'e', 'v', 'e', 'r', 's', 'e', 'E', 'l', 'e', 'm', 'e', 'n', 't', ';'], [0x220c]),
  (['N', 'o', 't', 'R', 'i', 'g', 'h', 't', 'T', 'r', 'i', 'a', 'n', 'g', 'l', 'e', ';'], [0x22eb]),
  (['N', 'o', 't', 'R', 'i', 'g', 'h', 't', 'T', 'r', 'i', 'a', 'n', 'g', 'l', 'e', 'E', 'q', 'u', 'a', 'l', ';'], [0x22ed]),
  (['N', 'o', 't', 'S', 'q', 'u', 'a', 'r', 'e', 'S', 'u', 'b', 's', 'e', 't', 'E', 'q', 'u', 'a', 'l', ';'], [0x22e2]),
  (['N', 'o', 't', 'S', 'q', 'u', 'a', 'r', 'e', 'S', 'u', 'p', 'e', 'r', 's', 'e', 't', 'E', 'q', 'u', 'a', 'l', ';'], [0x22e3]),
  (['N', 'o', 't', 'S', 'u', 'b', 's', 'e', 't', 'E', 'q', 'u', 'a', 'l', ';'], [0x2288]),
  (['N', 'o', 't', 'S', 'u', 'c', 'c', 'e', 'e', 'd', 's', ';'], [0x2281]),
  (['N', 'o', 't', 'S', 'u', 'c', 'c', 'e', 'e', 'd', 's', 'S', 'l', 'a', 'n', 't', 'E', 'q', 'u', 'a', 'l', ';'], [0x22e1]),
  (['N', 'o', 't', 'S', 'u', 'p', 'e', 'r', 's', 'e', 't', 'E', 'q', 'u', 'a', 'l', ';'], [0x2289]),
  (['N', 'o', 't', 'T', 'i', 'l', 'd', 'e', ';'], [0x2241]),
  (['N', 'o', 't', 'T', 'i', 'l', 'd', 'e', 'E', 'q', 'u', 'a', 'l', ';'], [0x2244]),
  (['N', 'o', 't', 'T', 'i', 'l', 'd', 'e', 'F', 'u', 'l', 'l', 'E', 'q', 'u', 'a', 'l', ';'], [0x2247]),
  (['N', 'o', 't', 'T', 'i', 'l', 'd', 'e', 'T', 'i', 'l', 'd', 'e', ';'], [0x2249]),
  (['N', 'o', 't', 'V', 'e', 'r', 't', 'i', 'c', 'a', 'l', 'B', 'a', 'r', ';'], [0x2224]),
  (['N', 's', 'c', 'r', ';'], [0x1d4a9]),
  (['N', 't', 'i', 'l', 'd', 'e', ';'], [0xd1]),
  (['N', 'u', ';'], [0x39d]),
  (['O', 'E', 'l', 'i', 'g', ';'], [0x152]),
  (['O', 'a', 'c', 'u', 't', 'e', ';'], [0xd3]),
  (['O', 'c', 'i', 'r', 'c', ';'], [0xd4]),
  (['O', 'c', 'y', ';'], [0x41e]),
  (['O', 'd', 'b', 'l', 'a', 'c', ';'], [0x150]),
  (['O', 'f', 'r', ';'], [0x1d512]),
  (['O', 'g', 'r', 'a', 'v', 'e', ';'], [0xd2]),
  (['O', 'm', 'a', 'c', 'r', ';'], [0x14c]),
  (['O', 'm', 'e', 'g', 'a', ';'], [0x3a9]),
  (['O', 'm', 'i', 'c', 'r', 'o', 'n', ';'], [0x39f]),
  (['O', 'o', 'p', 'f', ';'], [0x1d546]),
  (['O', 'p', 'e', 'n', 'C', 'u', 'r', 'l', 'y', 'D', 'o', 'u', 'b', 'l', 'e', 'Q', 'u', 'o', 't', 'e', ';'], [0x201c]),
  (['O', 'p', 'e', 'n', 'C', 'u', 'r', 'l', 'y', 'Q', 'u', 'o', 't', 'e', ';'], [0x2018]),
  (['O', 'r', ';'], [0x2a54]),
  (['O', 's', 'c', 'r', ';'], [0x1d4aa]),
  (['O', 's', 'l', 'a', 's', 'h', ';'], [0xd8]),
  (['O', 't', 'i', 'l', 'd', 'e', ';'], [0xd5]),
  (['O', 't', 'i', 'm', 'e', 's', ';'], [0x2a37]),
  (['O', 'u', 'm', 'l', ';'], [0xd6]),
  (['O', 'v', 'e', 'r', 'B', 'a', 'r', ';'], [0x203e]),
  (['O', 'v', 'e', 'r', 'B', 'r', 'a', 'c', 'e', ';'], [0x23de]),
  (['O', 'v', 'e', 'r', 'B', 'r', 'a', 'c', 'k', 'e', 't', ';'], [0x23b4]),
  (['O', 'v', 'e', 'r', 'P', 'a', 'r', 'e', 'n', 't', 'h', 'e', 's', 'i', 's', ';'], [0x23dc]),
  (['P', 'a', 'r', 't', 'i', 'a', 'l', 'D', ';'], [0x2202]),
  (['P', 'c', 'y', ';'], [0x41f]),
  (['P', 'f', 'r', ';'], [0x1d513]),
  (['P', 'h', 'i', ';'], [0x3a6]),
  (['P', 'i', ';'], [0x3a0]),
  (['P', 'l', 'u', 's', 'M', 'i', 'n', 'u', 's', ';'], [0xb1]),
  (['P', 'o', 'i', 'n', 'c', 'a', 'r', 'e', 'p', 'l', 'a', 'n', 'e', ';'], [0x210c]),
  (['P', 'o', 'p', 'f', ';'], [0x2119]),
  (['P', 'r', ';'], [0x2abb]),
  (['P', 'r', 'e', 'c', 'e', 'd', 'e', 's', ';'], [0x227a]),
  (['P', 'r', 'e', 'c', 'e', 'd', 'e', 's', 'E', 'q', 'u', 'a', 'l', ';'], [0x2aaf]),
  (['P', 'r', 'e', 'c', 'e', 'd', 'e', 's', 'S', 'l', 'a', 'n', 't', 'E', 'q', 'u', 'a', 'l', ';'], [0x227c]),
  (['P', 'r', 'e', 'c', 'e', 'd', 'e', 's', 'T', 'i', 'l', 'd', 'e', ';'], [0x227e]),
  (['P', 'r', 'i', 'm', 'e', ';'], [0x2033]),
  (['P', 'r', 'o', 'd', 'u', 'c', 't', ';'], [0x220f]),
  (['P', 'r', 'o', 'p', 'o', 'r', 't', 'i', 'o', 'n', ';'], [0x2237]),
  (['P', 'r', 'o', 'p', 'o', 'r', 't', 'i', 'o', 'n', 'a', 'l', ';'], [0x221d]),
  (['P', 's', 'c', 'r', ';'], [0x1d4ab]),
  (['P', 's', 'i', ';'], [0x3a8]),
  (['Q', 'U', 'O', 'T', ';'], [0x22]),
  (['Q', 'f', 'r', ';'], [0x1d514]),
  (['Q', 'o', 'p', 'f', ';'], [0x211a]),
  (['Q', 's', 'c', 'r', ';'], [0x1d4ac]),
  (['R', 'B', 'a', 'r', 'r', ';'], [0x2910]),
  (['R', 'E', 'G', ';'], [0xae]),
  (['R', 'a', 'c', 'u', 't', 'e', ';'], [0x154]),
  (['R', 'a', 'n', 'g', ';'], [0x27eb]),
  (['R', 'a', 'r', 'r', ';'], [0x21a0]),
  (['R', 'a', 'r', 'r', 't', 'l', ';'], [0x2916]),
  (['R', 'c', 'a', 'r', 'o', 'n', ';'], [0x158]),
  (['R', 'c', 'e', 'd', 'i', 'l', ';'], [0x156]),
  (['R', 'c', 'y', ';'], [0x420])]

/-- gosub_html5/src/tokenizer/replacement_tables.rs, entries 401 to 600 of `TOKEN_NAMED_CHARS`. -/
def named2 : List (List Char × List Nat) := [
  (['R', 'e', ';'], [0x211c]),
  (['R', 'e', 'v', 'e', 'r', 's', 'e', 'E', 'l', 'e', 'm', 'e', 'n', 't', ';'], [0x220b]),
  (['R', 'e', 'v', 'e', 'r', 's', 'e', 'E', 'q', 'u', 'i', 'l', 'i', 'b', 'r', 'i', 'u', 'm', ';'], [0x21cb]),
  (['R', 'e', 'v', 'e', 'r', 's', 'e', 'U', 'p', 'E', 'q', 'u', 'i', 'l', 'i', 'b', 'r', 'i', 'u', 'm', ';'], [0x296f]),
  (['R', 'f', 'r', ';'], [0x211c]),
  (['R', 'h', 'o', ';'], [0x3a1]),
  (['R', 'i', 'g', 'h', 't', 'A', 'n', 'g', 'l', 'e', 'B', 'r', 'a', 'c', 'k', 'e', 't', ';'], [0x27e9]),
  (['R', 'i', 'g', 'h', 't', 'A', 'r', 'r', 'o', 'w', ';'], [0x2192]),
  (['R', 'i', 'g', 'h', 't', 'A', 'r', 'r', 'o', 'w', 'B', 'a', 'r', ';'], [0x21e5]),
  (['R', 'i', 'g', 'h', 't', 'A', 'r', 'r', 'o', 'w', 'L', 'e', 'f', 't', 'A', 'r', 'r', 'o', 'w', ';'], [0x21c4]),
  (['R', 'i', 'g', 'h', 't', 'C', 'e', 'i', 'l', 'i', 'n', 'g', ';'], [0x2309]),
  (['R', 'i', 'g', 'h', 't', 'D', 'o', 'u', 'b', 'l', 'e', 'B', 'r', 'a', 'c', 'k', 'e', 't', ';'], [0x27e7]),
  (['R', 'i', 'g', 'h', 't', 'D', 'o', 'w', 'n', 'T', 'e', 'e', 'V', 'e', 'c', 't', 'o', 'r', ';'], [0x295d]),
  (['R', 'i', 'g', 'h', 't', 'D', 'o', 'w', 'n', 'V', 'e', 'c', 't', 'o', 'r', ';'], [0x21c2]),
  (['R', 'i', 'g', 'h', 't', 'D', 'o', 'w', 'n', 'V', 'e', 'c', 't', 'o', 'r', 'B', 'a', 'r', ';'], [0x2955]),
  (['R', 'i', 'g', 'h', 't', 'F', 'l', 'o', 'o', 'r', ';'], [0x230b]),
  (['R', 'i', 'g', 'h', 't', 'T', 'e', 'e', ';'], [0x22a2]),
  (['R', 'i', 'g', 'h', 't', 'T', 'e', 'e', 'A', 'r', 'r', 'o', 'w', ';'], [0x21a6]),
  (['R', 'i', 'g', 'h', 't', 'T', 'e', 'e', 'V', 'e', 'c', 't', 'o', 'r', ';'], [0x295b]),
  (['R', 'i', 'g', 'h', 't', 'T', 'r', 'i', 'a', 'n', 'g', 'l', 'e', ';'], [0x22b3]),
  (['R', 'i', 'g', 'h', 't', 'T', 'r', 'i', 'a', 'n', 'g', 'l', 'e', 'B', 'a', 'r', ';'], [0x29d0]),
  (['R', 'i', 'g', 'h', 't', 'T', 'r', 'i', 'a', 'n', 'g', 'l', 'e', 'E', 'q', 'u', 'a', 'l', ';'], [0x22b5]),
  (['R', 'i', 'g', 'h', 't', 'U', 'p', 'D', 'o', 'w', 'n', 'V', 'e', 'c', 't', 'o', 'r', ';'], [0x294f]),
  (['R', 'i', 'g', 'h', 't', 'U', 'p', 'T', 'e', 'e', 'V', 'e', 'c', 't', 'o', 'r', ';'], [0x295c]),
  (['R', 'i', 'g', 'h', 't', 'U', 'p', 'V', 'e', 'c', 't', 'o', 'r', ';'], [0x21be]),
  (['R', 'i', 'g', 'h', 't', 'U', 'p', 'V', 'e', 'c', 't', 'o', 'r', 'B', 'a', 'r', ';'], [0x2954]),
  (['R', 'i', 'g', 'h', 't', 'V', 'e', 'c', 't', 'o', 'r', ';'], [0x21c0]),
  (['R', 'i', 'g', 'h', 't', 'V', 'e', 'c', 't', 'o', 'r', 'B', 'a', 'r', ';'], [0x2953]),
  (['R', 'i', 'g', 'h', 't', 'a', 'r', 'r', 'o', 'w', ';'], [0x21d2]),
  (['R', 'o', 'p', 'f', ';'], [0x211d]),
  (['R', 'o', 'u', 'n', 'd', 'I', 'm', 'p', 'l', 'i', 'e', 's', ';'], [0x2970]),
  (['R', 'r', 'i', 'g', 'h', 't', 'a', 'r', 'r', 'o', 'w', ';'], [0x21db]),
  (['R', 's', 'c', 'r', ';'], [0x211b]),
  (['R', 's', 'h', ';'], [0x21b1]),
  (['R', 'u', 'l', 'e', 'D', 'e', 'l', 'a', 'y', 'e', 'd', ';'], [0x29f4]),
  (['S', 'H', 'C', 'H', 'c', 'y', ';'], [0x429]),
  (['S', 'H', 'c', 'y', ';'], [0x428]),
  (['S', 'O', 'F', 'T', 'c', 'y', ';'], [0x42c]),
  (['S', 'a', 'c', 'u', 't', 'e', ';'], [0x15a]),
  (['S', 'c', ';'], [0x2abc]),
  (['S', 'c', 'a', 'r', 'o', 'n', ';'], [0x160]),
  (['S', 'c', 'e', 'd', 'i', 'l', ';'], [0x15e]),
  (['S', 'c', 'i', 'r', 'c', ';'], [0x15c]),
  (['S', 'c', 'y', ';'], [0x421]),
  (['S', 'f', 'r', ';'], [0x1d516]),
  (['S', 'h', 'o', 'r', 't', 'D', 'o', 'w', 'n', 'A', 'r', 'r', 'o', 'w', ';'], [0x2193]),
  (['S', 'h', 'o', 'r', 't', 'L', 'e', 'f', 't', 'A', 'r', 'r', 'o', 'w', ';'], [0x2190]),
  (['S', 'h', 'o', 'r', 't', 'R', 'i', 'g', 'h', 't', 'A', 'r', 'r', 'o', 'w', ';'], [0x2192]),
  (['S', 'h', 'o', 'r', 't', 'U', 'p', 'A', 'r', 'r', 'o', 'w', ';'], [0x2191]),
  (['S', 'i', 'g', 'm', 'a', ';'], [0x3a3]),
  (['S', 'm', 'a', 'l', 'l', 'C', 'i', 'r', 'c', 'l', 'e', ';'], [0x2218]),
  (['S', 'o', 'p', 'f', ';'], [0x1d54a]),
  (['S', 'q', 'r', 't', ';'], [0x221a]),
  (['S', 'q', 'u', 'a', 'r', 'e', ';'], [0x25a1]),
  (['S', 'q', 'u', 'a', 'r', 'e', 'I', 'n', 't', 'e', 'r', 's', 'e', 'c', 't', 'i', 'o', 'n', ';'], [0x2293]),
  (['S', 'q', 'u', 'a', 'r', 'e', 'S', 'u', 'b', 's', 'e', 't', ';'], [0x228f]),
  (['S', 'q', 'u', 'a', 'r', 'e', 'S', 'u', 'b', 's', 'e', 't', 'E', 'q', 'u', 'a', 'l', ';'], [0x2291]),
  (['S', 'q', 'u', 'a', 'r', 'e', 'S', 'u', 'p', 'e', 'r', 's', 'e', 't', ';'], [0x2290]),
  (['S', 'q', 'u', 'a', 'r', 'e', 'S', 'u', 'p', 'e', 'r', 's', 'e', 't', 'E', 'q', 'u', 'a', 'l', ';'], [0x2292]),
  (['S', 'q', 'u', 'a', 'r', 'e', 'U', 'n', 'i', 'o', 'n', ';'], [0x2294]),
  (['S', 's', 'c', 'r', ';'], [0x1d4ae]),
  (['S', 't', 'a', 'r', ';'], [0x22c6]),
  (['S', 'u', 'b', ';'], [0x22d0]),
  (['S', 'u', 'b', 's', 'e', 't', ';'], [0x22d0]),
  (['S', 'u', 'b', 's', 'e', 't', 'E', 'q', 'u', 'a', 'l', ';'], [0x2286]),
  (['S', 'u', 'c', 'c', 'e', 'e', 'd', 's', ';'], [0x227b]),
  (['S', 'u', 'c', 'c', 'e', 'e', 'd', 's', 'E', 'q', 'u', 'a', 'l', ';'], [0x2ab0]),
  (['S', 'u', 'c', 'c', 'e', 'e', 'd', 's', 'S', 'l', 'a', 'n', 't', 'E', 'q', 'u', 'a', 'l', ';'], [0x227d]),
  (['S', 'u', 'c', 'c', 'e', 'e', 'd', 's', 'T', 'i', 'l', 'd', 'e', ';'], [0x227f]),
  (['S', 'u', 'c', 'h', 'T', 'h', 'a', 't', ';'], [0x220b]),
  (['S', 'u', 'm', ';'], [0x2211]),
  (['S', 'u', 'p', ';'], [0x22d1]),
  (['S', 'u', 'p', 'e', 'r', 's', 'e', 't', ';'], [0x2283]),
  (['S', 'u', 'p', 'e', 'r', 's', 'e', 't', 'E', 'q', 'u', 'a', 'l', ';'], [0x2287]),
  (['S', 'u', 'p', 's', 'e', 't', ';'], [0x22d1]),
  (['T', 'H', 'O', 'R', 'N', ';'], [0xde]),
  (['T', 'R', 'A', 'D', 'E', ';'], [0x2122]),
  (['T', 'S', 'H', 'c', 'y', ';'], [0x40b]),
  (['T', 'S', 'c', 'y', ';'], [0x426]),
  (['T', 'a', 'b', ';'], [0x9]),
  (['T', 'a', 'u', ';'], [0x3a4]),
  (['T', 'c', 'a', 'r', 'o', 'n', ';'], [0x164]),
  (['T', 'c', 'e', 'd', 'i', 'l', ';'], [0x162]),
  (['T', 'c', 'y', ';'], [0x422]),
  (['T', 'f', 'r', ';'], [0x1d517]),
  (['T', 'h', 'e', 'r', 'e', 'f', 'o', 'r', 'e', ';'], [0x2234]),
  (['T', 'h', 'e', 't', 'a', ';'], [0x398]),
  (['T', 'h', 'i', 'n', 'S', 'p', 'a', 'c', 'e', ';'], [0x2009]),
  (['T', 'i', 'l', 'd', 'e', ';'], [0x223c]),
  (['T', 'i', 'l', 'd', 'e', 'E', 'q', 'u', 'a', 'l', ';'], [0x2243]),
  (['T', 'i', 'l', 'd', 'e', 'F', 'u', 'l', 'l', 'E', 'q', 'u', 'a', 'l', ';'], [0x2245]),
  (['T', 'i', 'l', 'd', 'e', 'T', 'i', 'l', 'd', 'e', ';'], [0x2248]),
  (['T', 'o', 'p', 'f', ';'], [0x1d54b]),
  (['T', 'r', 'i', 'p', 'l', 'e', 'D', 'o', 't', ';'], [0x20db]),
  (['T', 's', 'c', 'r', ';'], [0x1d4af]),
  (['T', 's', 't', 'r', 'o', 'k', ';'], [0x166]),
  (['U', 'a', 'c', 'u', 't', 'e', ';'], [0xda]),
  (['U', 'a', 'r', 'r', ';'], [0x219f]),
  (['U', 'a', 'r', 'r', 'o', 'c', 'i', 'r', ';'], [0x2949]),
  (['U', 'b', 'r', 'c', 'y', ';'], [0x40e]),
  (['U', 'b', 'r', 'e', 'v', 'e', ';'], [0x16c]),
  (['U', 'c', 'i', 'r', 'c', ';'], [0xdb]),
  (['U', 'c', 'y', ';'], [0x423]),
  (['U', 'd', 'b', 'l', 'a', 'c', ';'], [0x170]),
  (['U', 'f', 'r', ';'], [0x1d518]),
  (['U', 'g', 'r', 'a', 'v', 'e', ';'], [0xd9]),
  (['U', 'm', 'a', 'c', 'r', ';'], [0x16a]),
  (['U', 'n', 'd', 'e', 'r', 'B', 'a', 'r', ';'], [0x5f]),
  (['U', 'n', 'd', 'e', 'r', 'B', 'r', 'a', 'c', 'e', ';'], [0x23df]),
  (['U', 'n', 'd', 'e', 'r', 'B', 'r', 'a', 'c', 'k', 'e', 't', ';'], [0x23b5]),
  (['U', 'n', 'd', 'e', 'r', 'P', 'a', 'r', 'e', 'n', 't', 'h', 'e', 's', 'i', 's', ';'], [0x23dd]),
  (['U', 'n', 'i', 'o', 'n', ';'], [0x22c3]),
  (['U', 'n', 'i', 'o', 'n', 'P', 'l', 'u', 's', ';'], [0x228e]),
  (['U', 'o', 'g', 'o', 'n', ';'], [0x172]),
  (['U', 'o', 'p', 'f', ';'], [0x1d54c]),
  (['U', 'p', 'A', 'r', 'r', 'o', 'w', ';'], [0x2191]),
  (['U', 'p', 'A', 'r', 'r', 'o', 'w', 'B', 'a', 'r', ';'], [0x2912]),
  (['U', 'p', 'A', 'r', 'r', 'o', 'w', 'D', 'o', 'w', 'n', 'A', 'r', 'r', 'o', 'w', ';'], [0x21c5]),
  (['U', 'p', 'D', 'o', 'w', 'n', 'A', 'r', 'r', 'o', 'w', ';'], [0x2195]),
  (['U', 'p', 'E', 'q', 'u', 'i', 'l', 'i', 'b', 'r', 'i', 'u', 'm', ';'], [0x296e]),
  (['U', 'p', 'T', 'e', 'e', ';'], [0x22a5]),
  (['U', 'p', 'T', 'e', 'e', 'A', 'r', 'r', 'o', 'w', ';'], [0x21a5]),
  (['U', 'p', 'a', 'r', 'r', 'o', 'w', ';'], [0x21d1]),
  (['U', 'p', 'd', 'o', 'w', 'n', 'a', 'r', 'r', 'o', 'w', ';'], [0x21d5]),
  (['U', 'p', 'p', 'e', 'r', 'L', 'e', 'f', 't', 'A', 'r', 'r', 'o', 'w', ';'], [0x2196]),
  (['U', 'p', 'p', 'e', 'r', 'R', 'i', 'g', 'h', 't', 'A', 'r', 'r', 'o', 'w', ';'], [0x2197]),
  (['U', 'p', 's', 'i', ';'], [0x3d2]),
  (['U', 'p', 's', 'i', 'l', 'o', 'n', ';'], [0x3a5]),
  (['U', 'r', 'i', 'n', 'g', ';'], [0x16e]),
  (['U', 's', 'c', 'r', ';'], [0x1d4b0]),
  (['U', 't', 'i', 'l', 'd', 'e', ';'], [0x168]),
  (['U', 'u', 'm', 'l', ';'], [0xdc]),
  (['V', 'D', 'a', 's', 'h', ';'], [0x22ab]),
  (['V', 'b', 'a', 'r', ';'], [0x2aeb]),
  (['V', 'c', 'y', ';'], [0x412]),
  (['V', 'd', 'a', 's', 'h', ';'], [0x22a9]),
  (['V', 'd', 'a', 's', 'h', 'l', ';'], [0x2ae6]),
  (['V', 'e', 'e', ';'], [0x22c1]),
  (['V', 'e', 'r', 'b', 'a', 'r', ';'], [0x2016]),
  (['V', 'e', 'r', 't', ';'], [0x2016]),
  (['V', 'e', 'r', 't', 'i', 'c', 'a', 'l', 'B', 'a', 'r', ';'], [0x2223]),
  (['V', 'e', 'r', 't', 'i', 'c', 'a', 'l', 'L', 'i', 'n', 'e', ';'], [0x7c]),
  (['V', 'e', 'r', 't', 'i', 'c', 'a', 'l', 'S', 'e', 'p', 'a', 'r', 'a', 't', 'o', 'r', ';'], [0x2758]),
  (['V', 'e', 'r', 't', 'i', 'c', 'a', 'l', 'T', 'i', 'l', 'd', 'e', ';'], [0x2240]),
  (['V', 'e', 'r', 'y', 'T', 'h', 'i', 'n', 'S', 'p', 'a', 'c', 'e', ';'], [0x200a]),
  (['V', 'f', 'r', ';'], [0x1d519]),
  (['V', 'o', 'p', 'f', ';'], [0x1d54d]),
  (['V', 's', 'c', 'r', ';'], [0x1d4b1]),
  (['V', 'v', 'd', 'a', 's', 'h', ';'], [0x22aa]),
  (['W', 'c', 'i', 'r', 'c', ';'], [0x174]),
  (['W', 'e', 'd', 'g', 'e', ';'], [0x22c0]),
  (['W', 'f', 'r', ';'], [0x1d51a]),
  (['W', 'o', 'p', 'f', ';'], [0x1d54e]),
  (['W', 's', 'c', 'r', ';'], [0x1d4b2]),
  (['X', 'f', 'r', ';'], [0x1d51b]),
  (['X', 'i', ';'], [0x39e]),
  (['X', 'o', 'p', 'f', ';'], [0x1d54f]),
  (['X', 's', 'c', 'r', ';'], [0x1d4b3]),
  (['Y', 'A', 'c', 'y', ';'], [0x42f]),
  (['Y', 'I', 'c', 'y', ';'], [0x407]),
  (['Y', 'U', 'c', 'y', ';'], [0x42e]),
  (['Y', 'a', 'c', 'u', 't', 'e', ';'], [0xdd]),
  (['Y', 'c', 'i', 'r', 'c', ';'], [0x176]),
  (['Y', 'c', 'y', ';'], [0x42b]),
  (['Y', 'f', 'r', ';'], [0x1d51c]),
  (['Y', 'o', 'p', 'f', ';'], [0x1d550]),
  (['Y', 's', 'c', 'r', ';'], [0x1d4b4]),
  (['Y', 'u', 'm', 'l', ';'], [0x178]),
  (['Z', 'H', 'c', 'y', ';'], [0x416]),
  (['Z', 'a', 'c', 'u', 't', 'e', ';'], [0x179]),
  (['Z', 'c', 'a', 'r', 'o', 'n', ';'], [0x17d]),
  (['Z', 'c', 'y', ';'], [0x417]),
  (['Z', 'd', 'o', 't', ';'], [0x17b]),
  (['Z', 'e', 'r', 'o', 'W', 'i', 'd', 't', 'h', 'S', 'p', 'a', 'c', 'e', ';'], [0x200b]),
  (['Z', 'e', 't', 'a', ';'], [0x396]),
  (['Z', 'f', 'r', ';'], [0x2128]),
  (['Z', 'o', 'p', 'f', ';'], [0x2124]),
  (['Z', 's', 'c', 'r', ';'], [0x1d4b5]),
  (['a', 'a', 'c', 'u', 't', 'e', ';'], [0xe1]),
  (['a', 'b', 'r', 'e', 'v', 'e', ';'], [0x103]),
  (['a', 'c', ';'], [0x223e]),
  (['a', 'c', 'd', ';'], [0x223f]),
  (['a', 'c', 'i', 'r', 'c', ';'], [0xe2]),
  (['a', 'c', 'u', 't', 'e', ';'], [0xb4]),
  (['a', 'c', 'y', ';'], [0x430]),
  (['a', 'e', 'l', 'i', 'g', ';'], [0xe6]),
  (['a', 'f', ';'], [0x2061]),
  (['a', 'f', 'r', ';'], [0x1d51e]),
  (['a', 'g', 'r', 'a', 'v', 'e', ';'], [0xe0]),
  (['a', 'l', 'e', 'f', 's', 'y', 'm', ';'], [0x2135]),
  (['a', 'l', 'e', 'p', 'h', ';'], [0x2135]),
  (['a', 'l', 'p', 'h', 'a', ';'], [0x3b1]),
  (['a', 'm', 'a', 'c', 'r', ';'], [0x101]),
  (['a', 'm', 'a', 'l', 'g', ';'], [0x2a3f]),
  (['a', 'm', 'p', ';'], [0x26]),
  (['a', 'n', 'd', ';'], [0x2227]),
  (['a', 'n', 'd', 'a', 'n', 'd', ';'], [0x2a55]),
  (['a', 'n', 'd', 'd', ';'], [0x2a5c]),
  (['a', 'n', 'd', 's', 'l', 'o', 'p', 'e', ';'], [0x2a58]),
  (['a', 'n', 'd', 'v', ';'], [0x2a5a])]

/-- gosub_html5/src/tokenizer/replacement_tables.rs, entries 601 to 800 of `TOKEN_NAMED_CHARS`. -/
def named3 : List (List Char × List Nat) := [
  (['a', 'n', 'g', ';'], [0x2220]),
  (['a', 'n', 'g', 'e', ';'], [0x29a4]),
  (['a', 'n', 'g', 'l', 'e', ';'], [0x2220]),
  (['a', 'n', 'g', 'm', 's', 'd', ';'], [0x2221]),
  (['a', 'n', 'g', 'm', 's', 'd', 'a', 'a', ';'], [0x29a8]),
  (['a', 'n', 'g', 'm', 's', 'd', 'a', 'b', ';'], [0x29a9]),
  (['a', 'n', 'g', 'm', 's', 'd', 'a', 'c', ';'], [0x29aa]),
  (['a', 'n', 'g', 'm', 's', 'd', 'a', 'd', ';'], [0x29ab]),
  (['a', 'n', 'g', 'm', 's', 'd', 'a', 'e', ';'], [0x29ac]),
  (['a', 'n', 'g', 'm', 's', 'd', 'a', 'f', ';'], [0x29ad]),
  (['a', 'n', 'g', 'm', 's', 'd', 'a', 'g', ';'], [0x29ae]),
  (['a', 'n', 'g', 'm', 's', 'd', 'a', 'h', ';'], [0x29af]),
  (['a', 'n', 'g', 'r', 't', ';'], [0x221f]),
  (['a', 'n', 'g', 'r', 't', 'v', 'b', ';'], [0x22be]),
  (['a', 'n', 'g', 'r', 't', 'v', 'b', 'd', ';'], [0x299d]),
  (['a', 'n', 'g', 's', 'p', 'h', ';'], [0x2222]),
  (['a', 'n', 'g', 's', 't', ';'], [0xc5]),
  (['a', 'n', 'g', 'z', 'a', 'r', 'r', ';'], [0x237c]),
  (['a', 'o', 'g', 'o', 'n', ';'], [0x105]),
  (['a', 'o', 'p', 'f', ';'], [0x1d552]),
  (['a', 'p', ';'], [0x2248]),
  (['a', 'p', 'E', ';'], [0x2a70]),
  (['a', 'p', 'a', 'c', 'i', 'r', ';'], [0x2a6f]),
  (['a', 'p', 'e', ';'], [0x224a]),
  (['a', 'p', 'i', 'd', ';'], [0x224b]),
  (['a', 'p', 'o', 's', ';'], [0x27]),
  (['a', 'p', 'p', 'r', 'o', 'x', ';'], [0x2248]),
  (['a', 'p', 'p', 'r', 'o', 'x', 'e', 'q', ';'], [0x224a]),
  (['a', 'r', 'i', 'n', 'g', ';'], [0xe5]),
  (['a', 's', 'c', 'r', ';'], [0x1d4b6]),
  (['a', 's', 't', ';'], [0x2a]),
  (['a', 's', 'y', 'm', 'p', ';'], [0x2248]),
  (['a', 's', 'y', 'm', 'p', 'e', 'q', ';'], [0x224d]),
  (['a', 't', 'i', 'l', 'd', 'e', ';'], [0xe3]),
  (['a', 'u', 'm', 'l', ';'], [0xe4]),
  (['a', 'w', 'c', 'o', 'n', 'i', 'n', 't', ';'], [0x2233]),
  (['a', 'w', 'i', 'n', 't', ';'], [0x2a11]),
  (['b', 'N', 'o', 't', ';'], [0x2aed]),
  (['b', 'a', 'c', 'k', 'c', 'o', 'n', 'g', ';'], [0x224c]),
  (['b', 'a', 'c', 'k', 'e', 'p', 's', 'i', 'l', 'o', 'n', ';'], [0x3f6]),
  (['b', 'a', 'c', 'k', 'p', 'r', 'i', 'm', 'e', ';'], [0x2035]),
  (['b', 'a', 'c', 'k', 's', 'i', 'm', ';'], [0x223d]),
  (['b', 'a', 'c', 'k', 's', 'i', 'm', 'e', 'q', ';'], [0x22cd]),
  (['b', 'a', 'r', 'v', 'e', 'e', ';'], [0x22bd]),
  (['b', 'a', 'r', 'w', 'e', 'd', ';'], [0x2305]),
  (['b', 'a', 'r', 'w', 'e', 'd', 'g', 'e', ';'], [0x2305]),
  (['b', 'b', 'r', 'k', ';'], [0x23b5]),
  (['b', 'b', 'r', 'k', 't', 'b', 'r', 'k', ';'], [0x23b6]),
  (['b', 'c', 'o', 'n', 'g', ';'], [0x224c]),
  (['b', 'c', 'y', ';'], [0x431]),
  (['b', 'd', 'q', 'u', 'o', ';'], [0x201e]),
  (['b', 'e', 'c', 'a', 'u', 's', ';'], [0x2235]),
  (['b', 'e', 'c', 'a', 'u', 's', 'e', ';'], [0x2235]),
  (['b', 'e', 'm', 'p', 't', 'y', 'v', ';'], [0x29b0]),
  (['b', 'e', 'p', 's', 'i', ';'], [0x3f6]),
  (['b', 'e', 'r', 'n', 'o', 'u', ';'], [0x212c]),
  (['b', 'e', 't', 'a', ';'], [0x3b2]),
  (['b', 'e', 't', 'h', ';'], [0x2136]),
  (['b', 'e', 't', 'w', 'e', 'e', 'n', ';'], [0x226c]),
  (['b', 'f', 'r', ';'], [0x1d51f]),
  (['b', 'i', 'g', 'c', 'a', 'p', ';'], [0x22c2]),
  (['b', 'i', 'g', 'c', 'i', 'r', 'c', ';'], [0x25ef]),
  (['b', 'i', 'g', 'c', 'u', 'p', ';'], [0x22c3]),
  (['b', 'i', 'g', 'o', 'd', 'o', 't', ';'], [0x2a00]),
  (['b', 'i', 'g', 'o', 'p', 'l', 'u', 's', ';'], [0x2a01]),
  (['b', 'i', 'g', 'o', 't', 'i', 'm', 'e', 's', ';'], [0x2a02]),
  (['b', 'i', 'g', 's', 'q', 'c', 'u', 'p', ';'], [0x2a06]),
  (['b', 'i', 'g', 's', 't', 'a', 'r', ';'], [0x2605]),
  (['b', 'i', 'g', 't', 'r', 'i', 'a', 'n', 'g', 'l', 'e', 'd', 'o', 'w', 'n', ';'], [0x25bd]),
  (['b', 'i', 'g', 't', 'r', 'i', 'a', 'n', 'g', 'l', 'e', 'u', 'p', ';'], [0x25b3]),
  (['b', 'i', 'g', 'u', 'p', 'l', 'u', 's', ';'], [0x2a04]),
  (['b', 'i', 'g', 'v', 'e', 'e', ';'], [0x22c1]),
  (['b', 'i', 'g', 'w', 'e', 'd', 'g', 'e', ';'], [0x22c0]),
  (['b', 'k', 'a', 'r', 'o', 'w', ';'], [0x290d]),
  (['b', 'l', 'a', 'c', 'k', 'l', 'o', 'z', 'e', 'n', 'g', 'e', ';'], [0x29eb]),
  (['b', 'l', 'a', 'c', 'k', 's', 'q', 'u', 'a', 'r', 'e', ';'], [0x25aa]),
  (['b', 'l', 'a', 'c', 'k', 't', 'r', 'i', 'a', 'n', 'g', 'l', 'e', ';'], [0x25b4]),
  (['b', 'l', 'a', 'c', 'k', 't', 'r', 'i', 'a', 'n', 'g', 'l', 'e', 'd', 'o', 'w', 'n', ';'], [0x25be]),
  (['b', 'l', 'a', 'c', 'k', 't', 'r', 'i', 'a', 'n', 'g', 'l', 'e', 'l', 'e', 'f', 't', ';'], [0x25c2]),
  (['b', 'l', 'a', 'c', 'k', 't', 'r', 'i', 'a', 'n', 'g', 'l', 'e', 'r', 'i', 'g', 'h', 't', ';'], [0x25b8]),
  (['b', 'l', 'a', 'n', 'k', ';'], [0x2423]),
  (['b', 'l', 'k', '1', '2', ';'], [0x2592]),
  (['b', 'l', 'k', '1', '4', ';'], [0x2591]),
  (['b', 'l', 'k', '3', '4', ';'], [0x2593]),
  (['b', 'l', 'o', 'c', 'k', ';'], [0x2588]),
  (['b', 'n', 'o', 't', ';'], [0x2310]),
  (['b', 'o', 'p', 'f', ';'], [0x1d553]),
  (['b', 'o', 't', ';'], [0x22a5]),
  (['b', 'o', 't', 't', 'o', 'm', ';'], [0x22a5]),
  (['b', 'o', 'w', 't', 'i', 'e', ';'], [0x22c8]),
  (['b', 'o', 'x', 'D', 'L', ';'], [0x2557]),
  (['b', 'o', 'x', 'D', 'R', ';'], [0x2554]),
  (['b', 'o', 'x', 'D', 'l', ';'], [0x2556]),
  (['b', 'o', 'x', 'D', 'r', ';'], [0x2553]),
  (['b', 'o', 'x', 'H', ';'], [0x2550]),
  (['b', 'o', 'x', 'H', 'D', ';'], [0x2566]),
  (['b', 'o', 'x', 'H', 'U', ';'], [0x2569]),
  (['b', 'o', 'x', 'H', 'd', ';'], [0x2564]),
  (['b', 'o', 'x', 'H', 'u', ';'], [0x2567]),
  (['b', 'o', 'x', 'U', 'L', ';'], [0x255d]),
  (['b', 'o', 'x', 'U', 'R', ';'], [0x255a]),
  (['b', 'o', 'x', 'U', 'l', ';'], [0x255c]),
  (['b', 'o', 'x', 'U', 'r', ';'], [0x2559]),
  (['b', 'o', 'x', 'V', ';'], [0x2551]),
  (['b', 'o', 'x', 'V', 'H', ';'], [0x256c]),
  (['b', 'o', 'x', 'V', 'L', ';'], [0x2563]),
  (['b', 'o', 'x', 'V', 'R', ';'], [0x2560]),
  (['b', 'o', 'x', 'V', 'h', ';'], [0x256b]),
  (['b', 'o', 'x', 'V', 'l', ';'], [0x2562]),
  (['b', 'o', 'x', 'V', 'r', ';'], [0x255f]),
  (['b', 'o', 'x', 'b', 'o', 'x', ';'], [0x29c9]),
  (['b', 'o', 'x', 'd', 'L', ';'], [0x2555]),
  (['b', 'o', 'x', 'd', 'R', ';'], [0x2552]),
  (['b', 'o', 'x', 'd', 'l', ';'], [0x2510]),
  (['b', 'o', 'x', 'd', 'r', ';'], [0x250c]),
  (['b', 'o', 'x', 'h', ';'], [0x2500]),
  (['b', 'o', 'x', 'h', 'D', ';'], [0x2565]),
  (['b', 'o', 'x', 'h', 'U', ';'], [0x2568]),
  (['b', 'o', 'x', 'h', 'd', ';'], [0x252c]),
  (['b', 'o', 'x', 'h', 'u', ';'], [0x2534]),
  (['b', 'o', 'x', 'm', 'i', 'n', 'u', 's', ';'], [0x229f]),
  (['b', 'o', 'x', 'p', 'l', 'u', 's', ';'], [0x229e]),
  (['b', 'o', 'x', 't', 'i', 'm', 'e', 's', ';'], [0x22a0]),
  (['b', 'o', 'x', 'u', 'L', ';'], [0x255b]),
  (['b', 'o', 'x', 'u', 'R', ';'], [0x2558]),
  (['b', 'o', 'x', 'u', 'l', ';'], [0x2518]),
  (['b', 'o', 'x', 'u', 'r', ';'], [0x2514]),
  (['b', 'o', 'x', 'v', ';'], [0x2502]),
  (['b', 'o', 'x', 'v', 'H', ';'], [0x256a]),
  (['b', 'o', 'x', 'v', 'L', ';'], [0x2561]),
  (['b', 'o', 'x', 'v', 'R', ';'], [0x255e]),
  (['b', 'o', 'x', 'v', 'h', ';'], [0x253c]),
  (['b', 'o', 'x', 'v', 'l', ';'], [0x2524]),
  (['b', 'o', 'x', 'v', 'r', ';'], [0x251c]),
  (['b', 'p', 'r', 'i', 'm', 'e', ';'], [0x2035]),
  (['b', 'r', 'e', 'v', 'e', ';'], [0x2d8]),
  (['b', 'r', 'v', 'b', 'a', 'r', ';'], [0xa6]),
  (['b', 's', 'c', 'r', ';'], [0x1d4b7]),
  (['b', 's', 'e', 'm', 'i', ';'], [0x204f]),
  (['b', 's', 'i', 'm', ';'], [0x223d]),
  (['b', 's', 'i', 'm', 'e', ';'], [0x22cd]),
  (['b', 's', 'o', 'l', ';'], [0x5c]),
  (['b', 's', 'o', 'l', 'b', ';'], [0x29c5]),
  (['b', 's', 'o', 'l', 'h', 's', 'u', 'b', ';'], [0x27c8]),
  (['b', 'u', 'l', 'l', ';'], [0x2022]),
  (['b', 'u', 'l', 'l', 'e', 't', ';'], [0x2022]),
  (['b', 'u', 'm', 'p', ';'], [0x224e]),
  (['b', 'u', 'm', 'p', 'E', ';'], [0x2aae]),
  (['b', 'u', 'm', 'p', 'e', ';'], [0x224f]),
  (['b', 'u', 'm', 'p', 'e', 'q', ';'], [0x224f]),
  (['c', 'a', 'c', 'u', 't', 'e', ';'], [0x107]),
  (['c', 'a', 'p', ';'], [0x2229]),
  (['c', 'a', 'p', 'a', 'n', 'd', ';'], [0x2a44]),
  (['c', 'a', 'p', 'b', 'r', 'c', 'u', 'p', ';'], [0x2a49]),
  (['c', 'a', 'p', 'c', 'a', 'p', ';'], [0x2a4b]),
  (['c', 'a', 'p', 'c', 'u', 'p', ';'], [0x2a47]),
  (['c', 'a', 'p', 'd', 'o', 't', ';'], [0x2a40]),
  (['c', 'a', 'r', 'e', 't', ';'], [0x2041]),
  (['c', 'a', 'r', 'o', 'n', ';'], [0x2c7]),
  (['c', 'c', 'a', 'p', 's', ';'], [0x2a4d]),
  (['c', 'c', 'a', 'r', 'o', 'n', ';'], [0x10d]),
  (['c', 'c', 'e', 'd', 'i', 'l', ';'], [0xe7]),
  (['c', 'c', 'i', 'r', 'c', ';'], [0x109]),
  (['c', 'c', 'u', 'p', 's', ';'], [0x2a4c]),
  (['c', 'c', 'u', 'p', 's', 's', 'm', ';'], [0x2a50]),
  (['c', 'd', 'o', 't', ';'], [0x10b]),
  (['c', 'e', 'd', 'i', 'l', ';'], [0xb8]),
  (['c', 'e', 'm', 'p', 't', 'y', 'v', ';'], [0x29b2]),
  (['c', 'e', 'n', 't', ';'], [0xa2]),
  (['c', 'e', 'n', 't', 'e', 'r', 'd', 'o', 't', ';'], [0xb7]),
  (['c', 'f', 'r', ';'], [0x1d520]),
  (['c', 'h', 'c', 'y', ';'], [0x447]),
  (['c', 'h', 'e', 'c', 'k', ';'], [0x2713]),
  (['c', 'h', 'e', 'c', 'k', 'm', 'a', 'r', 'k', ';'], [0x2713]),
  (['c', 'h', 'i', ';'], [0x3c7]),
  (['c', 'i', 'r', ';'], [0x25cb]),
  (['c', 'i', 'r', 'E', ';'], [0x29c3]),
  (['c', 'i', 'r', 'c', ';'], [0x2c6]),
  (['c', 'i', 'r', 'c', 'e', 'q', ';'], [0x2257]),
  (['c', 'i', 'r', 'c', 'l', 'e', 'a', 'r', 'r', 'o', 'w', 'l', 'e', 'f', 't', ';'], [0x21ba]),
  (['c', 'i', 'r', 'c', 'l', 'e', 'a', 'r', 'r', 'o', 'w', 'r', 'i', 'g', 'h', 't', ';'], [0x21bb]),
  (['c', 'i', 'r', 'c', 'l', 'e', 'd', 'R', ';'], [0xae]),
  (['c', 'i', 'r', 'c', 'l', 'e', 'd', 'S', ';'], [0x24c8]),
  (['c', 'i', 'r', 'c', 'l', 'e', 'd', 'a', 's', 't', ';'], [0x229b]),
  (['c', 'i', 'r', 'c', 'l', 'e', 'd', 'c', 'i', 'r', 'c', ';'], [0x229a]),
  (['c', 'i', 'r', 'c', 'l', 'e', 'd', 'd', 'a', 's', 'h', ';'], [0x229d]),
  (['c', 'i', 'r', 'e', ';'], [0x2257]),
  (['c', 'i', 'r', 'f', 'n', 'i', 'n', 't', ';'], [0x2a10]),
  (['c', 'i', 'r', 'm', 'i', 'd', ';'], [0x2aef]),
  (['c', 'i', 'r', 's', 'c', 'i', 'r', ';'], [0x29c2]),
  (['c', 'l', 'u', 'b', 's', ';'], [0x2663]),
  (['c', 'l', 'u', 'b', 's', 'u', 'i', 't', ';'], [0x2663]),
  (['c', 'o', 'l', 'o', 'n', ';'], [0x3a]),
  (['c', 'o', 'l', 'o', 'n', 'e', ';'], [0x2254]),
  (['c', 'o', 'l', 'o', 'n', 'e', 'q', ';'], [0x2254]),
  (['c', 'o', 'm', 'm', 'a', ';'], [0x2c]),
  (['c', 'o', 'm', 'm', 'a', 't', ';'], [0x40]),
  (['c', 'o', 'm', 'p', ';'], [0x2201]),
  (['c', 'o', 'm', 'p', 'f', 'n', ';'], [0x2218]),
  (['c', 'o', 'm', 'p', 'l', 'e', 'm', 'e', 'n', 't', ';'], [0x2201])]

/-- gosub_html5/src/tokenizer/replacement_tables.rs, entries 801 to 1000 of `TOKEN_NAMED_CHARS`. -/
def named4 : List (List Char × List Nat) := [
  (['c', 'o', 'm', 'p', 'l', 'e', 'x', 'e', 's', ';'], [0x2102]),
  (['c', 'o', 'n', 'g', ';'], [0x2245]),
  (['c', 'o', 'n', 'g', 'd', 'o', 't', ';'], [0x2a6d]),
  (['c', 'o', 'n', 'i', 'n', 't', ';'], [0x222e]),
  (['c', 'o', 'p', 'f', ';'], [0x1d554]),
  (['c', 'o', 'p', 'r', 'o', 'd', ';'], [0x2210]),
  (['c', 'o', 'p', 'y', ';'], [0xa9]),
  (['c', 'o', 'p', 'y', 's', 'r', ';'], [0x2117]),
  (['c', 'r', 'a', 'r', 'r', ';'], [0x21b5]),
  (['c', 'r', 'o', 's', 's', ';'], [0x2717]),
  (['c', 's', 'c', 'r', ';'], [0x1d4b8]),
  (['c', 's', 'u', 'b', ';'], [0x2acf]),
  (['c', 's', 'u', 'b', 'e', ';'], [0x2ad1]),
  (['c', 's', 'u', 'p', ';'], [0x2ad0]),
  (['c', 's', 'u', 'p', 'e', ';'], [0x2ad2]),
  (['c', 't', 'd', 'o', 't', ';'], [0x22ef]),
  (['c', 'u', 'd', 'a', 'r', 'r', 'l', ';'], [0x2938]),
  (['c', 'u', 'd', 'a', 'r', 'r', 'r', ';'], [0x2935]),
  (['c', 'u', 'e', 'p', 'r', ';'], [0x22de]),
  (['c', 'u', 'e', 's', 'c', ';'], [0x22df]),
  (['c', 'u', 'l', 'a', 'r', 'r', ';'], [0x21b6]),
  (['c', 'u', 'l', 'a', 'r', 'r', 'p', ';'], [0x293d]),
  (['c', 'u', 'p', ';'], [0x222a]),
  (['c', 'u', 'p', 'b', 'r', 'c', 'a', 'p', ';'], [0x2a48]),
  (['c', 'u', 'p', 'c', 'a', 'p', ';'], [0x2a46]),
  (['c', 'u', 'p', 'c', 'u', 'p', ';'], [0x2a4a]),
  (['c', 'u', 'p', 'd', 'o', 't', ';'], [0x228d]),
  (['c', 'u', 'p', 'o', 'r', ';'], [0x2a45]),
  (['c', 'u', 'r', 'a', 'r', 'r', ';'], [0x21b7]),
  (['c', 'u', 'r', 'a', 'r', 'r', 'm', ';'], [0x293c]),
  (['c', 'u', 'r', 'l', 'y', 'e', 'q', 'p', 'r', 'e', 'c', ';'], [0x22de]),
  (['c', 'u', 'r', 'l', 'y', 'e', 'q', 's', 'u', 'c', 'c', ';'], [0x22df]),
  (['c', 'u', 'r', 'l', 'y', 'v', 'e', 'e', ';'], [0x22ce]),
  (['c', 'u', 'r', 'l', 'y', 'w', 'e', 'd', 'g', 'e', ';'], [0x22cf]),
  (['c', 'u', 'r', 'r', 'e', 'n', ';'], [0xa4]),
  (['c', 'u', 'r', 'v', 'e', 'a', 'r', 'r', 'o', 'w', 'l', 'e', 'f', 't', ';'], [0x21b6]),
  (['c', 'u', 'r', 'v', 'e', 'a', 'r', 'r', 'o', 'w', 'r', 'i', 'g', 'h', 't', ';'], [0x21b7]),
  (['c', 'u', 'v', 'e', 'e', ';'], [0x22ce]),
  (['c', 'u', 'w', 'e', 'd', ';'], [0x22cf]),
  (['c', 'w', 'c', 'o', 'n', 'i', 'n', 't', ';'], [0x2232]),
  (['c', 'w', 'i', 'n', 't', ';'], [0x2231]),
  (['c', 'y', 'l', 'c', 't', 'y', ';'], [0x232d]),
  (['d', 'A', 'r', 'r', ';'], [0x21d3]),
  (['d', 'H', 'a', 'r', ';'], [0x2965]),
  (['d', 'a', 'g', 'g', 'e', 'r', ';'], [0x2020]),
  (['d', 'a', 'l', 'e', 't', 'h', ';'], [0x2138]),
  (['d', 'a', 'r', 'r', ';'], [0x2193]),
  (['d', 'a', 's', 'h', ';'], [0x2010]),
  (['d', 'a', 's', 'h', 'v', ';'], [0x22a3]),
  (['d', 'b', 'k', 'a', 'r', 'o', 'w', ';'], [0x290f]),
  (['d', 'b', 'l', 'a', 'c', ';'], [0x2dd]),
  (['d', 'c', 'a', 'r', 'o', 'n', ';'], [0x10f]),
  (['d', 'c', 'y', ';'], [0x434]),
  (['d', 'd', ';'], [0x2146]),
  (['d', 'd', 'a', 'g', 'g', 'e', 'r', ';'], [0x2021]),
  (['d', 'd', 'a', 'r', 'r', ';'], [0x21ca]),
  (['d', 'd', 'o', 't', 's', 'e', 'q', ';'], [0x2a77]),
  (['d', 'e', 'g', ';'], [0xb0]),
  (['d', 'e', 'l', 't', 'a', ';'], [0x3b4]),
  (['d', 'e', 'm', 'p', 't', 'y', 'v', ';'], [0x29b1]),
  (['d', 'f', 'i', 's', 'h', 't', ';'], [0x297f]),
  (['d', 'f', 'r', ';'], [0x1d521]),
  (['d', 'h', 'a', 'r', 'l', ';'], [0x21c3]),
  (['d', 'h', 'a', 'r', 'r', ';'], [0x21c2]),
  (['d', 'i', 'a', 'm', ';'], [0x22c4]),
  (['d', 'i', 'a', 'm', 'o', 'n', 'd', ';'], [0x22c4]),
  (['d', 'i', 'a', 'm', 'o', 'n', 'd', 's', 'u', 'i', 't', ';'], [0x2666]),
  (['d', 'i', 'a', 'm', 's', ';'], [0x2666]),
  (['d', 'i', 'e', ';'], [0xa8]),
  (['d', 'i', 'g', 'a', 'm', 'm', 'a', ';'], [0x3dd]),
  (['d', 'i', 's', 'i', 'n', ';'], [0x22f2]),
  (['d', 'i', 'v', ';'], [0xf7]),
  (['d', 'i', 'v', 'i', 'd', 'e', ';'], [0xf7]),
  (['d', 'i', 'v', 'i', 'd', 'e', 'o', 'n', 't', 'i', 'm', 'e', 's', ';'], [0x22c7]),
  (['d', 'i', 'v', 'o', 'n', 'x', ';'], [0x22c7]),
  (['d', 'j', 'c', 'y', ';'], [0x452]),
  (['d', 'l', 'c', 'o', 'r', 'n', ';'], [0x231e]),
  (['d', 'l', 'c', 'r', 'o', 'p', ';'], [0x230d]),
  (['d', 'o', 'l', 'l', 'a', 'r', ';'], [0x24]),
  (['d', 'o', 'p', 'f', ';'], [0x1d555]),
  (['d', 'o', 't', ';'], [0x2d9]),
  (['d', 'o', 't', 'e', 'q', ';'], [0x2250]),
  (['d', 'o', 't', 'e', 'q', 'd', 'o', 't', ';'], [0x2251]),
  (['d', 'o', 't', 'm', 'i', 'n', 'u', 's', ';'], [0x2238]),
  (['d', 'o', 't', 'p', 'l', 'u', 's', ';'], [0x2214]),
  (['d', 'o', 't', 's', 'q', 'u', 'a', 'r', 'e', ';'], [0x22a1]),
  (['d', 'o', 'u', 'b', 'l', 'e', 'b', 'a', 'r', 'w', 'e', 'd', 'g', 'e', ';'], [0x2306]),
  (['d', 'o', 'w', 'n', 'a', 'r', 'r', 'o', 'w', ';'], [0x2193]),
  (['d', 'o', 'w', 'n', 'd', 'o', 'w', 'n', 'a', 'r', 'r', 'o', 'w', 's', ';'], [0x21ca]),
  (['d', 'o', 'w', 'n', 'h', 'a', 'r', 'p', 'o', 'o', 'n', 'l', 'e', 'f', 't', ';'], [0x21c3]),
  (['d', 'o', 'w', 'n', 'h', 'a', 'r', 'p', 'o', 'o', 'n', 'r', 'i', 'g', 'h', 't', ';'], [0x21c2]),
  (['d', 'r', 'b', 'k', 'a', 'r', 'o', 'w', ';'], [0x2910]),
  (['d', 'r', 'c', 'o', 'r', 'n', ';'], [0x231f]),
  (['d', 'r', 'c', 'r', 'o', 'p', ';'], [0x230c]),
  (['d', 's', 'c', 'r', ';'], [0x1d4b9]),
  (['d', 's', 'c', 'y', ';'], [0x455]),
  (['d', 's', 'o', 'l', ';'], [0x29f6]),
  (['d', 's', 't', 'r', 'o', 'k', ';'], [0x111]),
  (['d', 't', 'd', 'o', 't', ';'], [0x22f1]),
  (['d', 't', 'r', 'i', ';'], [0x25bf]),
  (['d', 't', 'r', 'i', 'f', ';'], [0x25be]),
  (['d', 'u', 'a', 'r', 'r', ';'], [0x21f5]),
  (['d', 'u', 'h', 'a', 'r', ';'], [0x296f]),
  (['d', 'w', 'a', 'n', 'g', 'l', 'e', ';'], [0x29a6]),
  (['d', 'z', 'c', 'y', ';'], [0x45f]),
  (['d', 'z', 'i', 'g', 'r', 'a', 'r', 'r', ';'], [0x27ff]),
  (['e', 'D', 'D', 'o', 't', ';'], [0x2a77]),
  (['e', 'D', 'o', 't', ';'], [0x2251]),
  (['e', 'a', 'c', 'u', 't', 'e', ';'], [0xe9]),
  (['e', 'a', 's', 't', 'e', 'r', ';'], [0x2a6e]),
  (['e', 'c', 'a', 'r', 'o', 'n', ';'], [0x11b]),
  (['e', 'c', 'i', 'r', ';'], [0x2256]),
  (['e', 'c', 'i', 'r', 'c', ';'], [0xea]),
  (['e', 'c', 'o', 'l', 'o', 'n', ';'], [0x2255]),
  (['e', 'c', 'y', ';'], [0x44d]),
  (['e', 'd', 'o', 't', ';'], [0x117]),
  (['e', 'e', ';'], [0x2147]),
  (['e', 'f', 'D', 'o', 't', ';'], [0x2252]),
  (['e', 'f', 'r', ';'], [0x1d522]),
  (['e', 'g', ';'], [0x2a9a]),
  (['e', 'g', 'r', 'a', 'v', 'e', ';'], [0xe8]),
  (['e', 'g', 's', ';'], [0x2a96]),
  (['e', 'g', 's', 'd', 'o', 't', ';'], [0x2a98]),
  (['e', 'l', ';'], [0x2a99]),
  (['e', 'l', 'i', 'n', 't', 'e', 'r', 's', ';'], [0x23e7]),
  (['e', 'l', 'l', ';'], [0x2113]),
  (['e', 'l', 's', ';'], [0x2a95]),
  (['e', 'l', 's', 'd', 'o', 't', ';'], [0x2a97]),
  (['e', 'm', 'a', 'c', 'r', ';'], [0x113]),
  (['e', 'm', 'p', 't', 'y', ';'], [0x2205]),
  (['e', 'm', 'p', 't', 'y', 's', 'e', 't', ';'], [0x2205]),
  (['e', 'm', 'p', 't', 'y', 'v', ';'], [0x2205]),
  (['e', 'm', 's', 'p', ';'], [0x2003]),
  (['e', 'm', 's', 'p', '1', '3', ';'], [0x2004]),
  (['e', 'm', 's', 'p', '1', '4', ';'], [0x2005]),
  (['e', 'n', 'g', ';'], [0x14b]),
  (['e', 'n', 's', 'p', ';'], [0x2002]),
  (['e', 'o', 'g', 'o', 'n', ';'], [0x119]),
  (['e', 'o', 'p', 'f', ';'], [0x1d556]),
  (['e', 'p', 'a', 'r', ';'], [0x22d5]),
  (['e', 'p', 'a', 'r', 's', 'l', ';'], [0x29e3]),
  (['e', 'p', 'l', 'u', 's', ';'], [0x2a71]),
  (['e', 'p', 's', 'i', ';'], [0x3b5]),
  (['e', 'p', 's', 'i', 'l', 'o', 'n', ';'], [0x3b5]),
  (['e', 'p', 's', 'i', 'v', ';'], [0x3f5]),
  (['e', 'q', 'c', 'i', 'r', 'c', ';'], [0x2256]),
  (['e', 'q', 'c', 'o', 'l', 'o', 'n', ';'], [0x2255]),
  (['e', 'q', 's', 'i', 'm', ';'], [0x2242]),
  (['e', 'q', 's', 'l', 'a', 'n', 't', 'g', 't', 'r', ';'], [0x2a96]),
  (['e', 'q', 's', 'l', 'a', 'n', 't', 'l', 'e', 's', 's', ';'], [0x2a95]),
  (['e', 'q', 'u', 'a', 'l', 's', ';'], [0x3d]),
  (['e', 'q', 'u', 'e', 's', 't', ';'], [0x225f]),
  (['e', 'q', 'u', 'i', 'v', ';'], [0x2261]),
  (['e', 'q', 'u', 'i', 'v', 'D', 'D', ';'], [0x2a78]),
  (['e', 'q', 'v', 'p', 'a', 'r', 's', 'l', ';'], [0x29e5]),
  (['e', 'r', 'D', 'o', 't', ';'], [0x2253]),
  (['e', 'r', 'a', 'r', 'r', ';'], [0x2971]),
  (['e', 's', 'c', 'r', ';'], [0x212f]),
  (['e', 's', 'd', 'o', 't', ';'], [0x2250]),
  (['e', 's', 'i', 'm', ';'], [0x2242]),
  (['e', 't', 'a', ';'], [0x3b7]),
  (['e', 't', 'h', ';'], [0xf0]),
  (['e', 'u', 'm', 'l', ';'], [0xeb]),
  (['e', 'u', 'r', 'o', ';'], [0x20ac]),
  (['e', 'x', 'c', 'l', ';'], [0x21]),
  (['e', 'x', 'i', 's', 't', ';'], [0x2203]),
  (['e', 'x', 'p', 'e', 'c', 't', 'a', 't', 'i', 'o', 'n', ';'], [0x2130]),
  (['e', 'x', 'p', 'o', 'n', 'e', 'n', 't', 'i', 'a', 'l', 'e', ';'], [0x2147]),
  (['f', 'a', 'l', 'l', 'i', 'n', 'g', 'd', 'o', 't', 's', 'e', 'q', ';'], [0x2252]),
  (['f', 'c', 'y', ';'], [0x444]),
  (['f', 'e', 'm', 'a', 'l', 'e', ';'], [0x2640]),
  (['f', 'f', 'i', 'l', 'i', 'g', ';'], [0xfb03]),
  (['f', 'f', 'l', 'i', 'g', ';'], [0xfb00]),
  (['f', 'f', 'l', 'l', 'i', 'g', ';'], [0xfb04]),
  (['f', 'f', 'r', ';'], [0x1d523]),
  (['f', 'i', 'l', 'i', 'g', ';'], [0xfb01]),
  (['f', 'l', 'a', 't', ';'], [0x266d]),
  (['f', 'l', 'l', 'i', 'g', ';'], [0xfb02]),
  (['f', 'l', 't', 'n', 's', ';'], [0x25b1]),
  (['f', 'n', 'o', 'f', ';'], [0x192]),
  (['f', 'o', 'p', 'f', ';'], [0x1d557]),
  (['f', 'o', 'r', 'a', 'l', 'l', ';'], [0x2200]),
  (['f', 'o', 'r', 'k', ';'], [0x22d4]),
  (['f', 'o', 'r', 'k', 'v', ';'], [0x2ad9]),
  (['f', 'p', 'a', 'r', 't', 'i', 'n', 't', ';'], [0x2a0d]),
  (['f', 'r', 'a', 'c', '1', '2', ';'], [0xbd]),
  (['f', 'r', 'a', 'c', '1', '3', ';'], [0x2153]),
  (['f', 'r', 'a', 'c', '1', '4', ';'], [0xbc]),
  (['f', 'r', 'a', 'c', '1', '5', ';'], [0x2155]),
  (['f', 'r', 'a', 'c', '1', '6', ';'], [0x2159]),
  (['f', 'r', 'a', 'c', '1', '8', ';'], [0x215b]),
  (['f', 'r', 'a', 'c', '2', '3', ';'], [0x2154]),
  (['f', 'r', 'a', 'c', '2', '5', ';'], [0x2156]),
  (['f', 'r', 'a', 'c', '3', '4', ';'], [0xbe]),
  (['f', 'r', 'a', 'c', '3', '5', ';'], [0x2157]),
  (['f', 'r', 'a', 'c', '3', '8', ';'], [0x215c]),
  (['f', 'r', 'a', 'c', '4', '5', ';'], [0x2158]),
  (['f', 'r', 'a', 'c', '5', '6', ';'], [0x215a]),
  (['f', 'r', 'a', 'c', '5', '8', ';'], [0x215d]),
  (['f', 'r', 'a', 'c', '7', '8', ';'], [0x215e])]

/-- gosub_html5/src/tokenizer/replacement_tables.rs, entries 1001 to 1200 of `TOKEN_NAMED_CHARS`. -/
def named5 : List (List Char × List Nat) := [
  (['f', 'r', 'a', 's', 'l', ';'], [0x2044]),
  (['f', 'r', 'o', 'w', 'n', ';'], [0x2322]),
  (['f', 's', 'c', 'r', ';'], [0x1d4bb]),
  (['g', 'E', ';'], [0x2267]),
  (['g', 'E', 'l', ';'], [0x2a8c]),
  (['g', 'a', 'c', 'u', 't', 'e', ';'], [0x1f5]),
  (['g', 'a', 'm', 'm', 'a', ';'], [0x3b3]),
  (['g', 'a', 'm', 'm', 'a', 'd', ';'], [0x3dd]),
  (['g', 'a', 'p', ';'], [0x2a86]),
  (['g', 'b', 'r', 'e', 'v', 'e', ';'], [0x11f]),
  (['g', 'c', 'i', 'r', 'c', ';'], [0x11d]),
  (['g', 'c', 'y', ';'], [0x433]),
  (['g', 'd', 'o', 't', ';'], [0x121]),
  (['g', 'e', ';'], [0x2265]),
  (['g', 'e', 'l', ';'], [0x22db]),
  (['g', 'e', 'q', ';'], [0x2265]),
  (['g', 'e', 'q', 'q', ';'], [0x2267]),
  (['g', 'e', 'q', 's', 'l', 'a', 'n', 't', ';'], [0x2a7e]),
  (['g', 'e', 's', ';'], [0x2a7e]),
  (['g', 'e', 's', 'c', 'c', ';'], [0x2aa9]),
  (['g', 'e', 's', 'd', 'o', 't', ';'], [0x2a80]),
  (['g', 'e', 's', 'd', 'o', 't', 'o', ';'], [0x2a82]),
  (['g', 'e', 's', 'd', 'o', 't', 'o', 'l', ';'], [0x2a84]),
  (['g', 'e', 's', 'l', 'e', 's', ';'], [0x2a94]),
  (['g', 'f', 'r', ';'], [0x1d524]),
  (['g', 'g', ';'], [0x226b]),
  (['g', 'g', 'g', ';'], [0x22d9]),
  (['g', 'i', 'm', 'e', 'l', ';'], [0x2137]),
  (['g', 'j', 'c', 'y', ';'], [0x453]),
  (['g', 'l', ';'], [0x2277]),
  (['g', 'l', 'E', ';'], [0x2a92]),
  (['g', 'l', 'a', ';'], [0x2aa5]),
  (['g', 'l', 'j', ';'], [0x2aa4]),
  (['g', 'n', 'E', ';'], [0x2269]),
  (['g', 'n', 'a', 'p', ';'], [0x2a8a]),
  (['g', 'n', 'a', 'p', 'p', 'r', 'o', 'x', ';'], [0x2a8a]),
  (['g', 'n', 'e', ';'], [0x2a88]),
  (['g', 'n', 'e', 'q', ';'], [0x2a88]),
  (['g', 'n', 'e', 'q', 'q', ';'], [0x2269]),
  (['g', 'n', 's', 'i', 'm', ';'], [0x22e7]),
  (['g', 'o', 'p', 'f', ';'], [0x1d558]),
  (['g', 'r', 'a', 'v', 'e', ';'], [0x60]),
  (['g', 's', 'c', 'r', ';'], [0x210a]),
  (['g', 's', 'i', 'm', ';'], [0x2273]),
  (['g', 's', 'i', 'm', 'e', ';'], [0x2a8e]),
  (['g', 's', 'i', 'm', 'l', ';'], [0x2a90]),
  (['g', 't', ';'], [0x3e]),
  (['g', 't', 'c', 'c', ';'], [0x2aa7]),
  (['g', 't', 'c', 'i', 'r', ';'], [0x2a7a]),
  (['g', 't', 'd', 'o', 't', ';'], [0x22d7]),
  (['g', 't', 'l', 'P', 'a', 'r', ';'], [0x2995]),
  (['g', 't', 'q', 'u', 'e', 's', 't', ';'], [0x2a7c]),
  (['g', 't', 'r', 'a', 'p', 'p', 'r', 'o', 'x', ';'], [0x2a86]),
  (['g', 't', 'r', 'a', 'r', 'r', ';'], [0x2978]),
  (['g', 't', 'r', 'd', 'o', 't', ';'], [0x22d7]),
  (['g', 't', 'r', 'e', 'q', 'l', 'e', 's', 's', ';'], [0x22db]),
  (['g', 't', 'r', 'e', 'q', 'q', 'l', 'e', 's', 's', ';'], [0x2a8c]),
  (['g', 't', 'r', 'l', 'e', 's', 's', ';'], [0x2277]),
  (['g', 't', 'r', 's', 'i', 'm', ';'], [0x2273]),
  (['h', 'A', 'r', 'r', ';'], [0x21d4]),
  (['h', 'a', 'i', 'r', 's', 'p', ';'], [0x200a]),
  (['h', 'a', 'l', 'f', ';'], [0xbd]),
  (['h', 'a', 'm', 'i', 'l', 't', ';'], [0x210b]),
  (['h', 'a', 'r', 'd', 'c', 'y', ';'], [0x44a]),
  (['h', 'a', 'r', 'r', ';'], [0x2194]),
  (['h', 'a', 'r', 'r', 'c', 'i', 'r', ';'], [0x2948]),
  (['h', 'a', 'r', 'r', 'w', ';'], [0x21ad]),
  (['h', 'b', 'a', 'r', ';'], [0x210f]),
  (['h', 'c', 'i', 'r', 'c', ';'], [0x125]),
  (['h', 'e', 'a', 'r', 't', 's', ';'], [0x2665]),
  (['h', 'e', 'a', 'r', 't', 's', 'u', 'i', 't', ';'], [0x2665]),
  (['h', 'e', 'l', 'l', 'i', 'p', ';'], [0x2026]),
  (['h', 'e', 'r', 'c', 'o', 'n', ';'], [0x22b9]),
  (['h', 'f', 'r', ';'], [0x1d525]),
  (['h', 'k', 's', 'e', 'a', 'r', 'o', 'w', ';'], [0x2925]),
  (['h', 'k', 's', 'w', 'a', 'r', 'o', 'w', ';'], [0x2926]),
  (['h', 'o', 'a', 'r', 'r', ';'], [0x21ff]),
  (['h', 'o', 'm', 't', 'h', 't', ';'], [0x223b]),
  (['h', 'o', 'o', 'k', 'l', 'e', 'f', 't', 'a', 'r', 'r', 'o', 'w', ';'], [0x21a9]),
  (['h', 'o', 'o', 'k', 'r', 'i', 'g', 'h', 't', 'a', 'r', 'r', 'o', 'w', ';'], [0x21aa]),
  (['h', 'o', 'p', 'f', ';'], [0x1d559]),
  (['h', 'o', 'r', 'b', 'a', 'r', ';'], [0x2015]),
  (['h', 's', 'c', 'r', ';'], [0x1d4bd]),
  (['h', 's', 'l', 'a', 's', 'h', ';'], [0x210f]),
  (['h', 's', 't', 'r', 'o', 'k', ';'], [0x127]),
  (['h', 'y', 'b', 'u', 'l', 'l', ';'], [0x2043]),
  (['h', 'y', 'p', 'h', 'e', 'n', ';'], [0x2010]),
  (['i', 'a', 'c', 'u', 't', 'e', ';'], [0xed]),
  (['i', 'c', ';'], [0x2063]),
  (['i', 'c', 'i', 'r', 'c', ';'], [0xee]),
  (['i', 'c', 'y', ';'], [0x438]),
  (['i', 'e', 'c', 'y', ';'], [0x435]),
  (['i', 'e', 'x', 'c', 'l', ';'], [0xa1]),
  (['i', 'f', 'f', ';'], [0x21d4]),
  (['i', 'f', 'r', ';'], [0x1d526]),
  (['i', 'g', 'r', 'a', 'v', 'e', ';'], [0xec]),
  (['i', 'i', ';'], [0x2148]),
  (['i', 'i', 'i', 'i', 'n', 't', ';'], [0x2a0c]),
  (['i', 'i', 'i', 'n', 't', ';'], [0x222d]),
  (['i', 'i', 'n', 'f', 'i', 'n', ';'], [0x29dc]),
  (['i', 'i', 'o', 't', 'a', ';'], [0x2129]),
  (['i', 'j', 'l', 'i', 'g', ';'], [0x133]),
  (['i', 'm', 'a', 'c', 'r', ';'], [0x12b]),
  (['i', 'm', 'a', 'g', 'e', ';'], [0x2111]),
  (['i', 'm', 'a', 'g', 'l', 'i', 'n', 'e', ';'], [0x2110]),
  (['i', 'm', 'a', 'g', 'p', 'a', 'r', 't', ';'], [0x2111]),
  (['i', 'm', 'a', 't', 'h', ';'], [0x131]),
  (['i', 'm', 'o', 'f', ';'], [0x22b7]),
  (['i', 'm', 'p', 'e', 'd', ';'], [0x1b5]),
  (['i', 'n', ';'], [0x2208]),
  (['i', 'n', 'c', 'a', 'r', 'e', ';'], [0x2105]),
  (['i', 'n', 'f', 'i', 'n', ';'], [0x221e]),
  (['i', 'n', 'f', 'i', 'n', 't', 'i', 'e', ';'], [0x29dd]),
  (['i', 'n', 'o', 'd', 'o', 't', ';'], [0x131]),
  (['i', 'n', 't', ';'], [0x222b]),
  (['i', 'n', 't', 'c', 'a', 'l', ';'], [0x22ba]),
  (['i', 'n', 't', 'e', 'g', 'e', 'r', 's', ';'], [0x2124]),
  (['i', 'n', 't', 'e', 'r', 'c', 'a', 'l', ';'], [0x22ba]),
  (['i', 'n', 't', 'l', 'a', 'r', 'h', 'k', ';'], [0x2a17]),
  (['i', 'n', 't', 'p', 'r', 'o', 'd', ';'], [0x2a3c]),
  (['i', 'o', 'c', 'y', ';'], [0x451]),
  (['i', 'o', 'g', 'o', 'n', ';'], [0x12f]),
  (['i', 'o', 'p', 'f', ';'], [0x1d55a]),
  (['i', 'o', 't', 'a', ';'], [0x3b9]),
  (['i', 'p', 'r', 'o', 'd', ';'], [0x2a3c]),
  (['i', 'q', 'u', 'e', 's', 't', ';'], [0xbf]),
  (['i', 's', 'c', 'r', ';'], [0x1d4be]),
  (['i', 's', 'i', 'n', ';'], [0x2208]),
  (['i', 's', 'i', 'n', 'E', ';'], [0x22f9]),
  (['i', 's', 'i', 'n', 'd', 'o', 't', ';'], [0x22f5]),
  (['i', 's', 'i', 'n', 's', ';'], [0x22f4]),
  (['i', 's', 'i', 'n', 's', 'v', ';'], [0x22f3]),
  (['i', 's', 'i', 'n', 'v', ';'], [0x2208]),
  (['i', 't', ';'], [0x2062]),
  (['i', 't', 'i', 'l', 'd', 'e', ';'], [0x129]),
  (['i', 'u', 'k', 'c', 'y', ';'], [0x456]),
  (['i', 'u', 'm', 'l', ';'], [0xef]),
  (['j', 'c', 'i', 'r', 'c', ';'], [0x135]),
  (['j', 'c', 'y', ';'], [0x439]),
  (['j', 'f', 'r', ';'], [0x1d527]),
  (['j', 'm', 'a', 't', 'h', ';'], [0x237]),
  (['j', 'o', 'p', 'f', ';'], [0x1d55b]),
  (['j', 's', 'c', 'r', ';'], [0x1d4bf]),
  (['j', 's', 'e', 'r', 'c', 'y', ';'], [0x458]),
  (['j', 'u', 'k', 'c', 'y', ';'], [0x454]),
  (['k', 'a', 'p', 'p', 'a', ';'], [0x3ba]),
  (['k', 'a', 'p', 'p', 'a', 'v', ';'], [0x3f0]),
  (['k', 'c', 'e', 'd', 'i', 'l', ';'], [0x137]),
  (['k', 'c', 'y', ';'], [0x43a]),
  (['k', 'f', 'r', ';'], [0x1d528]),
  (['k', 'g', 'r', 'e', 'e', 'n', ';'], [0x138]),
  (['k', 'h', 'c', 'y', ';'], [0x445]),
  (['k', 'j', 'c', 'y', ';'], [0x45c]),
  (['k', 'o', 'p', 'f', ';'], [0x1d55c]),
  (['k', 's', 'c', 'r', ';'], [0x1d4c0]),
  (['l', 'A', 'a', 'r', 'r', ';'], [0x21da]),
  (['l', 'A', 'r', 'r', ';'], [0x21d0]),
  (['l', 'A', 't', 'a', 'i', 'l', ';'], [0x291b]),
  (['l', 'B', 'a', 'r', 'r', ';'], [0x290e]),
  (['l', 'E', ';'], [0x2266]),
  (['l', 'E', 'g', ';'], [0x2a8b]),
  (['l', 'H', 'a', 'r', ';'], [0x2962]),
  (['l', 'a', 'c', 'u', 't', 'e', ';'], [0x13a]),
  (['l', 'a', 'e', 'm', 'p', 't', 'y', 'v', ';'], [0x29b4]),
  (['l', 'a', 'g', 'r', 'a', 'n', ';'], [0x2112]),
  (['l', 'a', 'm', 'b', 'd', 'a', ';'], [0x3bb]),
  (['l', 'a', 'n', 'g', ';'], [0x27e8]),
  (['l', 'a', 'n', 'g', 'd', ';'], [0x2991]),
  (['l', 'a', 'n', 'g', 'l', 'e', ';'], [0x27e8]),
  (['l', 'a', 'p', ';'], [0x2a85]),
  (['l', 'a', 'q', 'u', 'o', ';'], [0xab]),
  (['l', 'a', 'r', 'r', ';'], [0x2190]),
  (['l', 'a', 'r', 'r', 'b', ';'], [0x21e4]),
  (['l', 'a', 'r', 'r', 'b', 'f', 's', ';'], [0x291f]),
  (['l', 'a', 'r', 'r', 'f', 's', ';'], [0x291d]),
  (['l', 'a', 'r', 'r', 'h', 'k', ';'], [0x21a9]),
  (['l', 'a', 'r', 'r', 'l', 'p', ';'], [0x21ab]),
  (['l', 'a', 'r', 'r', 'p', 'l', ';'], [0x2939]),
  (['l', 'a', 'r', 'r', 's', 'i', 'm', ';'], [0x2973]),
  (['l', 'a', 'r', 'r', 't', 'l', ';'], [0x21a2]),
  (['l', 'a', 't', ';'], [0x2aab]),
  (['l', 'a', 't', 'a', 'i', 'l', ';'], [0x2919]),
  (['l', 'a', 't', 'e', ';'], [0x2aad]),
  (['l', 'b', 'a', 'r', 'r', ';'], [0x290c]),
  (['l', 'b', 'b', 'r', 'k', ';'], [0x2772]),
  (['l', 'b', 'r', 'a', 'c', 'e', ';'], [0x7b]),
  (['l', 'b', 'r', 'a', 'c', 'k', ';'], [0x5b]),
  (['l', 'b', 'r', 'k', 'e', ';'], [0x298b]),
  (['l', 'b', 'r', 'k', 's', 'l', 'd', ';'], [0x298f]),
  (['l', 'b', 'r', 'k', 's', 'l', 'u', ';'], [0x298d]),
  (['l', 'c', 'a', 'r', 'o', 'n', ';'], [0x13e]),
  (['l', 'c', 'e', 'd', 'i', 'l', ';'], [0x13c]),
  (['l', 'c', 'e', 'i', 'l', ';'], [0x2308]),
  (['l', 'c', 'u', 'b', ';'], [0x7b]),
  (['l', 'c', 'y', ';'], [0x43b]),
  (['l', 'd', 'c', 'a', ';'], [0x2936]),
  (['l', 'd', 'q', 'u', 'o', ';'], [0x201c]),
  (['l', 'd', 'q', 'u', 'o', 'r', ';'], [0x201e]),
  (['l', 'd', 'r', 'd', 'h', 'a', 'r', ';'], [0x2967]),
  (['l', 'd', 'r', 'u', 's', 'h', 'a', 'r', ';'], [0x294b])]

/-- gosub_html5/src/tokenizer/replacement_tables.rs, entries 1201 to 1400 of `TOKEN_NAMED_CHARS`. -/
def named6 : List (List Char × List Nat) := [
  (['l', 'd', 's', 'h', ';'], [0x21b2]),
  (['l', 'e', ';'], [0x2264]),
  (['l', 'e', 'f', 't', 'a', 'r', 'r', 'o', 'w', ';'], [0x2190]),
  (['l', 'e', 'f', 't', 'a', 'r', 'r', 'o', 'w', 't', 'a', 'i', 'l', ';'], [0x21a2]),
  (['l', 'e', 'f', 't', 'h', 'a', 'r', 'p', 'o', 'o', 'n', 'd', 'o', 'w', 'n', ';'], [0x21bd]),
  (['l', 'e', 'f', 't', 'h', 'a', 'r', 'p', 'o', 'o', 'n', 'u', 'p', ';'], [0x21bc]),
  (['l', 'e', 'f', 't', 'l', 'e', 'f', 't', 'a', 'r', 'r', 'o', 'w', 's', ';'], [0x21c7]),
  (['l', 'e', 'f', 't', 'r', 'i', 'g', 'h', 't', 'a', 'r', 'r', 'o', 'w', ';'], [0x2194]),
  (['l', 'e', 'f', 't', 'r', 'i', 'g', 'h', 't', 'a', 'r', 'r', 'o', 'w', 's', ';'], [0x21c6]),
  (['l', 'e', 'f', 't', 'r', 'i', 'g', 'h', 't', 'h', 'a', 'r', 'p', 'o', 'o', 'n', 's', ';'], [0x21cb]),
  (['l', 'e', 'f', 't', 'r', 'i', 'g', 'h', 't', 's', 'q', 'u', 'i', 'g', 'a', 'r', 'r', 'o', 'w', ';'], [0x21ad]),
  (['l', 'e', 'f', 't', 't', 'h', 'r', 'e', 'e', 't', 'i', 'm', 'e', 's', ';'], [0x22cb]),
  (['l', 'e', 'g', ';'], [0x22da]),
  (['l', 'e', 'q', ';'], [0x2264]),
  (['l', 'e', 'q', 'q', ';'], [0x2266]),
  (['l', 'e', 'q', 's', 'l', 'a', 'n', 't', ';'], [0x2a7d]),
  (['l', 'e', 's', ';'], [0x2a7d]),
  (['l', 'e', 's', 'c', 'c', ';'], [0x2aa8]),
  (['l', 'e', 's', 'd', 'o', 't', ';'], [0x2a7f]),
  (['l', 'e', 's', 'd', 'o', 't', 'o', ';'], [0x2a81]),
  (['l', 'e', 's', 'd', 'o', 't', 'o', 'r', ';'], [0x2a83]),
  (['l', 'e', 's', 'g', 'e', 's', ';'], [0x2a93]),
  (['l', 'e', 's', 's', 'a', 'p', 'p', 'r', 'o', 'x', ';'], [0x2a85]),
  (['l', 'e', 's', 's', 'd', 'o', 't', ';'], [0x22d6]),
  (['l', 'e', 's', 's', 'e', 'q', 'g', 't', 'r', ';'], [0x22da]),
  (['l', 'e', 's', 's', 'e', 'q', 'q', 'g', 't', 'r', ';'], [0x2a8b]),
  (['l', 'e', 's', 's', 'g', 't', 'r', ';'], [0x2276]),
  (['l', 'e', 's', 's', 's', 'i', 'm', ';'], [0x2272]),
  (['l', 'f', 'i', 's', 'h', 't', ';'], [0x297c]),
  (['l', 'f', 'l', 'o', 'o', 'r', ';'], [0x230a]),
  (['l', 'f', 'r', ';'], [0x1d529]),
  (['l', 'g', ';'], [0x2276]),
  (['l', 'g', 'E', ';'], [0x2a91]),
  (['l', 'h', 'a', 'r', 'd', ';'], [0x21bd]),
  (['l', 'h', 'a', 'r', 'u', ';'], [0x21bc]),
  (['l', 'h', 'a', 'r', 'u', 'l', ';'], [0x296a]),
  (['l', 'h', 'b', 'l', 'k', ';'], [0x2584]),
  (['l', 'j', 'c', 'y', ';'], [0x459]),
  (['l', 'l', ';'], [0x226a]),
  (['l', 'l', 'a', 'r', 'r', ';'], [0x21c7]),
  (['l', 'l', 'c', 'o', 'r', 'n', 'e', 'r', ';'], [0x231e]),
  (['l', 'l', 'h', 'a', 'r', 'd', ';'], [0x296b]),
  (['l', 'l', 't', 'r', 'i', ';'], [0x25fa]),
  (['l', 'm', 'i', 'd', 'o', 't', ';'], [0x140]),
  (['l', 'm', 'o', 'u', 's', 't', ';'], [0x23b0]),
  (['l', 'm', 'o', 'u', 's', 't', 'a', 'c', 'h', 'e', ';'], [0x23b0]),
  (['l', 'n', 'E', ';'], [0x2268]),
  (['l', 'n', 'a', 'p', ';'], [0x2a89]),
  (['l', 'n', 'a', 'p', 'p', 'r', 'o', 'x', ';'], [0x2a89]),
  (['l', 'n', 'e', ';'], [0x2a87]),
  (['l', 'n', 'e', 'q', ';'], [0x2a87]),
  (['l', 'n', 'e', 'q', 'q', ';'], [0x2268]),
  (['l', 'n', 's', 'i', 'm', ';'], [0x22e6]),
  (['l', 'o', 'a', 'n', 'g', ';'], [0x27ec]),
  (['l', 'o', 'a', 'r', 'r', ';'], [0x21fd]),
  (['l', 'o', 'b', 'r', 'k', ';'], [0x27e6]),
  (['l', 'o', 'n', 'g', 'l', 'e', 'f', 't', 'a', 'r', 'r', 'o', 'w', ';'], [0x27f5]),
  (['l', 'o', 'n', 'g', 'l', 'e', 'f', 't', 'r', 'i', 'g', 'h', 't', 'a', 'r', 'r', 'o', 'w', ';'], [0x27f7]),
  (['l', 'o', 'n', 'g', 'm', 'a', 'p', 's', 't', 'o', ';'], [0x27fc]),
  (['l', 'o', 'n', 'g', 'r', 'i', 'g', 'h', 't', 'a', 'r', 'r', 'o', 'w', ';'], [0x27f6]),
  (['l', 'o', 'o', 'p', 'a', 'r', 'r', 'o', 'w', 'l', 'e', 'f', 't', ';'], [0x21ab]),
  (['l', 'o', 'o', 'p', 'a', 'r', 'r', 'o', 'w', 'r', 'i', 'g', 'h', 't', ';'], [0x21ac]),
  (['l', 'o', 'p', 'a', 'r', ';'], [0x2985]),
  (['l', 'o', 'p', 'f', ';'], [0x1d55d]),
  (['l', 'o', 'p', 'l', 'u', 's', ';'], [0x2a2d]),
  (['l', 'o', 't', 'i', 'm', 'e', 's', ';'], [0x2a34]),
  (['l', 'o', 'w', 'a', 's', 't', ';'], [0x2217]),
  (['l', 'o', 'w', 'b', 'a', 'r', ';'], [0x5f]),
  (['l', 'o', 'z', ';'], [0x25ca]),
  (['l', 'o', 'z', 'e', 'n', 'g', 'e', ';'], [0x25ca]),
  (['l', 'o', 'z', 'f', ';'], [0x29eb]),
  (['l', 'p', 'a', 'r', ';'], [0x28]),
  (['l', 'p', 'a', 'r', 'l', 't', ';'], [0x2993]),
  (['l', 'r', 'a', 'r', 'r', ';'], [0x21c6]),
  (['l', 'r', 'c', 'o', 'r', 'n', 'e', 'r', ';'], [0x231f]),
  (['l', 'r', 'h', 'a', 'r', ';'], [0x21cb]),
  (['l', 'r', 'h', 'a', 'r', 'd', ';'], [0x296d]),
  (['l', 'r', 'm', ';'], [0x200e]),
  (['l', 'r', 't', 'r', 'i', ';'], [0x22bf]),
  (['l', 's', 'a', 'q', 'u', 'o', ';'], [0x2039]),
  (['l', 's', 'c', 'r', ';'], [0x1d4c1]),
  (['l', 's', 'h', ';'], [0x21b0]),
  (['l', 's', 'i', 'm', ';'], [0x2272]),
  (['l', 's', 'i', 'm', 'e', ';'], [0x2a8d]),
  (['l', 's', 'i', 'm', 'g', ';'], [0x2a8f]),
  (['l', 's', 'q', 'b', ';'], [0x5b]),
  (['l', 's', 'q', 'u', 'o', ';'], [0x2018]),
  (['l', 's', 'q', 'u', 'o', 'r', ';'], [0x201a]),
  (['l', 's', 't', 'r', 'o', 'k', ';'], [0x142]),
  (['l', 't', ';'], [0x3c]),
  (['l', 't', 'c', 'c', ';'], [0x2aa6]),
  (['l', 't', 'c', 'i', 'r', ';'], [0x2a79]),
  (['l', 't', 'd', 'o', 't', ';'], [0x22d6]),
  (['l', 't', 'h', 'r', 'e', 'e', ';'], [0x22cb]),
  (['l', 't', 'i', 'm', 'e', 's', ';'], [0x22c9]),
  (['l', 't', 'l', 'a', 'r', 'r', ';'], [0x2976]),
  (['l', 't', 'q', 'u', 'e', 's', 't', ';'], [0x2a7b]),
  (['l', 't', 'r', 'P', 'a', 'r', ';'], [0x2996]),
  (['l', 't', 'r', 'i', ';'], [0x25c3]),
  (['l', 't', 'r', 'i', 'e', ';'], [0x22b4]),
  (['l', 't', 'r', 'i', 'f', ';'], [0x25c2]),
  (['l', 'u', 'r', 'd', 's', 'h', 'a', 'r', ';'], [0x294a]),
  (['l', 'u', 'r', 'u', 'h', 'a', 'r', ';'], [0x2966]),
  (['m', 'D', 'D', 'o', 't', ';'], [0x223a]),
  (['m', 'a', 'c', 'r', ';'], [0xaf]),
  (['m', 'a', 'l', 'e', ';'], [0x2642]),
  (['m', 'a', 'l', 't', ';'], [0x2720]),
  (['m', 'a', 'l', 't', 'e', 's', 'e', ';'], [0x2720]),
  (['m', 'a', 'p', ';'], [0x21a6]),
  (['m', 'a', 'p', 's', 't', 'o', ';'], [0x21a6]),
  (['m', 'a', 'p', 's', 't', 'o', 'd', 'o', 'w', 'n', ';'], [0x21a7]),
  (['m', 'a', 'p', 's', 't', 'o', 'l', 'e', 'f', 't', ';'], [0x21a4]),
  (['m', 'a', 'p', 's', 't', 'o', 'u', 'p', ';'], [0x21a5]),
  (['m', 'a', 'r', 'k', 'e', 'r', ';'], [0x25ae]),
  (['m', 'c', 'o', 'm', 'm', 'a', ';'], [0x2a29]),
  (['m', 'c', 'y', ';'], [0x43c]),
  (['m', 'd', 'a', 's', 'h', ';'], [0x2014]),
  (['m', 'e', 'a', 's', 'u', 'r', 'e', 'd', 'a', 'n', 'g', 'l', 'e', ';'], [0x2221]),
  (['m', 'f', 'r', ';'], [0x1d52a]),
  (['m', 'h', 'o', ';'], [0x2127]),
  (['m', 'i', 'c', 'r', 'o', ';'], [0xb5]),
  (['m', 'i', 'd', ';'], [0x2223]),
  (['m', 'i', 'd', 'a', 's', 't', ';'], [0x2a]),
  (['m', 'i', 'd', 'c', 'i', 'r', ';'], [0x2af0]),
  (['m', 'i', 'd', 'd', 'o', 't', ';'], [0xb7]),
  (['m', 'i', 'n', 'u', 's', ';'], [0x2212]),
  (['m', 'i', 'n', 'u', 's', 'b', ';'], [0x229f]),
  (['m', 'i', 'n', 'u', 's', 'd', ';'], [0x2238]),
  (['m', 'i', 'n', 'u', 's', 'd', 'u', ';'], [0x2a2a]),
  (['m', 'l', 'c', 'p', ';'], [0x2adb]),
  (['m', 'l', 'd', 'r', ';'], [0x2026]),
  (['m', 'n', 'p', 'l', 'u', 's', ';'], [0x2213]),
  (['m', 'o', 'd', 'e', 'l', 's', ';'], [0x22a7]),
  (['m', 'o', 'p', 'f', ';'], [0x1d55e]),
  (['m', 'p', ';'], [0x2213]),
  (['m', 's', 'c', 'r', ';'], [0x1d4c2]),
  (['m', 's', 't', 'p', 'o', 's', ';'], [0x223e]),
  (['m', 'u', ';'], [0x3bc]),
  (['m', 'u', 'l', 't', 'i', 'm', 'a', 'p', ';'], [0x22b8]),
  (['m', 'u', 'm', 'a', 'p', ';'], [0x22b8]),
  (['n', 'L', 'e', 'f', 't', 'a', 'r', 'r', 'o', 'w', ';'], [0x21cd]),
  (['n', 'L', 'e', 'f', 't', 'r', 'i', 'g', 'h', 't', 'a', 'r', 'r', 'o', 'w', ';'], [0x21ce]),
  (['n', 'R', 'i', 'g', 'h', 't', 'a', 'r', 'r', 'o', 'w', ';'], [0x21cf]),
  (['n', 'V', 'D', 'a', 's', 'h', ';'], [0x22af]),
  (['n', 'V', 'd', 'a', 's', 'h', ';'], [0x22ae]),
  (['n', 'a', 'b', 'l', 'a', ';'], [0x2207]),
  (['n', 'a', 'c', 'u', 't', 'e', ';'], [0x144]),
  (['n', 'a', 'p', ';'], [0x2249]),
  (['n', 'a', 'p', 'o', 's', ';'], [0x149]),
  (['n', 'a', 'p', 'p', 'r', 'o', 'x', ';'], [0x2249]),
  (['n', 'a', 't', 'u', 'r', ';'], [0x266e]),
  (['n', 'a', 't', 'u', 'r', 'a', 'l', ';'], [0x266e]),
  (['n', 'a', 't', 'u', 'r', 'a', 'l', 's', ';'], [0x2115]),
  (['n', 'b', 's', 'p', ';'], [0xa0]),
  (['n', 'c', 'a', 'p', ';'], [0x2a43]),
  (['n', 'c', 'a', 'r', 'o', 'n', ';'], [0x148]),
  (['n', 'c', 'e', 'd', 'i', 'l', ';'], [0x146]),
  (['n', 'c', 'o', 'n', 'g', ';'], [0x2247]),
  (['n', 'c', 'u', 'p', ';'], [0x2a42]),
  (['n', 'c', 'y', ';'], [0x43d]),
  (['n', 'd', 'a', 's', 'h', ';'], [0x2013]),
  (['n', 'e', ';'], [0x2260]),
  (['n', 'e', 'A', 'r', 'r', ';'], [0x21d7]),
  (['n', 'e', 'a', 'r', 'h', 'k', ';'], [0x2924]),
  (['n', 'e', 'a', 'r', 'r', ';'], [0x2197]),
  (['n', 'e', 'a', 'r', 'r', 'o', 'w', ';'], [0x2197]),
  (['n', 'e', 'q', 'u', 'i', 'v', ';'], [0x2262]),
  (['n', 'e', 's', 'e', 'a', 'r', ';'], [0x2928]),
  (['n', 'e', 'x', 'i', 's', 't', ';'], [0x2204]),
  (['n', 'e', 'x', 'i', 's', 't', 's', ';'], [0x2204]),
  (['n', 'f', 'r', ';'], [0x1d52b]),
  (['n', 'g', 'e', ';'], [0x2271]),
  (['n', 'g', 'e', 'q', ';'], [0x2271]),
  (['n', 'g', 's', 'i', 'm', ';'], [0x2275]),
  (['n', 'g', 't', ';'], [0x226f]),
  (['n', 'g', 't', 'r', ';'], [0x226f]),
  (['n', 'h', 'A', 'r', 'r', ';'], [0x21ce]),
  (['n', 'h', 'a', 'r', 'r', ';'], [0x21ae]),
  (['n', 'h', 'p', 'a', 'r', ';'], [0x2af2]),
  (['n', 'i', ';'], [0x220b]),
  (['n', 'i', 's', ';'], [0x22fc]),
  (['n', 'i', 's', 'd', ';'], [0x22fa]),
  (['n', 'i', 'v', ';'], [0x220b]),
  (['n', 'j', 'c', 'y', ';'], [0x45a]),
  (['n', 'l', 'A', 'r', 'r', ';'], [0x21cd]),
  (['n', 'l', 'a', 'r', 'r', ';'], [0x219a]),
  (['n', 'l', 'd', 'r', ';'], [0x2025]),
  (['n', 'l', 'e', ';'], [0x2270]),
  (['n', 'l', 'e', 'f', 't', 'a', 'r', 'r', 'o', 'w', ';'], [0x219a]),
  (['n', 'l', 'e', 'f', 't', 'r', 'i', 'g', 'h', 't', 'a', 'r', 'r', 'o', 'w', ';'], [0x21ae]),
  (['n', 'l', 'e', 'q', ';'], [0x2270]),
  (['n', 'l', 'e', 's', 's', ';'], [0x226e]),
  (['n', 'l', 's', 'i', 'm', ';'], [0x2274]),
  (['n', 'l', 't', ';'], [0x226e]),
  (['n', 'l', 't', 'r', 'i', ';'], [0x22ea]),
  (['n', 'l', 't', 'r', 'i', 'e', ';'], [0x22ec]),
  (['n', 'm', 'i', 'd', ';'], [0x2224]),
  (['n', 'o', 'p', 'f', ';'], [0x1d55f]),
  (['n', 'o', 't', ';'], [0xac]),
  (['n', 'o', 't', 'i', 'n', ';'], [0x2209])]

/-- gosub_html5/src/tokenizer/replacement_tables.rs, entries 1401 to 1600 of `TOKEN_NAMED_CHARS`. -/
def named7 : List (List Char × List Nat) := [
  (['n', 'o', 't', 'i', 'n', 'v', 'a', ';'], [0x2209]),
  (['n', 'o', 't', 'i', 'n', 'v', 'b', ';'], [0x22f7]),
  (['n', 'o', 't', 'i', 'n', 'v', 'c', ';'], [0x22f6]),
  (['n', 'o', 't', 'n', 'i', ';'], [0x220c]),
  (['n', 'o', 't', 'n', 'i', 'v', 'a', ';'], [0x220c]),
  (['n', 'o', 't', 'n', 'i', 'v', 'b', ';'], [0x22fe]),
  (['n', 'o', 't', 'n', 'i', 'v', 'c', ';'], [0x22fd]),
  (['n', 'p', 'a', 'r', ';'], [0x2226]),
  (['n', 'p', 'a', 'r', 'a', 'l', 'l', 'e', 'l', ';'], [0x2226]),
  (['n', 'p', 'o', 'l', 'i', 'n', 't', ';'], [0x2a14]),
  (['n', 'p', 'r', ';'], [0x2280]),
  (['n', 'p', 'r', 'c', 'u', 'e', ';'], [0x22e0]),
  (['n', 'p', 'r', 'e', 'c', ';'], [0x2280]),
  (['n', 'r', 'A', 'r', 'r', ';'], [0x21cf]),
  (['n', 'r', 'a', 'r', 'r', ';'], [0x219b]),
  (['n', 'r', 'i', 'g', 'h', 't', 'a', 'r', 'r', 'o', 'w', ';'], [0x219b]),
  (['n', 'r', 't', 'r', 'i', ';'], [0x22eb]),
  (['n', 'r', 't', 'r', 'i', 'e', ';'], [0x22ed]),
  (['n', 's', 'c', ';'], [0x2281]),
  (['n', 's', 'c', 'c', 'u', 'e', ';'], [0x22e1]),
  (['n', 's', 'c', 'r', ';'], [0x1d4c3]),
  (['n', 's', 'h', 'o', 'r', 't', 'm', 'i', 'd', ';'], [0x2224]),
  (['n', 's', 'h', 'o', 'r', 't', 'p', 'a', 'r', 'a', 'l', 'l', 'e', 'l', ';'], [0x2226]),
  (['n', 's', 'i', 'm', ';'], [0x2241]),
  (['n', 's', 'i', 'm', 'e', ';'], [0x2244]),
  (['n', 's', 'i', 'm', 'e', 'q', ';'], [0x2244]),
  (['n', 's', 'm', 'i', 'd', ';'], [0x2224]),
  (['n', 's', 'p', 'a', 'r', ';'], [0x2226]),
  (['n', 's', 'q', 's', 'u', 'b', 'e', ';'], [0x22e2]),
  (['n', 's', 'q', 's', 'u', 'p', 'e', ';'], [0x22e3]),
  (['n', 's', 'u', 'b', ';'], [0x2284]),
  (['n', 's', 'u', 'b', 'e', ';'], [0x2288]),
  (['n', 's', 'u', 'b', 's', 'e', 't', 'e', 'q', ';'], [0x2288]),
  (['n', 's', 'u', 'c', 'c', ';'], [0x2281]),
  (['n', 's', 'u', 'p', ';'], [0x2285]),
  (['n', 's', 'u', 'p', 'e', ';'], [0x2289]),
  (['n', 's', 'u', 'p', 's', 'e', 't', 'e', 'q', ';'], [0x2289]),
  (['n', 't', 'g', 'l', ';'], [0x2279]),
  (['n', 't', 'i', 'l', 'd', 'e', ';'], [0xf1]),
  (['n', 't', 'l', 'g', ';'], [0x2278]),
  (['n', 't', 'r', 'i', 'a', 'n', 'g', 'l', 'e', 'l', 'e', 'f', 't', ';'], [0x22ea]),
  (['n', 't', 'r', 'i', 'a', 'n', 'g', 'l', 'e', 'l', 'e', 'f', 't', 'e', 'q', ';'], [0x22ec]),
  (['n', 't', 'r', 'i', 'a', 'n', 'g', 'l', 'e', 'r', 'i', 'g', 'h', 't', ';'], [0x22eb]),
  (['n', 't', 'r', 'i', 'a', 'n', 'g', 'l', 'e', 'r', 'i', 'g', 'h', 't', 'e', 'q', ';'], [0x22ed]),
  (['n', 'u', ';'], [0x3bd]),
  (['n', 'u', 'm', ';'], [0x23]),
  (['n', 'u', 'm', 'e', 'r', 'o', ';'], [0x2116]),
  (['n', 'u', 'm', 's', 'p', ';'], [0x2007]),
  (['n', 'v', 'D', 'a', 's', 'h', ';'], [0x22ad]),
  (['n', 'v', 'H', 'a', 'r', 'r', ';'], [0x2904]),
  (['n', 'v', 'd', 'a', 's', 'h', ';'], [0x22ac]),
  (['n', 'v', 'i', 'n', 'f', 'i', 'n', ';'], [0x29de]),
  (['n', 'v', 'l', 'A', 'r', 'r', ';'], [0x2902]),
  (['n', 'v', 'r', 'A', 'r', 'r', ';'], [0x2903]),
  (['n', 'w', 'A', 'r', 'r', ';'], [0x21d6]),
  (['n', 'w', 'a', 'r', 'h', 'k', ';'], [0x2923]),
  (['n', 'w', 'a', 'r', 'r', ';'], [0x2196]),
  (['n', 'w', 'a', 'r', 'r', 'o', 'w', ';'], [0x2196]),
  (['n', 'w', 'n', 'e', 'a', 'r', ';'], [0x2927]),
  (['o', 'S', ';'], [0x24c8]),
  (['o', 'a', 'c', 'u', 't', 'e', ';'], [0xf3]),
  (['o', 'a', 's', 't', ';'], [0x229b]),
  (['o', 'c', 'i', 'r', ';'], [0x229a]),
  (['o', 'c', 'i', 'r', 'c', ';'], [0xf4]),
  (['o', 'c', 'y', ';'], [0x43e]),
  (['o', 'd', 'a', 's', 'h', ';'], [0x229d]),
  (['o', 'd', 'b', 'l', 'a', 'c', ';'], [0x151]),
  (['o', 'd', 'i', 'v', ';'], [0x2a38]),
  (['o', 'd', 'o', 't', ';'], [0x2299]),
  (['o', 'd', 's', 'o', 'l', 'd', ';'], [0x29bc]),
  (['o', 'e', 'l', 'i', 'g', ';'], [0x153]),
  (['o', 'f', 'c', 'i', 'r', ';'], [0x29bf]),
  (['o', 'f', 'r', ';'], [0x1d52c]),
  (['o', 'g', 'o', 'n', ';'], [0x2db]),
  (['o', 'g', 'r', 'a', 'v', 'e', ';'], [0xf2]),
  (['o', 'g', 't', ';'], [0x29c1]),
  (['o', 'h', 'b', 'a', 'r', ';'], [0x29b5]),
  (['o', 'h', 'm', ';'], [0x3a9]),
  (['o', 'i', 'n', 't', ';'], [0x222e]),
  (['o', 'l', 'a', 'r', 'r', ';'], [0x21ba]),
  (['o', 'l', 'c', 'i', 'r', ';'], [0x29be]),
  (['o', 'l', 'c', 'r', 'o', 's', 's', ';'], [0x29bb]),
  (['o', 'l', 'i', 'n', 'e', ';'], [0x203e]),
  (['o', 'l', 't', ';'], [0x29c0]),
  (['o', 'm', 'a', 'c', 'r', ';'], [0x14d]),
  (['o', 'm', 'e', 'g', 'a', ';'], [0x3c9]),
  (['o', 'm', 'i', 'c', 'r', 'o', 'n', ';'], [0x3bf]),
  (['o', 'm', 'i', 'd', ';'], [0x29b6]),
  (['o', 'm', 'i', 'n', 'u', 's', ';'], [0x2296]),
  (['o', 'o', 'p', 'f', ';'], [0x1d560]),
  (['o', 'p', 'a', 'r', ';'], [0x29b7]),
  (['o', 'p', 'e', 'r', 'p', ';'], [0x29b9]),
  (['o', 'p', 'l', 'u', 's', ';'], [0x2295]),
  (['o', 'r', ';'], [0x2228]),
  (['o', 'r', 'a', 'r', 'r', ';'], [0x21bb]),
  (['o', 'r', 'd', ';'], [0x2a5d]),
  (['o', 'r', 'd', 'e', 'r', ';'], [0x2134]),
  (['o', 'r', 'd', 'e', 'r', 'o', 'f', ';'], [0x2134]),
  (['o', 'r', 'd', 'f', ';'], [0xaa]),
  (['o', 'r', 'd', 'm', ';'], [0xba]),
  (['o', 'r', 'i', 'g', 'o', 'f', ';'], [0x22b6]),
  (['o', 'r', 'o', 'r', ';'], [0x2a56]),
  (['o', 'r', 's', 'l', 'o', 'p', 'e', ';'], [0x2a57]),
  (['o', 'r', 'v', ';'], [0x2a5b]),
  (['o', 's', 'c', 'r', ';'], [0x2134]),
  (['o', 's', 'l', 'a', 's', 'h', ';'], [0xf8]),
  (['o', 's', 'o', 'l', ';'], [0x2298]),
  (['o', 't', 'i', 'l', 'd', 'e', ';'], [0xf5]),
  (['o', 't', 'i', 'm', 'e', 's', ';'], [0x2297]),
  (['o', 't', 'i', 'm', 'e', 's', 'a', 's', ';'], [0x2a36]),
  (['o', 'u', 'm', 'l', ';'], [0xf6]),
  (['o', 'v', 'b', 'a', 'r', ';'], [0x233d]),
  (['p', 'a', 'r', ';'], [0x2225]),
  (['p', 'a', 'r', 'a', ';'], [0xb6]),
  (['p', 'a', 'r', 'a', 'l', 'l', 'e', 'l', ';'], [0x2225]),
  (['p', 'a', 'r', 's', 'i', 'm', ';'], [0x2af3]),
  (['p', 'a', 'r', 's', 'l', ';'], [0x2afd]),
  (['p', 'a', 'r', 't', ';'], [0x2202]),
  (['p', 'c', 'y', ';'], [0x43f]),
  (['p', 'e', 'r', 'c', 'n', 't', ';'], [0x25]),
  (['p', 'e', 'r', 'i', 'o', 'd', ';'], [0x2e]),
  (['p', 'e', 'r', 'm', 'i', 'l', ';'], [0x2030]),
  (['p', 'e', 'r', 'p', ';'], [0x22a5]),
  (['p', 'e', 'r', 't', 'e', 'n', 'k', ';'], [0x2031]),
  (['p', 'f', 'r', ';'], [0x1d52d]),
  (['p', 'h', 'i', ';'], [0x3c6]),
  (['p', 'h', 'i', 'v', ';'], [0x3d5]),
  (['p', 'h', 'm', 'm', 'a', 't', ';'], [0x2133]),
  (['p', 'h', 'o', 'n', 'e', ';'], [0x260e]),
  (['p', 'i', ';'], [0x3c0]),
  (['p', 'i', 't', 'c', 'h', 'f', 'o', 'r', 'k', ';'], [0x22d4]),
  (['p', 'i', 'v', ';'], [0x3d6]),
  (['p', 'l', 'a', 'n', 'c', 'k', ';'], [0x210f]),
  (['p', 'l', 'a', 'n', 'c', 'k', 'h', ';'], [0x210e]),
  (['p', 'l', 'a', 'n', 'k', 'v', ';'], [0x210f]),
  (['p', 'l', 'u', 's', ';'], [0x2b]),
  (['p', 'l', 'u', 's', 'a', 'c', 'i', 'r', ';'], [0x2a23]),
  (['p', 'l', 'u', 's', 'b', ';'], [0x229e]),
  (['p', 'l', 'u', 's', 'c', 'i', 'r', ';'], [0x2a22]),
  (['p', 'l', 'u', 's', 'd', 'o', ';'], [0x2214]),
  (['p', 'l', 'u', 's', 'd', 'u', ';'], [0x2a25]),
  (['p', 'l', 'u', 's', 'e', ';'], [0x2a72]),
  (['p', 'l', 'u', 's', 'm', 'n', ';'], [0xb1]),
  (['p', 'l', 'u', 's', 's', 'i', 'm', ';'], [0x2a26]),
  (['p', 'l', 'u', 's', 't', 'w', 'o', ';'], [0x2a27]),
  (['p', 'm', ';'], [0xb1]),
  (['p', 'o', 'i', 'n', 't', 'i', 'n', 't', ';'], [0x2a15]),
  (['p', 'o', 'p', 'f', ';'], [0x1d561]),
  (['p', 'o', 'u', 'n', 'd', ';'], [0xa3]),
  (['p', 'r', ';'], [0x227a]),
  (['p', 'r', 'E', ';'], [0x2ab3]),
  (['p', 'r', 'a', 'p', ';'], [0x2ab7]),
  (['p', 'r', 'c', 'u', 'e', ';'], [0x227c]),
  (['p', 'r', 'e', ';'], [0x2aaf]),
  (['p', 'r', 'e', 'c', ';'], [0x227a]),
  (['p', 'r', 'e', 'c', 'a', 'p', 'p', 'r', 'o', 'x', ';'], [0x2ab7]),
  (['p', 'r', 'e', 'c', 'c', 'u', 'r', 'l', 'y', 'e', 'q', ';'], [0x227c]),
  (['p', 'r', 'e', 'c', 'e', 'q', ';'], [0x2aaf]),
  (['p', 'r', 'e', 'c', 'n', 'a', 'p', 'p', 'r', 'o', 'x', ';'], [0x2ab9]),
  (['p', 'r', 'e', 'c', 'n', 'e', 'q', 'q', ';'], [0x2ab5]),
  (['p', 'r', 'e', 'c', 'n', 's', 'i', 'm', ';'], [0x22e8]),
  (['p', 'r', 'e', 'c', 's', 'i', 'm', ';'], [0x227e]),
  (['p', 'r', 'i', 'm', 'e', ';'], [0x2032]),
  (['p', 'r', 'i', 'm', 'e', 's', ';'], [0x2119]),
  (['p', 'r', 'n', 'E', ';'], [0x2ab5]),
  (['p', 'r', 'n', 'a', 'p', ';'], [0x2ab9]),
  (['p', 'r', 'n', 's', 'i', 'm', ';'], [0x22e8]),
  (['p', 'r', 'o', 'd', ';'], [0x220f]),
  (['p', 'r', 'o', 'f', 'a', 'l', 'a', 'r', ';'], [0x232e]),
  (['p', 'r', 'o', 'f', 'l', 'i', 'n', 'e', ';'], [0x2312]),
  (['p', 'r', 'o', 'f', 's', 'u', 'r', 'f', ';'], [0x2313]),
  (['p', 'r', 'o', 'p', ';'], [0x221d]),
  (['p', 'r', 'o', 'p', 't', 'o', ';'], [0x221d]),
  (['p', 'r', 's', 'i', 'm', ';'], [0x227e]),
  (['p', 'r', 'u', 'r', 'e', 'l', ';'], [0x22b0]),
  (['p', 's', 'c', 'r', ';'], [0x1d4c5]),
  (['p', 's', 'i', ';'], [0x3c8]),
  (['p', 'u', 'n', 'c', 's', 'p', ';'], [0x2008]),
  (['q', 'f', 'r', ';'], [0x1d52e]),
  (['q', 'i', 'n', 't', ';'], [0x2a0c]),
  (['q', 'o', 'p', 'f', ';'], [0x1d562]),
  (['q', 'p', 'r', 'i', 'm', 'e', ';'], [0x2057]),
  (['q', 's', 'c', 'r', ';'], [0x1d4c6]),
  (['q', 'u', 'a', 't', 'e', 'r', 'n', 'i', 'o', 'n', 's', ';'], [0x210d]),
  (['q', 'u', 'a', 't', 'i', 'n', 't', ';'], [0x2a16]),
  (['q', 'u', 'e', 's', 't', ';'], [0x3f]),
  (['q', 'u', 'e', 's', 't', 'e', 'q', ';'], [0x225f]),
  (['q', 'u', 'o', 't', ';'], [0x22]),
  (['r', 'A', 'a', 'r', 'r', ';'], [0x21db]),
  (['r', 'A', 'r', 'r', ';'], [0x21d2]),
  (['r', 'A', 't', 'a', 'i', 'l', ';'], [0x291c]),
  (['r', 'B', 'a', 'r', 'r', ';'], [0x290f]),
  (['r', 'H', 'a', 'r', ';'], [0x2964]),
  (['r', 'a', 'c', 'u', 't', 'e', ';'], [0x155]),
  (['r', 'a', 'd', 'i', 'c', ';'], [0x221a]),
  (['r', 'a', 'e', 'm', 'p', 't', 'y', 'v', ';'], [0x29b3]),
  (['r', 'a', 'n', 'g', ';'], [0x27e9]),
  (['r', 'a', 'n', 'g', 'd', ';'], [0x2992]),
  (['r', 'a', 'n', 'g', 'e', ';'], [0x29a5]),
  (['r', 'a', 'n', 'g', 'l', 'e', ';'], [0x27e9])]

/-- gosub_html5/src/tokenizer/replacement_tables.rs, entries 1601 to 1800 of `TOKEN_NAMED_CHARS`. -/
def named8 : List (List Char × List Nat) := [
  (['r', 'a', 'q', 'u', 'o', ';'], [0xbb]),
  (['r', 'a', 'r', 'r', ';'], [0x2192]),
  (['r', 'a', 'r', 'r', 'a', 'p', ';'], [0x2975]),
  (['r', 'a', 'r', 'r', 'b', ';'], [0x21e5]),
  (['r', 'a', 'r', 'r', 'b', 'f', 's', ';'], [0x2920]),
  (['r', 'a', 'r', 'r', 'c', ';'], [0x2933]),
  (['r', 'a', 'r', 'r', 'f', 's', ';'], [0x291e]),
  (['r', 'a', 'r', 'r', 'h', 'k', ';'], [0x21aa]),
  (['r', 'a', 'r', 'r', 'l', 'p', ';'], [0x21ac]),
  (['r', 'a', 'r', 'r', 'p', 'l', ';'], [0x2945]),
  (['r', 'a', 'r', 'r', 's', 'i', 'm', ';'], [0x2974]),
  (['r', 'a', 'r', 'r', 't', 'l', ';'], [0x21a3]),
  (['r', 'a', 'r', 'r', 'w', ';'], [0x219d]),
  (['r', 'a', 't', 'a', 'i', 'l', ';'], [0x291a]),
  (['r', 'a', 't', 'i', 'o', ';'], [0x2236]),
  (['r', 'a', 't', 'i', 'o', 'n', 'a', 'l', 's', ';'], [0x211a]),
  (['r', 'b', 'a', 'r', 'r', ';'], [0x290d]),
  (['r', 'b', 'b', 'r', 'k', ';'], [0x2773]),
  (['r', 'b', 'r', 'a', 'c', 'e', ';'], [0x7d]),
  (['r', 'b', 'r', 'a', 'c', 'k', ';'], [0x5d]),
  (['r', 'b', 'r', 'k', 'e', ';'], [0x298c]),
  (['r', 'b', 'r', 'k', 's', 'l', 'd', ';'], [0x298e]),
  (['r', 'b', 'r', 'k', 's', 'l', 'u', ';'], [0x2990]),
  (['r', 'c', 'a', 'r', 'o', 'n', ';'], [0x159]),
  (['r', 'c', 'e', 'd', 'i', 'l', ';'], [0x157]),
  (['r', 'c', 'e', 'i', 'l', ';'], [0x2309]),
  (['r', 'c', 'u', 'b', ';'], [0x7d]),
  (['r', 'c', 'y', ';'], [0x440]),
  (['r', 'd', 'c', 'a', ';'], [0x2937]),
  (['r', 'd', 'l', 'd', 'h', 'a', 'r', ';'], [0x2969]),
  (['r', 'd', 'q', 'u', 'o', ';'], [0x201d]),
  (['r', 'd', 'q', 'u', 'o', 'r', ';'], [0x201d]),
  (['r', 'd', 's', 'h', ';'], [0x21b3]),
  (['r', 'e', 'a', 'l', ';'], [0x211c]),
  (['r', 'e', 'a', 'l', 'i', 'n', 'e', ';'], [0x211b]),
  (['r', 'e', 'a', 'l', 'p', 'a', 'r', 't', ';'], [0x211c]),
  (['r', 'e', 'a', 'l', 's', ';'], [0x211d]),
  (['r', 'e', 'c', 't', ';'], [0x25ad]),
  (['r', 'e', 'g', ';'], [0xae]),
  (['r', 'f', 'i', 's', 'h', 't', ';'], [0x297d]),
  (['r', 'f', 'l', 'o', 'o', 'r', ';'], [0x230b]),
  (['r', 'f', 'r', ';'], [0x1d52f]),
  (['r', 'h', 'a', 'r', 'd', ';'], [0x21c1]),
  (['r', 'h', 'a', 'r', 'u', ';'], [0x21c0]),
  (['r', 'h', 'a', 'r', 'u', 'l', ';'], [0x296c]),
  (['r', 'h', 'o', ';'], [0x3c1]),
  (['r', 'h', 'o', 'v', ';'], [0x3f1]),
  (['r', 'i', 'g', 'h', 't', 'a', 'r', 'r', 'o', 'w', ';'], [0x2192]),
  (['r', 'i', 'g', 'h', 't', 'a', 'r', 'r', 'o', 'w', 't', 'a', 'i', 'l', ';'], [0x21a3]),
  (['r', 'i', 'g', 'h', 't', 'h', 'a', 'r', 'p', 'o', 'o', 'n', 'd', 'o', 'w', 'n', ';'], [0x21c1]),
  (['r', 'i', 'g', 'h', 't', 'h', 'a', 'r', 'p', 'o', 'o', 'n', 'u', 'p', ';'], [0x21c0]),
  (['r', 'i', 'g', 'h', 't', 'l', 'e', 'f', 't', 'a', 'r', 'r', 'o', 'w', 's', ';'], [0x21c4]),
  (['r', 'i', 'g', 'h', 't', 'l', 'e', 'f', 't', 'h', 'a', 'r', 'p', 'o', 'o', 'n', 's', ';'], [0x21cc]),
  (['r', 'i', 'g', 'h', 't', 'r', 'i', 'g', 'h', 't', 'a', 'r', 'r', 'o', 'w', 's', ';'], [0x21c9]),
  (['r', 'i', 'g', 'h', 't', 's', 'q', 'u', 'i', 'g', 'a', 'r', 'r', 'o', 'w', ';'], [0x219d]),
  (['r', 'i', 'g', 'h', 't', 't', 'h', 'r', 'e', 'e', 't', 'i', 'm', 'e', 's', ';'], [0x22cc]),
  (['r', 'i', 'n', 'g', ';'], [0x2da]),
  (['r', 'i', 's', 'i', 'n', 'g', 'd', 'o', 't', 's', 'e', 'q', ';'], [0x2253]),
  (['r', 'l', 'a', 'r', 'r', ';'], [0x21c4]),
  (['r', 'l', 'h', 'a', 'r', ';'], [0x21cc]),
  (['r', 'l', 'm', ';'], [0x200f]),
  (['r', 'm', 'o', 'u', 's', 't', ';'], [0x23b1]),
  (['r', 'm', 'o', 'u', 's', 't', 'a', 'c', 'h', 'e', ';'], [0x23b1]),
  (['r', 'n', 'm', 'i', 'd', ';'], [0x2aee]),
  (['r', 'o', 'a', 'n', 'g', ';'], [0x27ed]),
  (['r', 'o', 'a', 'r', 'r', ';'], [0x21fe]),
  (['r', 'o', 'b', 'r', 'k', ';'], [0x27e7]),
  (['r', 'o', 'p', 'a', 'r', ';'], [0x2986]),
  (['r', 'o', 'p', 'f', ';'], [0x1d563]),
  (['r', 'o', 'p', 'l', 'u', 's', ';'], [0x2a2e]),
  (['r', 'o', 't', 'i', 'm', 'e', 's', ';'], [0x2a35]),
  (['r', 'p', 'a', 'r', ';'], [0x29]),
  (['r', 'p', 'a', 'r', 'g', 't', ';'], [0x2994]),
  (['r', 'p', 'p', 'o', 'l', 'i', 'n', 't', ';'], [0x2a12]),
  (['r', 'r', 'a', 'r', 'r', ';'], [0x21c9]),
  (['r', 's', 'a', 'q', 'u', 'o', ';'], [0x203a]),
  (['r', 's', 'c', 'r', ';'], [0x1d4c7]),
  (['r', 's', 'h', ';'], [0x21b1]),
  (['r', 's', 'q', 'b', ';'], [0x5d]),
  (['r', 's', 'q', 'u', 'o', ';'], [0x2019]),
  (['r', 's', 'q', 'u', 'o', 'r', ';'], [0x2019]),
  (['r', 't', 'h', 'r', 'e', 'e', ';'], [0x22cc]),
  (['r', 't', 'i', 'm', 'e', 's', ';'], [0x22ca]),
  (['r', 't', 'r', 'i', ';'], [0x25b9]),
  (['r', 't', 'r', 'i', 'e', ';'], [0x22b5]),
  (['r', 't', 'r', 'i', 'f', ';'], [0x25b8]),
  (['r', 't', 'r', 'i', 'l', 't', 'r', 'i', ';'], [0x29ce]),
  (['r', 'u', 'l', 'u', 'h', 'a', 'r', ';'], [0x2968]),
  (['r', 'x', ';'], [0x211e]),
  (['s', 'a', 'c', 'u', 't', 'e', ';'], [0x15b]),
  (['s', 'b', 'q', 'u', 'o', ';'], [0x201a]),
  (['s', 'c', ';'], [0x227b]),
  (['s', 'c', 'E', ';'], [0x2ab4]),
  (['s', 'c', 'a', 'p', ';'], [0x2ab8]),
  (['s', 'c', 'a', 'r', 'o', 'n', ';'], [0x161]),
  (['s', 'c', 'c', 'u', 'e', ';'], [0x227d]),
  (['s', 'c', 'e', ';'], [0x2ab0]),
  (['s', 'c', 'e', 'd', 'i', 'l', ';'], [0x15f]),
  (['s', 'c', 'i', 'r', 'c', ';'], [0x15d]),
  (['s', 'c', 'n', 'E', ';'], [0x2ab6]),
  (['s', 'c', 'n', 'a', 'p', ';'], [0x2aba]),
  (['s', 'c', 'n', 's', 'i', 'm', ';'], [0x22e9]),
  (['s', 'c', 'p', 'o', 'l', 'i', 'n', 't', ';'], [0x2a13]),
  (['s', 'c', 's', 'i', 'm', ';'], [0x227f]),
  (['s', 'c', 'y', ';'], [0x441]),
  (['s', 'd', 'o', 't', ';'], [0x22c5]),
  (['s', 'd', 'o', 't', 'b', ';'], [0x22a1]),
  (['s', 'd', 'o', 't', 'e', ';'], [0x2a66]),
  (['s', 'e', 'A', 'r', 'r', ';'], [0x21d8]),
  (['s', 'e', 'a', 'r', 'h', 'k', ';'], [0x2925]),
  (['s', 'e', 'a', 'r', 'r', ';'], [0x2198]),
  (['s', 'e', 'a', 'r', 'r', 'o', 'w', ';'], [0x2198]),
  (['s', 'e', 'c', 't', ';'], [0xa7]),
  (['s', 'e', 'm', 'i', ';'], [0x3b]),
  (['s', 'e', 's', 'w', 'a', 'r', ';'], [0x2929]),
  (['s', 'e', 't', 'm', 'i', 'n', 'u', 's', ';'], [0x2216]),
  (['s', 'e', 't', 'm', 'n', ';'], [0x2216]),
  (['s', 'e', 'x', 't', ';'], [0x2736]),
  (['s', 'f', 'r', ';'], [0x1d530]),
  (['s', 'f', 'r', 'o', 'w', 'n', ';'], [0x2322]),
  (['s', 'h', 'a', 'r', 'p', ';'], [0x266f]),
  (['s', 'h', 'c', 'h', 'c', 'y', ';'], [0x449]),
  (['s', 'h', 'c', 'y', ';'], [0x448]),
  (['s', 'h', 'o', 'r', 't', 'm', 'i', 'd', ';'], [0x2223]),
  (['s', 'h', 'o', 'r', 't', 'p', 'a', 'r', 'a', 'l', 'l', 'e', 'l', ';'], [0x2225]),
  (['s', 'h', 'y', ';'], [0xad]),
  (['s', 'i', 'g', 'm', 'a', ';'], [0x3c3]),
  (['s', 'i', 'g', 'm', 'a', 'f', ';'], [0x3c2]),
  (['s', 'i', 'g', 'm', 'a', 'v', ';'], [0x3c2]),
  (['s', 'i', 'm', ';'], [0x223c]),
  (['s', 'i', 'm', 'd', 'o', 't', ';'], [0x2a6a]),
  (['s', 'i', 'm', 'e', ';'], [0x2243]),
  (['s', 'i', 'm', 'e', 'q', ';'], [0x2243]),
  (['s', 'i', 'm', 'g', ';'], [0x2a9e]),
  (['s', 'i', 'm', 'g', 'E', ';'], [0x2aa0]),
  (['s', 'i', 'm', 'l', ';'], [0x2a9d]),
  (['s', 'i', 'm', 'l', 'E', ';'], [0x2a9f]),
  (['s', 'i', 'm', 'n', 'e', ';'], [0x2246]),
  (['s', 'i', 'm', 'p', 'l', 'u', 's', ';'], [0x2a24]),
  (['s', 'i', 'm', 'r', 'a', 'r', 'r', ';'], [0x2972]),
  (['s', 'l', 'a', 'r', 'r', ';'], [0x2190]),
  (['s', 'm', 'a', 'l', 'l', 's', 'e', 't', 'm', 'i', 'n', 'u', 's', ';'], [0x2216]),
  (['s', 'm', 'a', 's', 'h', 'p', ';'], [0x2a33]),
  (['s', 'm', 'e', 'p', 'a', 'r', 's', 'l', ';'], [0x29e4]),
  (['s', 'm', 'i', 'd', ';'], [0x2223]),
  (['s', 'm', 'i', 'l', 'e', ';'], [0x2323]),
  (['s', 'm', 't', ';'], [0x2aaa]),
  (['s', 'm', 't', 'e', ';'], [0x2aac]),
  (['s', 'o', 'f', 't', 'c', 'y', ';'], [0x44c]),
  (['s', 'o', 'l', ';'], [0x2f]),
  (['s', 'o', 'l', 'b', ';'], [0x29c4]),
  (['s', 'o', 'l', 'b', 'a', 'r', ';'], [0x233f]),
  (['s', 'o', 'p', 'f', ';'], [0x1d564]),
  (['s', 'p', 'a', 'd', 'e', 's', ';'], [0x2660]),
  (['s', 'p', 'a', 'd', 'e', 's', 'u', 'i', 't', ';'], [0x2660]),
  (['s', 'p', 'a', 'r', ';'], [0x2225]),
  (['s', 'q', 'c', 'a', 'p', ';'], [0x2293]),
  (['s', 'q', 'c', 'u', 'p', ';'], [0x2294]),
  (['s', 'q', 's', 'u', 'b', ';'], [0x228f]),
  (['s', 'q', 's', 'u', 'b', 'e', ';'], [0x2291]),
  (['s', 'q', 's', 'u', 'b', 's', 'e', 't', ';'], [0x228f]),
  (['s', 'q', 's', 'u', 'b', 's', 'e', 't', 'e', 'q', ';'], [0x2291]),
  (['s', 'q', 's', 'u', 'p', ';'], [0x2290]),
  (['s', 'q', 's', 'u', 'p', 'e', ';'], [0x2292]),
  (['s', 'q', 's', 'u', 'p', 's', 'e', 't', ';'], [0x2290]),
  (['s', 'q', 's', 'u', 'p', 's', 'e', 't', 'e', 'q', ';'], [0x2292]),
  (['s', 'q', 'u', ';'], [0x25a1]),
  (['s', 'q', 'u', 'a', 'r', 'e', ';'], [0x25a1]),
  (['s', 'q', 'u', 'a', 'r', 'f', ';'], [0x25aa]),
  (['s', 'q', 'u', 'f', ';'], [0x25aa]),
  (['s', 'r', 'a', 'r', 'r', ';'], [0x2192]),
  (['s', 's', 'c', 'r', ';'], [0x1d4c8]),
  (['s', 's', 'e', 't', 'm', 'n', ';'], [0x2216]),
  (['s', 's', 'm', 'i', 'l', 'e', ';'], [0x2323]),
  (['s', 's', 't', 'a', 'r', 'f', ';'], [0x22c6]),
  (['s', 't', 'a', 'r', ';'], [0x2606]),
  (['s', 't', 'a', 'r', 'f', ';'], [0x2605]),
  (['s', 't', 'r', 'a', 'i', 'g', 'h', 't', 'e', 'p', 's', 'i', 'l', 'o', 'n', ';'], [0x3f5]),
  (['s', 't', 'r', 'a', 'i', 'g', 'h', 't', 'p', 'h', 'i', ';'], [0x3d5]),
  (['s', 't', 'r', 'n', 's', ';'], [0xaf]),
  (['s', 'u', 'b', ';'], [0x2282]),
  (['s', 'u', 'b', 'E', ';'], [0x2ac5]),
  (['s', 'u', 'b', 'd', 'o', 't', ';'], [0x2abd]),
  (['s', 'u', 'b', 'e', ';'], [0x2286]),
  (['s', 'u', 'b', 'e', 'd', 'o', 't', ';'], [0x2ac3]),
  (['s', 'u', 'b', 'm', 'u', 'l', 't', ';'], [0x2ac1]),
  (['s', 'u', 'b', 'n', 'E', ';'], [0x2acb]),
  (['s', 'u', 'b', 'n', 'e', ';'], [0x228a]),
  (['s', 'u', 'b', 'p', 'l', 'u', 's', ';'], [0x2abf]),
  (['s', 'u', 'b', 'r', 'a', 'r', 'r', ';'], [0x2979]),
  (['s', 'u', 'b', 's', 'e', 't', ';'], [0x2282]),
  (['s', 'u', 'b', 's', 'e', 't', 'e', 'q', ';'], [0x2286]),
  (['s', 'u', 'b', 's', 'e', 't', 'e', 'q', 'q', ';'], [0x2ac5]),
  (['s', 'u', 'b', 's', 'e', 't', 'n', 'e', 'q', ';'], [0x228a]),
  (['s', 'u', 'b', 's', 'e', 't', 'n', 'e', 'q', 'q', ';'], [0x2acb]),
  (['s', 'u', 'b', 's', 'i', 'm', ';'], [0x2ac7]),
  (['s', 'u', 'b', 's', 'u', 'b', ';'], [0x2ad5]),
  (['s', 'u', 'b', 's', 'u', 'p', ';'], [0x2ad3]),
  (['s', 'u', 'c', 'c', ';'], [0x227b]),
  (['s', 'u', 'c', 'c', 'a', 'p', 'p', 'r', 'o', 'x', ';'], [0x2ab8])]

/-- gosub_html5/src/tokenizer/replacement_tables.rs, entries 1801 to 2000 of `TOKEN_NAMED_CHARS`. -/
def named9 : List (List Char × List Nat) := [
  (['s', 'u', 'c', 'c', 'c', 'u', 'r', 'l', 'y', 'e', 'q', ';'], [0x227d]),
  (['s', 'u', 'c', 'c', 'e', 'q', ';'], [0x2ab0]),
  (['s', 'u', 'c', 'c', 'n', 'a', 'p', 'p', 'r', 'o', 'x', ';'], [0x2aba]),
  (['s', 'u', 'c', 'c', 'n', 'e', 'q', 'q', ';'], [0x2ab6]),
  (['s', 'u', 'c', 'c', 'n', 's', 'i', 'm', ';'], [0x22e9]),
  (['s', 'u', 'c', 'c', 's', 'i', 'm', ';'], [0x227f]),
  (['s', 'u', 'm', ';'], [0x2211]),
  (['s', 'u', 'n', 'g', ';'], [0x266a]),
  (['s', 'u', 'p', ';'], [0x2283]),
  (['s', 'u', 'p', '1', ';'], [0xb9]),
  (['s', 'u', 'p', '2', ';'], [0xb2]),
  (['s', 'u', 'p', '3', ';'], [0xb3]),
  (['s', 'u', 'p', 'E', ';'], [0x2ac6]),
  (['s', 'u', 'p', 'd', 'o', 't', ';'], [0x2abe]),
  (['s', 'u', 'p', 'd', 's', 'u', 'b', ';'], [0x2ad8]),
  (['s', 'u', 'p', 'e', ';'], [0x2287]),
  (['s', 'u', 'p', 'e', 'd', 'o', 't', ';'], [0x2ac4]),
  (['s', 'u', 'p', 'h', 's', 'o', 'l', ';'], [0x27c9]),
  (['s', 'u', 'p', 'h', 's', 'u', 'b', ';'], [0x2ad7]),
  (['s', 'u', 'p', 'l', 'a', 'r', 'r', ';'], [0x297b]),
  (['s', 'u', 'p', 'm', 'u', 'l', 't', ';'], [0x2ac2]),
  (['s', 'u', 'p', 'n', 'E', ';'], [0x2acc]),
  (['s', 'u', 'p', 'n', 'e', ';'], [0x228b]),
  (['s', 'u', 'p', 'p', 'l', 'u', 's', ';'], [0x2ac0]),
  (['s', 'u', 'p', 's', 'e', 't', ';'], [0x2283]),
  (['s', 'u', 'p', 's', 'e', 't', 'e', 'q', ';'], [0x2287]),
  (['s', 'u', 'p', 's', 'e', 't', 'e', 'q', 'q', ';'], [0x2ac6]),
  (['s', 'u', 'p', 's', 'e', 't', 'n', 'e', 'q', ';'], [0x228b]),
  (['s', 'u', 'p', 's', 'e', 't', 'n', 'e', 'q', 'q', ';'], [0x2acc]),
  (['s', 'u', 'p', 's', 'i', 'm', ';'], [0x2ac8]),
  (['s', 'u', 'p', 's', 'u', 'b', ';'], [0x2ad4]),
  (['s', 'u', 'p', 's', 'u', 'p', ';'], [0x2ad6]),
  (['s', 'w', 'A', 'r', 'r', ';'], [0x21d9]),
  (['s', 'w', 'a', 'r', 'h', 'k', ';'], [0x2926]),
  (['s', 'w', 'a', 'r', 'r', ';'], [0x2199]),
  (['s', 'w', 'a', 'r', 'r', 'o', 'w', ';'], [0x2199]),
  (['s', 'w', 'n', 'w', 'a', 'r', ';'], [0x292a]),
  (['s', 'z', 'l', 'i', 'g', ';'], [0xdf]),
  (['t', 'a', 'r', 'g', 'e', 't', ';'], [0x2316]),
  (['t', 'a', 'u', ';'], [0x3c4]),
  (['t', 'b', 'r', 'k', ';'], [0x23b4]),
  (['t', 'c', 'a', 'r', 'o', 'n', ';'], [0x165]),
  (['t', 'c', 'e', 'd', 'i', 'l', ';'], [0x163]),
  (['t', 'c', 'y', ';'], [0x442]),
  (['t', 'd', 'o', 't', ';'], [0x20db]),
  (['t', 'e', 'l', 'r', 'e', 'c', ';'], [0x2315]),
  (['t', 'f', 'r', ';'], [0x1d531]),
  (['t', 'h', 'e', 'r', 'e', '4', ';'], [0x2234]),
  (['t', 'h', 'e', 'r', 'e', 'f', 'o', 'r', 'e', ';'], [0x2234]),
  (['t', 'h', 'e', 't', 'a', ';'], [0x3b8]),
  (['t', 'h', 'e', 't', 'a', 's', 'y', 'm', ';'], [0x3d1]),
  (['t', 'h', 'e', 't', 'a', 'v', ';'], [0x3d1]),
  (['t', 'h', 'i', 'c', 'k', 'a', 'p', 'p', 'r', 'o', 'x', ';'], [0x2248]),
  (['t', 'h', 'i', 'c', 'k', 's', 'i', 'm', ';'], [0x223c]),
  (['t', 'h', 'i', 'n', 's', 'p', ';'], [0x2009]),
  (['t', 'h', 'k', 'a', 'p', ';'], [0x2248]),
  (['t', 'h', 'k', 's', 'i', 'm', ';'], [0x223c]),
  (['t', 'h', 'o', 'r', 'n', ';'], [0xfe]),
  (['t', 'i', 'l', 'd', 'e', ';'], [0x2dc]),
  (['t', 'i', 'm', 'e', 's', ';'], [0xd7]),
  (['t', 'i', 'm', 'e', 's', 'b', ';'], [0x22a0]),
  (['t', 'i', 'm', 'e', 's', 'b', 'a', 'r', ';'], [0x2a31]),
  (['t', 'i', 'm', 'e', 's', 'd', ';'], [0x2a30]),
  (['t', 'i', 'n', 't', ';'], [0x222d]),
  (['t', 'o', 'e', 'a', ';'], [0x2928]),
  (['t', 'o', 'p', ';'], [0x22a4]),
  (['t', 'o', 'p', 'b', 'o', 't', ';'], [0x2336]),
  (['t', 'o', 'p', 'c', 'i', 'r', ';'], [0x2af1]),
  (['t', 'o', 'p', 'f', ';'], [0x1d565]),
  (['t', 'o', 'p', 'f', 'o', 'r', 'k', ';'], [0x2ada]),
  (['t', 'o', 's', 'a', ';'], [0x2929]),
  (['t', 'p', 'r', 'i', 'm', 'e', ';'], [0x2034]),
  (['t', 'r', 'a', 'd', 'e', ';'], [0x2122]),
  (['t', 'r', 'i', 'a', 'n', 'g', 'l', 'e', ';'], [0x25b5]),
  (['t', 'r', 'i', 'a', 'n', 'g', 'l', 'e', 'd', 'o', 'w', 'n', ';'], [0x25bf]),
  (['t', 'r', 'i', 'a', 'n', 'g', 'l', 'e', 'l', 'e', 'f', 't', ';'], [0x25c3]),
  (['t', 'r', 'i', 'a', 'n', 'g', 'l', 'e', 'l', 'e', 'f', 't', 'e', 'q', ';'], [0x22b4]),
  (['t', 'r', 'i', 'a', 'n', 'g', 'l', 'e', 'q', ';'], [0x225c]),
  (['t', 'r', 'i', 'a', 'n', 'g', 'l', 'e', 'r', 'i', 'g', 'h', 't', ';'], [0x25b9]),
  (['t', 'r', 'i', 'a', 'n', 'g', 'l', 'e', 'r', 'i', 'g', 'h', 't', 'e', 'q', ';'], [0x22b5]),
  (['t', 'r', 'i', 'd', 'o', 't', ';'], [0x25ec]),
  (['t', 'r', 'i', 'e', ';'], [0x225c]),
  (['t', 'r', 'i', 'm', 'i', 'n', 'u', 's', ';'], [0x2a3a]),
  (['t', 'r', 'i', 'p', 'l', 'u', 's', ';'], [0x2a39]),
  (['t', 'r', 'i', 's', 'b', ';'], [0x29cd]),
  (['t', 'r', 'i', 't', 'i', 'm', 'e', ';'], [0x2a3b]),
  (['t', 'r', 'p', 'e', 'z', 'i', 'u', 'm', ';'], [0x23e2]),
  (['t', 's', 'c', 'r', ';'], [0x1d4c9]),
  (['t', 's', 'c', 'y', ';'], [0x446]),
  (['t', 's', 'h', 'c', 'y', ';'], [0x45b]),
  (['t', 's', 't', 'r', 'o', 'k', ';'], [0x167]),
  (['t', 'w', 'i', 'x', 't', ';'], [0x226c]),
  (['t', 'w', 'o', 'h', 'e', 'a', 'd', 'l', 'e', 'f', 't', 'a', 'r', 'r', 'o', 'w', ';'], [0x219e]),
  (['t', 'w', 'o', 'h', 'e', 'a', 'd', 'r', 'i', 'g', 'h', 't', 'a', 'r', 'r', 'o', 'w', ';'], [0x21a0]),
  (['u', 'A', 'r', 'r', ';'], [0x21d1]),
  (['u', 'H', 'a', 'r', ';'], [0x2963]),
  (['u', 'a', 'c', 'u', 't', 'e', ';'], [0xfa]),
  (['u', 'a', 'r', 'r', ';'], [0x2191]),
  (['u', 'b', 'r', 'c', 'y', ';'], [0x45e]),
  (['u', 'b', 'r', 'e', 'v', 'e', ';'], [0x16d]),
  (['u', 'c', 'i', 'r', 'c', ';'], [0xfb]),
  (['u', 'c', 'y', ';'], [0x443]),
  (['u', 'd', 'a', 'r', 'r', ';'], [0x21c5]),
  (['u', 'd', 'b', 'l', 'a', 'c', ';'], [0x171]),
  (['u', 'd', 'h', 'a', 'r', ';'], [0x296e]),
  (['u', 'f', 'i', 's', 'h', 't', ';'], [0x297e]),
  (['u', 'f', 'r', ';'], [0x1d532]),
  (['u', 'g', 'r', 'a', 'v', 'e', ';'], [0xf9]),
  (['u', 'h', 'a', 'r', 'l', ';'], [0x21bf]),
  (['u', 'h', 'a', 'r', 'r', ';'], [0x21be]),
  (['u', 'h', 'b', 'l', 'k', ';'], [0x2580]),
  (['u', 'l', 'c', 'o', 'r', 'n', ';'], [0x231c]),
  (['u', 'l', 'c', 'o', 'r', 'n', 'e', 'r', ';'], [0x231c]),
  (['u', 'l', 'c', 'r', 'o', 'p', ';'], [0x230f]),
  (['u', 'l', 't', 'r', 'i', ';'], [0x25f8]),
  (['u', 'm', 'a', 'c', 'r', ';'], [0x16b]),
  (['u', 'm', 'l', ';'], [0xa8]),
  (['u', 'o', 'g', 'o', 'n', ';'], [0x173]),
  (['u', 'o', 'p', 'f', ';'], [0x1d566]),
  (['u', 'p', 'a', 'r', 'r', 'o', 'w', ';'], [0x2191]),
  (['u', 'p', 'd', 'o', 'w', 'n', 'a', 'r', 'r', 'o', 'w', ';'], [0x2195]),
  (['u', 'p', 'h', 'a', 'r', 'p', 'o', 'o', 'n', 'l', 'e', 'f', 't', ';'], [0x21bf]),
  (['u', 'p', 'h', 'a', 'r', 'p', 'o', 'o', 'n', 'r', 'i', 'g', 'h', 't', ';'], [0x21be]),
  (['u', 'p', 'l', 'u', 's', ';'], [0x228e]),
  (['u', 'p', 's', 'i', ';'], [0x3c5]),
  (['u', 'p', 's', 'i', 'h', ';'], [0x3d2]),
  (['u', 'p', 's', 'i', 'l', 'o', 'n', ';'], [0x3c5]),
  (['u', 'p', 'u', 'p', 'a', 'r', 'r', 'o', 'w', 's', ';'], [0x21c8]),
  (['u', 'r', 'c', 'o', 'r', 'n', ';'], [0x231d]),
  (['u', 'r', 'c', 'o', 'r', 'n', 'e', 'r', ';'], [0x231d]),
  (['u', 'r', 'c', 'r', 'o', 'p', ';'], [0x230e]),
  (['u', 'r', 'i', 'n', 'g', ';'], [0x16f]),
  (['u', 'r', 't', 'r', 'i', ';'], [0x25f9]),
  (['u', 's', 'c', 'r', ';'], [0x1d4ca]),
  (['u', 't', 'd', 'o', 't', ';'], [0x22f0]),
  (['u', 't', 'i', 'l', 'd', 'e', ';'], [0x169]),
  (['u', 't', 'r', 'i', ';'], [0x25b5]),
  (['u', 't', 'r', 'i', 'f', ';'], [0x25b4]),
  (['u', 'u', 'a', 'r', 'r', ';'], [0x21c8]),
  (['u', 'u', 'm', 'l', ';'], [0xfc]),
  (['u', 'w', 'a', 'n', 'g', 'l', 'e', ';'], [0x29a7]),
  (['v', 'A', 'r', 'r', ';'], [0x21d5]),
  (['v', 'B', 'a', 'r', ';'], [0x2ae8]),
  (['v', 'B', 'a', 'r', 'v', ';'], [0x2ae9]),
  (['v', 'D', 'a', 's', 'h', ';'], [0x22a8]),
  (['v', 'a', 'n', 'g', 'r', 't', ';'], [0x299c]),
  (['v', 'a', 'r', 'e', 'p', 's', 'i', 'l', 'o', 'n', ';'], [0x3f5]),
  (['v', 'a', 'r', 'k', 'a', 'p', 'p', 'a', ';'], [0x3f0]),
  (['v', 'a', 'r', 'n', 'o', 't', 'h', 'i', 'n', 'g', ';'], [0x2205]),
  (['v', 'a', 'r', 'p', 'h', 'i', ';'], [0x3d5]),
  (['v', 'a', 'r', 'p', 'i', ';'], [0x3d6]),
  (['v', 'a', 'r', 'p', 'r', 'o', 'p', 't', 'o', ';'], [0x221d]),
  (['v', 'a', 'r', 'r', ';'], [0x2195]),
  (['v', 'a', 'r', 'r', 'h', 'o', ';'], [0x3f1]),
  (['v', 'a', 'r', 's', 'i', 'g', 'm', 'a', ';'], [0x3c2]),
  (['v', 'a', 'r', 't', 'h', 'e', 't', 'a', ';'], [0x3d1]),
  (['v', 'a', 'r', 't', 'r', 'i', 'a', 'n', 'g', 'l', 'e', 'l', 'e', 'f', 't', ';'], [0x22b2]),
  (['v', 'a', 'r', 't', 'r', 'i', 'a', 'n', 'g', 'l', 'e', 'r', 'i', 'g', 'h', 't', ';'], [0x22b3]),
  (['v', 'c', 'y', ';'], [0x432]),
  (['v', 'd', 'a', 's', 'h', ';'], [0x22a2]),
  (['v', 'e', 'e', ';'], [0x2228]),
  (['v', 'e', 'e', 'b', 'a', 'r', ';'], [0x22bb]),
  (['v', 'e', 'e', 'e', 'q', ';'], [0x225a]),
  (['v', 'e', 'l', 'l', 'i', 'p', ';'], [0x22ee]),
  (['v', 'e', 'r', 'b', 'a', 'r', ';'], [0x7c]),
  (['v', 'e', 'r', 't', ';'], [0x7c]),
  (['v', 'f', 'r', ';'], [0x1d533]),
  (['v', 'l', 't', 'r', 'i', ';'], [0x22b2]),
  (['v', 'o', 'p', 'f', ';'], [0x1d567]),
  (['v', 'p', 'r', 'o', 'p', ';'], [0x221d]),
  (['v', 'r', 't', 'r', 'i', ';'], [0x22b3]),
  (['v', 's', 'c', 'r', ';'], [0x1d4cb]),
  (['v', 'z', 'i', 'g', 'z', 'a', 'g', ';'], [0x299a]),
  (['w', 'c', 'i', 'r', 'c', ';'], [0x175]),
  (['w', 'e', 'd', 'b', 'a', 'r', ';'], [0x2a5f]),
  (['w', 'e', 'd', 'g', 'e', ';'], [0x2227]),
  (['w', 'e', 'd', 'g', 'e', 'q', ';'], [0x2259]),
  (['w', 'e', 'i', 'e', 'r', 'p', ';'], [0x2118]),
  (['w', 'f', 'r', ';'], [0x1d534]),
  (['w', 'o', 'p', 'f', ';'], [0x1d568]),
  (['w', 'p', ';'], [0x2118]),
  (['w', 'r', ';'], [0x2240]),
  (['w', 'r', 'e', 'a', 't', 'h', ';'], [0x2240]),
  (['w', 's', 'c', 'r', ';'], [0x1d4cc]),
  (['x', 'c', 'a', 'p', ';'], [0x22c2]),
  (['x', 'c', 'i', 'r', 'c', ';'], [0x25ef]),
  (['x', 'c', 'u', 'p', ';'], [0x22c3]),
  (['x', 'd', 't', 'r', 'i', ';'], [0x25bd]),
  (['x', 'f', 'r', ';'], [0x1d535]),
  (['x', 'h', 'A', 'r', 'r', ';'], [0x27fa]),
  (['x', 'h', 'a', 'r', 'r', ';'], [0x27f7]),
  (['x', 'i', ';'], [0x3be]),
  (['x', 'l', 'A', 'r', 'r', ';'], [0x27f8]),
  (['x', 'l', 'a', 'r', 'r', ';'], [0x27f5]),
  (['x', 'm', 'a', 'p', ';'], [0x27fc]),
  (['x', 'n', 'i', 's', ';'], [0x22fb]),
  (['x', 'o', 'd', 'o', 't', ';'], [0x2a00]),
  (['x', 'o', 'p', 'f', ';'], [0x1d569]),
  (['x', 'o', 'p', 'l', 'u', 's', ';'], [0x2a01]),
  (['x', 'o', 't', 'i', 'm', 'e', ';'], [0x2a02])]

/-- gosub_html5/src/tokenizer/replacement_tables.rs, entries 2001 to 2200 of `TOKEN_NAMED_CHARS`. -/
def named10 : List (List Char × List Nat) := [
  (['x', 'r', 'A', 'r', 'r', ';'], [0x27f9]),
  (['x', 'r', 'a', 'r', 'r', ';'], [0x27f6]),
  (['x', 's', 'c', 'r', ';'], [0x1d4cd]),
  (['x', 's', 'q', 'c', 'u', 'p', ';'], [0x2a06]),
  (['x', 'u', 'p', 'l', 'u', 's', ';'], [0x2a04]),
  (['x', 'u', 't', 'r', 'i', ';'], [0x25b3]),
  (['x', 'v', 'e', 'e', ';'], [0x22c1]),
  (['x', 'w', 'e', 'd', 'g', 'e', ';'], [0x22c0]),
  (['y', 'a', 'c', 'u', 't', 'e', ';'], [0xfd]),
  (['y', 'a', 'c', 'y', ';'], [0x44f]),
  (['y', 'c', 'i', 'r', 'c', ';'], [0x177]),
  (['y', 'c', 'y', ';'], [0x44b]),
  (['y', 'e', 'n', ';'], [0xa5]),
  (['y', 'f', 'r', ';'], [0x1d536]),
  (['y', 'i', 'c', 'y', ';'], [0x457]),
  (['y', 'o', 'p', 'f', ';'], [0x1d56a]),
  (['y', 's', 'c', 'r', ';'], [0x1d4ce]),
  (['y', 'u', 'c', 'y', ';'], [0x44e]),
  (['y', 'u', 'm', 'l', ';'], [0xff]),
  (['z', 'a', 'c', 'u', 't', 'e', ';'], [0x17a]),
  (['z', 'c', 'a', 'r', 'o', 'n', ';'], [0x17e]),
  (['z', 'c', 'y', ';'], [0x437]),
  (['z', 'd', 'o', 't', ';'], [0x17c]),
  (['z', 'e', 'e', 't', 'r', 'f', ';'], [0x2128]),
  (['z', 'e', 't', 'a', ';'], [0x3b6]),
  (['z', 'f', 'r', ';'], [0x1d537]),
  (['z', 'h', 'c', 'y', ';'], [0x436]),
  (['z', 'i', 'g', 'r', 'a', 'r', 'r', ';'], [0x21dd]),
  (['z', 'o', 'p', 'f', ';'], [0x1d56b]),
  (['z', 's', 'c', 'r', ';'], [0x1d4cf]),
  (['z', 'w', 'j', ';'], [0x200d]),
  (['z', 'w', 'n', 'j', ';'], [0x200c]),
  (['A', 'E', 'l', 'i', 'g'], [0xc6]),
  (['A', 'M', 'P'], [0x26]),
  (['A', 'a', 'c', 'u', 't', 'e'], [0xc1]),
  (['A', 'c', 'i', 'r', 'c'], [0xc2]),
  (['A', 'g', 'r', 'a', 'v', 'e'], [0xc0]),
  (['A', 'r', 'i', 'n', 'g'], [0xc5]),
  (['A', 't', 'i', 'l', 'd', 'e'], [0xc3]),
  (['A', 'u', 'm', 'l'], [0xc4]),
  (['C', 'O', 'P', 'Y'], [0xa9]),
  (['C', 'c', 'e', 'd', 'i', 'l'], [0xc7]),
  (['E', 'T', 'H'], [0xd0]),
  (['E', 'a', 'c', 'u', 't', 'e'], [0xc9]),
  (['E', 'c', 'i', 'r', 'c'], [0xca]),
  (['E', 'g', 'r', 'a', 'v', 'e'], [0xc8]),
  (['E', 'u', 'm', 'l'], [0xcb]),
  (['G', 'T'], [0x3e]),
  (['I', 'a', 'c', 'u', 't', 'e'], [0xcd]),
  (['I', 'c', 'i', 'r', 'c'], [0xce]),
  (['I', 'g', 'r', 'a', 'v', 'e'], [0xcc]),
  (['I', 'u', 'm', 'l'], [0xcf]),
  (['L', 'T'], [0x3c]),
  (['N', 't', 'i', 'l', 'd', 'e'], [0xd1]),
  (['O', 'a', 'c', 'u', 't', 'e'], [0xd3]),
  (['O', 'c', 'i', 'r', 'c'], [0xd4]),
  (['O', 'g', 'r', 'a', 'v', 'e'], [0xd2]),
  (['O', 's', 'l', 'a', 's', 'h'], [0xd8]),
  (['O', 't', 'i', 'l', 'd', 'e'], [0xd5]),
  (['O', 'u', 'm', 'l'], [0xd6]),
  (['Q', 'U', 'O', 'T'], [0x22]),
  (['R', 'E', 'G'], [0xae]),
  (['T', 'H', 'O', 'R', 'N'], [0xde]),
  (['U', 'a', 'c', 'u', 't', 'e'], [0xda]),
  (['U', 'c', 'i', 'r', 'c'], [0xdb]),
  (['U', 'g', 'r', 'a', 'v', 'e'], [0xd9]),
  (['U', 'u', 'm', 'l'], [0xdc]),
  (['Y', 'a', 'c', 'u', 't', 'e'], [0xdd]),
  (['a', 'a', 'c', 'u', 't', 'e'], [0xe1]),
  (['a', 'c', 'i', 'r', 'c'], [0xe2]),
  (['a', 'c', 'u', 't', 'e'], [0xb4]),
  (['a', 'e', 'l', 'i', 'g'], [0xe6]),
  (['a', 'g', 'r', 'a', 'v', 'e'], [0xe0]),
  (['a', 'm', 'p'], [0x26]),
  (['a', 'r', 'i', 'n', 'g'], [0xe5]),
  (['a', 't', 'i', 'l', 'd', 'e'], [0xe3]),
  (['a', 'u', 'm', 'l'], [0xe4]),
  (['b', 'r', 'v', 'b', 'a', 'r'], [0xa6]),
  (['c', 'c', 'e', 'd', 'i', 'l'], [0xe7]),
  (['c', 'e', 'd', 'i', 'l'], [0xb8]),
  (['c', 'e', 'n', 't'], [0xa2]),
  (['c', 'o', 'p', 'y'], [0xa9]),
  (['c', 'u', 'r', 'r', 'e', 'n'], [0xa4]),
  (['d', 'e', 'g'], [0xb0]),
  (['d', 'i', 'v', 'i', 'd', 'e'], [0xf7]),
  (['e', 'a', 'c', 'u', 't', 'e'], [0xe9]),
  (['e', 'c', 'i', 'r', 'c'], [0xea]),
  (['e', 'g', 'r', 'a', 'v', 'e'], [0xe8]),
  (['e', 't', 'h'], [0xf0]),
  (['e', 'u', 'm', 'l'], [0xeb]),
  (['f', 'r', 'a', 'c', '1', '2'], [0xbd]),
  (['f', 'r', 'a', 'c', '1', '4'], [0xbc]),
  (['f', 'r', 'a', 'c', '3', '4'], [0xbe]),
  (['g', 't'], [0x3e]),
  (['i', 'a', 'c', 'u', 't', 'e'], [0xed]),
  (['i', 'c', 'i', 'r', 'c'], [0xee]),
  (['i', 'e', 'x', 'c', 'l'], [0xa1]),
  (['i', 'g', 'r', 'a', 'v', 'e'], [0xec]),
  (['i', 'q', 'u', 'e', 's', 't'], [0xbf]),
  (['i', 'u', 'm', 'l'], [0xef]),
  (['l', 'a', 'q', 'u', 'o'], [0xab]),
  (['l', 't'], [0x3c]),
  (['m', 'a', 'c', 'r'], [0xaf]),
  (['m', 'i', 'c', 'r', 'o'], [0xb5]),
  (['m', 'i', 'd', 'd', 'o', 't'], [0xb7]),
  (['n', 'b', 's', 'p'], [0xa0]),
  (['n', 'o', 't'], [0xac]),
  (['n', 't', 'i', 'l', 'd', 'e'], [0xf1]),
  (['o', 'a', 'c', 'u', 't', 'e'], [0xf3]),
  (['o', 'c', 'i', 'r', 'c'], [0xf4]),
  (['o', 'g', 'r', 'a', 'v', 'e'], [0xf2]),
  (['o', 'r', 'd', 'f'], [0xaa]),
  (['o', 'r', 'd', 'm'], [0xba]),
  (['o', 's', 'l', 'a', 's', 'h'], [0xf8]),
  (['o', 't', 'i', 'l', 'd', 'e'], [0xf5]),
  (['o', 'u', 'm', 'l'], [0xf6]),
  (['p', 'a', 'r', 'a'], [0xb6]),
  (['p', 'l', 'u', 's', 'm', 'n'], [0xb1]),
  (['p', 'o', 'u', 'n', 'd'], [0xa3]),
  (['q', 'u', 'o', 't'], [0x22]),
  (['r', 'a', 'q', 'u', 'o'], [0xbb]),
  (['r', 'e', 'g'], [0xae]),
  (['s', 'e', 'c', 't'], [0xa7]),
  (['s', 'h', 'y'], [0xad]),
  (['s', 'u', 'p', '1'], [0xb9]),
  (['s', 'u', 'p', '2'], [0xb2]),
  (['s', 'u', 'p', '3'], [0xb3]),
  (['s', 'z', 'l', 'i', 'g'], [0xdf]),
  (['t', 'h', 'o', 'r', 'n'], [0xfe]),
  (['t', 'i', 'm', 'e', 's'], [0xd7]),
  (['u', 'a', 'c', 'u', 't', 'e'], [0xfa]),
  (['u', 'c', 'i', 'r', 'c'], [0xfb]),
  (['u', 'g', 'r', 'a', 'v', 'e'], [0xf9]),
  (['u', 'm', 'l'], [0xa8]),
  (['u', 'u', 'm', 'l'], [0xfc]),
  (['y', 'a', 'c', 'u', 't', 'e'], [0xfd]),
  (['y', 'e', 'n'], [0xa5]),
  (['y', 'u', 'm', 'l'], [0xff]),
  (['n', 'L', 't', ';'], [0x226a, 0x20d2]),
  (['n', 'G', 't', ';'], [0x226b, 0x20d2]),
  (['N', 'o', 't', 'E', 'q', 'u', 'a', 'l', 'T', 'i', 'l', 'd', 'e', ';'], [0x2242, 0x338]),
  (['N', 'o', 't', 'G', 'r', 'e', 'a', 't', 'e', 'r', 'F', 'u', 'l', 'l', 'E', 'q', 'u', 'a', 'l', ';'], [0x2267, 0x338]),
  (['N', 'o', 't', 'G', 'r', 'e', 'a', 't', 'e', 'r', 'G', 'r', 'e', 'a', 't', 'e', 'r', ';'], [0x226b, 0x338]),
  (['N', 'o', 't', 'G', 'r', 'e', 'a', 't', 'e', 'r', 'S', 'l', 'a', 'n', 't', 'E', 'q', 'u', 'a', 'l', ';'], [0x2a7e, 0x338]),
  (['N', 'o', 't', 'H', 'u', 'm', 'p', 'D', 'o', 'w', 'n', 'H', 'u', 'm', 'p', ';'], [0x224e, 0x338]),
  (['N', 'o', 't', 'H', 'u', 'm', 'p', 'E', 'q', 'u', 'a', 'l', ';'], [0x224f, 0x338]),
  (['N', 'o', 't', 'L', 'e', 'f', 't', 'T', 'r', 'i', 'a', 'n', 'g', 'l', 'e', 'B', 'a', 'r', ';'], [0x29cf, 0x338]),
  (['N', 'o', 't', 'L', 'e', 's', 's', 'L', 'e', 's', 's', ';'], [0x226a, 0x338]),
  (['N', 'o', 't', 'L', 'e', 's', 's', 'S', 'l', 'a', 'n', 't', 'E', 'q', 'u', 'a', 'l', ';'], [0x2a7d, 0x338]),
  (['N', 'o', 't', 'N', 'e', 's', 't', 'e', 'd', 'G', 'r', 'e', 'a', 't', 'e', 'r', 'G', 'r', 'e', 'a', 't', 'e', 'r', ';'], [0x2aa2, 0x338]),
  (['N', 'o', 't', 'N', 'e', 's', 't', 'e', 'd', 'L', 'e', 's', 's', 'L', 'e', 's', 's', ';'], [0x2aa1, 0x338]),
  (['N', 'o', 't', 'P', 'r', 'e', 'c', 'e', 'd', 'e', 's', 'E', 'q', 'u', 'a', 'l', ';'], [0x2aaf, 0x338]),
  (['N', 'o', 't', 'R', 'i', 'g', 'h', 't', 'T', 'r', 'i', 'a', 'n', 'g', 'l', 'e', 'B', 'a', 'r', ';'], [0x29d0, 0x338]),
  (['N', 'o', 't', 'S', 'q', 'u', 'a', 'r', 'e', 'S', 'u', 'b', 's', 'e', 't', ';'], [0x228f, 0x338]),
  (['N', 'o', 't', 'S', 'q', 'u', 'a', 'r', 'e', 'S', 'u', 'p', 'e', 'r', 's', 'e', 't', ';'], [0x2290, 0x338]),
  (['N', 'o', 't', 'S', 'u', 'b', 's', 'e', 't', ';'], [0x2282, 0x20d2]),
  (['N', 'o', 't', 'S', 'u', 'c', 'c', 'e', 'e', 'd', 's', 'E', 'q', 'u', 'a', 'l', ';'], [0x2ab0, 0x338]),
  (['N', 'o', 't', 'S', 'u', 'c', 'c', 'e', 'e', 'd', 's', 'T', 'i', 'l', 'd', 'e', ';'], [0x227f, 0x338]),
  (['N', 'o', 't', 'S', 'u', 'p', 'e', 'r', 's', 'e', 't', ';'], [0x2283, 0x20d2]),
  (['T', 'h', 'i', 'c', 'k', 'S', 'p', 'a', 'c', 'e', ';'], [0x205f, 0x200a]),
  (['a', 'c', 'E', ';'], [0x223e, 0x333]),
  (['b', 'n', 'e', ';'], [0x3d, 0x20e5]),
  (['b', 'n', 'e', 'q', 'u', 'i', 'v', ';'], [0x2261, 0x20e5]),
  (['c', 'a', 'p', 's', ';'], [0x2229, 0xfe00]),
  (['c', 'u', 'p', 's', ';'], [0x222a, 0xfe00]),
  (['f', 'j', 'l', 'i', 'g', ';'], [0x66, 0x6a]),
  (['g', 'e', 's', 'l', ';'], [0x22db, 0xfe00]),
  (['g', 'v', 'e', 'r', 't', 'n', 'e', 'q', 'q', ';'], [0x2269, 0xfe00]),
  (['g', 'v', 'n', 'E', ';'], [0x2269, 0xfe00]),
  (['l', 'a', 't', 'e', 's', ';'], [0x2aad, 0xfe00]),
  (['l', 'e', 's', 'g', ';'], [0x22da, 0xfe00]),
  (['l', 'v', 'e', 'r', 't', 'n', 'e', 'q', 'q', ';'], [0x2268, 0xfe00]),
  (['l', 'v', 'n', 'E', ';'], [0x2268, 0xfe00]),
  (['n', 'G', 'g', ';'], [0x22d9, 0x338]),
  (['n', 'G', 't', 'v', ';'], [0x226b, 0x338]),
  (['n', 'L', 'l', ';'], [0x22d8, 0x338]),
  (['n', 'L', 't', 'v', ';'], [0x226a, 0x338]),
  (['n', 'a', 'n', 'g', ';'], [0x2220, 0x20d2]),
  (['n', 'a', 'p', 'E', ';'], [0x2a70, 0x338]),
  (['n', 'a', 'p', 'i', 'd', ';'], [0x224b, 0x338]),
  (['n', 'b', 'u', 'm', 'p', ';'], [0x224e, 0x338]),
  (['n', 'b', 'u', 'm', 'p', 'e', ';'], [0x224f, 0x338]),
  (['n', 'c', 'o', 'n', 'g', 'd', 'o', 't', ';'], [0x2a6d, 0x338]),
  (['n', 'e', 'd', 'o', 't', ';'], [0x2250, 0x338]),
  (['n', 'e', 's', 'i', 'm', ';'], [0x2242, 0x338]),
  (['n', 'g', 'E', ';'], [0x2267, 0x338]),
  (['n', 'g', 'e', 'q', 'q', ';'], [0x2267, 0x338]),
  (['n', 'g', 'e', 'q', 's', 'l', 'a', 'n', 't', ';'], [0x2a7e, 0x338]),
  (['n', 'g', 'e', 's', ';'], [0x2a7e, 0x338]),
  (['n', 'l', 'E', ';'], [0x2266, 0x338]),
  (['n', 'l', 'e', 'q', 'q', ';'], [0x2266, 0x338]),
  (['n', 'l', 'e', 'q', 's', 'l', 'a', 'n', 't', ';'], [0x2a7d, 0x338]),
  (['n', 'l', 'e', 's', ';'], [0x2a7d, 0x338]),
  (['n', 'o', 't', 'i', 'n', 'E', ';'], [0x22f9, 0x338]),
  (['n', 'o', 't', 'i', 'n', 'd', 'o', 't', ';'], [0x22f5, 0x338]),
  (['n', 'p', 'a', 'r', 's', 'l', ';'], [0x2afd, 0x20e5]),
  (['n', 'p', 'a', 'r', 't', ';'], [0x2202, 0x338]),
  (['n', 'p', 'r', 'e', ';'], [0x2aaf, 0x338]),
  (['n', 'p', 'r', 'e', 'c', 'e', 'q', ';'], [0x2aaf, 0x338]),
  (['n', 'r', 'a', 'r', 'r', 'c', ';'], [0x2933, 0x338])]

/-- gosub_html5/src/tokenizer/replacement_tables.rs, entries 2201 to 2231 of `TOKEN_NAMED_CHARS`. -/
def named11 : List (List Char × List Nat) := [
  (['n', 'r', 'a', 'r', 'r', 'w', ';'], [0x219d, 0x338]),
  (['n', 's', 'c', 'e', ';'], [0x2ab0, 0x338]),
  (['n', 's', 'u', 'b', 'E', ';'], [0x2ac5, 0x338]),
  (['n', 's', 'u', 'b', 's', 'e', 't', ';'], [0x2282, 0x20d2]),
  (['n', 's', 'u', 'b', 's', 'e', 't', 'e', 'q', 'q', ';'], [0x2ac5, 0x338]),
  (['n', 's', 'u', 'c', 'c', 'e', 'q', ';'], [0x2ab0, 0x338]),
  (['n', 's', 'u', 'p', 'E', ';'], [0x2ac6, 0x338]),
  (['n', 's', 'u', 'p', 's', 'e', 't', ';'], [0x2283, 0x20d2]),
  (['n', 's', 'u', 'p', 's', 'e', 't', 'e', 'q', 'q', ';'], [0x2ac6, 0x338]),
  (['n', 'v', 'a', 'p', ';'], [0x224d, 0x20d2]),
  (['n', 'v', 'g', 'e', ';'], [0x2265, 0x20d2]),
  (['n', 'v', 'g', 't', ';'], [0x3e, 0x20d2]),
  (['n', 'v', 'l', 'e', ';'], [0x2264, 0x20d2]),
  (['n', 'v', 'l', 't', ';'], [0x3c, 0x20d2]),
  (['n', 'v', 'l', 't', 'r', 'i', 'e', ';'], [0x22b4, 0x20d2]),
  (['n', 'v', 'r', 't', 'r', 'i', 'e', ';'], [0x22b5, 0x20d2]),
  (['n', 'v', 's', 'i', 'm', ';'], [0x223c, 0x20d2]),
  (['r', 'a', 'c', 'e', ';'], [0x223d, 0x331]),
  (['s', 'm', 't', 'e', 's', ';'], [0x2aac, 0xfe00]),
  (['s', 'q', 'c', 'a', 'p', 's', ';'], [0x2293, 0xfe00]),
  (['s', 'q', 'c', 'u', 'p', 's', ';'], [0x2294, 0xfe00]),
  (['v', 'a', 'r', 's', 'u', 'b', 's', 'e', 't', 'n', 'e', 'q', ';'], [0x228a, 0xfe00]),
  (['v', 'a', 'r', 's', 'u', 'b', 's', 'e', 't', 'n', 'e', 'q', 'q', ';'], [0x2acb, 0xfe00]),
  (['v', 'a', 'r', 's', 'u', 'p', 's', 'e', 't', 'n', 'e', 'q', ';'], [0x228b, 0xfe00]),
  (['v', 'a', 'r', 's', 'u', 'p', 's', 'e', 't', 'n', 'e', 'q', 'q', ';'], [0x2acc, 0xfe00]),
  (['v', 'n', 's', 'u', 'b', ';'], [0x2282, 0x20d2]),
  (['v', 'n', 's', 'u', 'p', ';'], [0x2283, 0x20d2]),
  (['v', 's', 'u', 'b', 'n', 'E', ';'], [0x2acb, 0xfe00]),
  (['v', 's', 'u', 'b', 'n', 'e', ';'], [0x228a, 0xfe00]),
  (['v', 's', 'u', 'p', 'n', 'E', ';'], [0x2acc, 0xfe00]),
  (['v', 's', 'u', 'p', 'n', 'e', ';'], [0x228b, 0xfe00])]

/-- gosub_html5/src/tokenizer/replacement_tables.rs 79-2312, `TOKEN_NAMED_CHARS`. -/
def namedRaw : List (List Char × List Nat) :=
  named0 ++ named1 ++ named2 ++ named3 ++ named4 ++
  named5 ++ named6 ++ named7 ++ named8 ++ named9 ++
  named10 ++ named11

end Verif.CharRef
