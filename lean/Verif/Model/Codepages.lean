import Verif.Model.Str
/-
Decoder tables of thermal_parser/src/decoder/, transcribed by tools/gen_codepages.py.  Each entry is a Rust `&str`
given by its Unicode scalar values.
-/
namespace Thermal

/-- The character with this scalar value. -/
abbrev u (n : Nat) : Char := Char.ofNat n

/-- decoder/codepage_base.rs:1-15 (Default) -/
def tableBase : List Str :=
  [
    [u 0x0], [u 0x1], [u 0x2], [u 0x3], [u 0x4], [u 0x5], [u 0x6], [u 0x7],
    [u 0x8], [u 0x9], [u 0xA], [u 0xB], [u 0xC], [u 0xD], [u 0xE], [u 0xF],
    [u 0x10], [u 0x11], [u 0x12], [u 0x13], [u 0x14], [u 0x15], [u 0x16], [u 0x17],
    [u 0x18], [u 0x19], [u 0x1A], [u 0x1B], [u 0x1C], [u 0x1D], [u 0x1E], [u 0x1F],
    [u 0x20], [u 0x21], [u 0x22], [u 0x23], [u 0x24], [u 0x25], [u 0x26], [u 0x27],
    [u 0x28], [u 0x29], [u 0x2A], [u 0x2B], [u 0x2C], [u 0x2D], [u 0x2E], [u 0x2F],
    [u 0x30], [u 0x31], [u 0x32], [u 0x33], [u 0x34], [u 0x35], [u 0x36], [u 0x37],
    [u 0x38], [u 0x39], [u 0x3A], [u 0x3B], [u 0x3C], [u 0x3D], [u 0x3E], [u 0x3F],
    [u 0x40], [u 0x41], [u 0x42], [u 0x43], [u 0x44], [u 0x45], [u 0x46], [u 0x47],
    [u 0x48], [u 0x49], [u 0x4A], [u 0x4B], [u 0x4C], [u 0x4D], [u 0x4E], [u 0x4F],
    [u 0x50], [u 0x51], [u 0x52], [u 0x53], [u 0x54], [u 0x55], [u 0x56], [u 0x57],
    [u 0x58], [u 0x59], [u 0x5A], [u 0x5B], [u 0x5C], [u 0x5D], [u 0x5E], [u 0x5F],
    [u 0x60], [u 0x61], [u 0x62], [u 0x63], [u 0x64], [u 0x65], [u 0x66], [u 0x67],
    [u 0x68], [u 0x69], [u 0x6A], [u 0x6B], [u 0x6C], [u 0x6D], [u 0x6E], [u 0x6F],
    [u 0x70], [u 0x71], [u 0x72], [u 0x73], [u 0x74], [u 0x75], [u 0x76], [u 0x77],
    [u 0x78], [u 0x79], [u 0x7A], [u 0x7B], [u 0x7C], [u 0x7D], [u 0x7E], [u 0x7F] ]

/-- decoder/codepage_0_437.rs:4-16 (Default (Codepage 437)) -/
def table437 : List Str :=
  [
    [u 0xC7], [u 0xFC], [u 0xE9], [u 0xE2], [u 0xE4], [u 0xE0], [u 0xE5], [u 0xE7],
    [u 0xEA], [u 0xEB], [u 0xE8], [u 0xEF], [u 0xEE], [u 0xEC], [u 0xC4], [u 0xC5],
    [u 0xC9], [u 0xE6], [u 0xC6], [u 0xF4], [u 0xF6], [u 0xF2], [u 0xFB], [u 0xF9],
    [u 0xFF], [u 0xD6], [u 0xDC], [u 0xA2], [u 0xA3], [u 0xA5], [u 0x20A7], [u 0x192],
    [u 0xE1], [u 0xED], [u 0xF3], [u 0xFA], [u 0xF1], [u 0xD1], [u 0xAA], [u 0xBA],
    [u 0xBF], [u 0x2310], [u 0xAC], [u 0xBD], [u 0xBC], [u 0xA1], [u 0xAB], [u 0xBB],
    [u 0x2591], [u 0x2592], [u 0x2593], [u 0x2502], [u 0x2524], [u 0x2561], [u 0x2562], [u 0x2556],
    [u 0x2555], [u 0x2563], [u 0x2551], [u 0x2557], [u 0x255D], [u 0x255C], [u 0x255B], [u 0x2510],
    [u 0x2514], [u 0x2534], [u 0x252C], [u 0x251C], [u 0x2500], [u 0x253C], [u 0x255E], [u 0x255F],
    [u 0x255A], [u 0x2554], [u 0x2569], [u 0x2566], [u 0x2560], [u 0x2550], [u 0x256C], [u 0x2567],
    [u 0x2568], [u 0x2564], [u 0x2565], [u 0x2559], [u 0x2558], [u 0x2552], [u 0x2553], [u 0x256B],
    [u 0x256A], [u 0x2518], [u 0x250C], [u 0x2588], [u 0x2584], [u 0x258C], [u 0x2590], [u 0x2580],
    [u 0x3B1], [u 0xDF], [u 0x393], [u 0x3C0], [u 0x3A3], [u 0x3C3], [u 0xB5], [u 0x3C4],
    [u 0x3A6], [u 0x398], [u 0x3A9], [u 0x3B4], [u 0x221E], [u 0x3C6], [u 0x3B5], [u 0x2229],
    [u 0x2261], [u 0xB1], [u 0x2265], [u 0x2264], [u 0x2320], [u 0x2321], [u 0xF7], [u 0x2248],
    [u 0xB0], [u 0x2219], [u 0xB7], [u 0x221A], [u 0x207F], [u 0xB2], [u 0x25A0], [u 0xA0] ]

/-- decoder/codepage_1_katakana.rs:4-16 (Katakana) -/
def tableKatakana : List Str :=
  [
    [u 0x2581], [u 0x2582], [u 0x2583], [u 0x2584], [u 0x2585], [u 0x2586], [u 0x2587], [u 0x2588],
    [u 0x258F], [u 0x258E], [u 0x258D], [u 0x258C], [u 0x258B], [u 0x258A], [u 0x2589], [u 0x253C],
    [u 0x2534], [u 0x252C], [u 0x2524], [u 0x251C], [u 0xAF], [u 0x2500], [u 0x2502], [u 0x2595],
    [u 0x250C], [u 0x2510], [u 0x2514], [u 0x2518], [u 0x256D], [u 0x256E], [u 0x2570], [u 0x256F],
    [u 0x20], [u 0xFF61], [u 0xFF62], [u 0xFF63], [u 0xFF64], [u 0xFF65], [u 0xFF66], [u 0xFF67],
    [u 0xFF68], [u 0xFF69], [u 0xFF6A], [u 0xFF6B], [u 0xFF6C], [u 0xFF6D], [u 0xFF6E], [u 0xFF6F],
    [u 0xFF70], [u 0xFF71], [u 0xFF72], [u 0xFF73], [u 0xFF74], [u 0xFF75], [u 0xFF76], [u 0xFF77],
    [u 0xFF78], [u 0xFF79], [u 0xFF7A], [u 0xFF7B], [u 0xFF7C], [u 0xFF7D], [u 0xFF7E], [u 0xFF7F],
    [u 0xFF80], [u 0xFF81], [u 0xFF82], [u 0xFF83], [u 0xFF84], [u 0xFF85], [u 0xFF86], [u 0xFF87],
    [u 0xFF88], [u 0xFF89], [u 0xFF8A], [u 0xFF8B], [u 0xFF8C], [u 0xFF8D], [u 0xFF8E], [u 0xFF8F],
    [u 0xFF90], [u 0xFF91], [u 0xFF92], [u 0xFF93], [u 0xFF94], [u 0xFF95], [u 0xFF96], [u 0xFF97],
    [u 0xFF98], [u 0xFF99], [u 0xFF9A], [u 0xFF9B], [u 0xFF9C], [u 0xFF9D], [u 0xFF9E], [u 0xFF9F],
    [u 0x2550], [u 0x255E], [u 0x256A], [u 0x2561], [u 0x25E2], [u 0x25E3], [u 0x25E5], [u 0x25E4],
    [u 0x2660], [u 0x2665], [u 0x2666], [u 0x2663], [u 0x25CF], [u 0x25CB], [u 0x2571], [u 0x2572],
    [u 0x2573], [u 0x5186], [u 0x5E74], [u 0x6708], [u 0x65E5], [u 0x6642], [u 0x5206], [u 0x79D2],
    [u 0x3012], [u 0x5E02], [u 0x533A], [u 0x753A], [u 0x6751], [u 0x4EBA], [u 0x2593], [u 0xA0] ]

/-- decoder/codepage_2_pc850.rs:4-16 (PC850: Multilingual) -/
def table850 : List Str :=
  [
    [u 0xC7], [u 0xFC], [u 0xE9], [u 0xE2], [u 0xE4], [u 0xE0], [u 0xE5], [u 0xE7],
    [u 0xEA], [u 0xEB], [u 0xE8], [u 0xEF], [u 0xEE], [u 0xEC], [u 0xC4], [u 0xC5],
    [u 0xC9], [u 0xE6], [u 0xC6], [u 0xF4], [u 0xF6], [u 0xF2], [u 0xFB], [u 0xF9],
    [u 0xFF], [u 0xD6], [u 0xDC], [u 0xF8], [u 0xA3], [u 0xD8], [u 0xD7], [u 0x192],
    [u 0xE1], [u 0xED], [u 0xF3], [u 0xFA], [u 0xF1], [u 0xD1], [u 0xAA], [u 0xBA],
    [u 0xBF], [u 0xAE], [u 0xAC], [u 0xBD], [u 0xBC], [u 0xA1], [u 0xAB], [u 0xBB],
    [u 0x2591], [u 0x2592], [u 0x2593], [u 0x2502], [u 0x2524], [u 0xC1], [u 0xC2], [u 0xC0],
    [u 0xA9], [u 0x2563], [u 0x2551], [u 0x2557], [u 0x255D], [u 0x255C], [u 0x255B], [u 0x2510],
    [u 0x2514], [u 0x2534], [u 0x252C], [u 0x251C], [u 0x2500], [u 0x253C], [u 0xE3], [u 0xC3],
    [u 0x255A], [u 0x2554], [u 0x2569], [u 0x2566], [u 0x2560], [u 0x2550], [u 0x256C], [u 0xA4],
    [u 0xF0], [u 0xD0], [u 0xCA], [u 0xCB], [u 0xC8], [u 0x131], [u 0xCD], [u 0xCE],
    [u 0xCF], [u 0x2518], [u 0x250C], [u 0x2588], [u 0x2584], [u 0xA6], [u 0xCC], [u 0x2580],
    [u 0xD3], [u 0xDF], [u 0xD4], [u 0xD2], [u 0xF5], [u 0xD5], [u 0xB5], [u 0xFE],
    [u 0xDE], [u 0xDA], [u 0xDB], [u 0xD9], [u 0xFD], [u 0xDD], [u 0xAF], [u 0xB4],
    [u 0x2D], [u 0xB1], [u 0x2017], [u 0xBE], [u 0xB6], [u 0xA7], [u 0xF7], [u 0xB8],
    [u 0xB0], [u 0xA8], [u 0xB7], [u 0xB9], [u 0xB3], [u 0xB2], [u 0x25A0], [u 0xA0] ]

/-- decoder/codepage_3_pc860.rs:4-16 (PC860: Portuguese) -/
def table860 : List Str :=
  [
    [u 0xC7], [u 0xFC], [u 0xE9], [u 0xE2], [u 0xE3], [u 0xE0], [u 0xC1], [u 0xE7],
    [u 0xEA], [u 0xCA], [u 0xE8], [u 0xCD], [u 0xD4], [u 0xEC], [u 0xC3], [u 0xC2],
    [u 0xC9], [u 0xC0], [u 0xC8], [u 0xF4], [u 0xF5], [u 0xF2], [u 0xDA], [u 0xF9],
    [u 0xCC], [u 0xD5], [u 0xDC], [u 0xA2], [u 0xA3], [u 0xD9], [u 0x20A7], [u 0xD3],
    [u 0xE1], [u 0xED], [u 0xF3], [u 0xFA], [u 0xF1], [u 0xD1], [u 0xAA], [u 0xBA],
    [u 0xBF], [u 0xD2], [u 0xAC], [u 0xBD], [u 0xBC], [u 0xA1], [u 0xAB], [u 0xBB],
    [u 0x2591], [u 0x2592], [u 0x2593], [u 0x2502], [u 0x2524], [u 0x2561], [u 0x2562], [u 0x2556],
    [u 0x2555], [u 0x2563], [u 0x2551], [u 0x2557], [u 0x255D], [u 0x255C], [u 0x255B], [u 0x2510],
    [u 0x2514], [u 0x2534], [u 0x252C], [u 0x251C], [u 0x2500], [u 0x253C], [u 0x255E], [u 0x255F],
    [u 0x255A], [u 0x2554], [u 0x2569], [u 0x2566], [u 0x2560], [u 0x2550], [u 0x256C], [u 0x2567],
    [u 0x2568], [u 0x2564], [u 0x2565], [u 0x2559], [u 0x2558], [u 0x2552], [u 0x2553], [u 0x256B],
    [u 0x256A], [u 0x2518], [u 0x250C], [u 0x2588], [u 0x2584], [u 0x258C], [u 0x2590], [u 0x2580],
    [u 0x3B1], [u 0xDF], [u 0x393], [u 0x3C0], [u 0x3A3], [u 0x3C3], [u 0xB5], [u 0x3C4],
    [u 0x3A6], [u 0x398], [u 0x3A9], [u 0x3B4], [u 0x221E], [u 0x3C6], [u 0x3B5], [u 0x2229],
    [u 0x2261], [u 0xB1], [u 0x2265], [u 0x2264], [u 0x2320], [u 0x2321], [u 0xF7], [u 0x2248],
    [u 0xB0], [u 0x2219], [u 0xB7], [u 0x221A], [u 0x207F], [u 0xB2], [u 0x25A0], [u 0xA0] ]

/-- decoder/codepage_4_pc863.rs:4-16 (PC863: Canadian-French) -/
def table863 : List Str :=
  [
    [u 0xC7], [u 0xFC], [u 0xE9], [u 0xE2], [u 0xC2], [u 0xE0], [u 0xB6], [u 0xE7],
    [u 0xEA], [u 0xEB], [u 0xE8], [u 0xEF], [u 0xEE], [u 0x2017], [u 0xC0], [u 0xA7],
    [u 0xC9], [u 0xC8], [u 0xCA], [u 0xF4], [u 0xCB], [u 0xCF], [u 0xFB], [u 0xF9],
    [u 0xA4], [u 0xD4], [u 0xDC], [u 0xA2], [u 0xA3], [u 0xD9], [u 0xDB], [u 0x192],
    [u 0xA6], [u 0xB4], [u 0xF3], [u 0xFA], [u 0xA8], [u 0xB8], [u 0xB3], [u 0xAF],
    [u 0xCE], [u 0x2310], [u 0xAC], [u 0xBD], [u 0xBC], [u 0xBE], [u 0xAB], [u 0xBB],
    [u 0x2591], [u 0x2592], [u 0x2593], [u 0x2502], [u 0x2524], [u 0x2561], [u 0x2562], [u 0x2556],
    [u 0x2555], [u 0x2563], [u 0x2551], [u 0x2557], [u 0x255D], [u 0x255C], [u 0x255B], [u 0x2510],
    [u 0x2514], [u 0x2534], [u 0x252C], [u 0x251C], [u 0x2500], [u 0x253C], [u 0x255E], [u 0x255F],
    [u 0x255A], [u 0x2554], [u 0x2569], [u 0x2566], [u 0x2560], [u 0x2550], [u 0x256C], [u 0x2567],
    [u 0x2568], [u 0x2564], [u 0x2565], [u 0x2559], [u 0x2558], [u 0x2552], [u 0x2553], [u 0x256B],
    [u 0x256A], [u 0x2518], [u 0x250C], [u 0x2588], [u 0x2584], [u 0x258C], [u 0x2590], [u 0x2580],
    [u 0x3B1], [u 0xDF], [u 0x393], [u 0x3C0], [u 0x3A3], [u 0x3C3], [u 0xB5], [u 0x3C4],
    [u 0x3A6], [u 0x398], [u 0x3A9], [u 0x3B4], [u 0x221E], [u 0x3C6], [u 0x3B5], [u 0x2229],
    [u 0x2261], [u 0xB1], [u 0x2265], [u 0x2264], [u 0x2320], [u 0x2321], [u 0xF7], [u 0x2248],
    [u 0xB0], [u 0x2219], [u 0xB7], [u 0x221A], [u 0x207F], [u 0xB2], [u 0x25A0], [u 0xA0] ]

/-- decoder/codepage_5_pc865.rs:4-16 (PC865: Nordic) -/
def table865 : List Str :=
  [
    [u 0xC7], [u 0xFC], [u 0xE9], [u 0xE2], [u 0xE4], [u 0xE0], [u 0xE5], [u 0xE7],
    [u 0xEA], [u 0xEB], [u 0xE8], [u 0xEF], [u 0xEE], [u 0xEC], [u 0xC4], [u 0xC5],
    [u 0xC9], [u 0xE6], [u 0xC6], [u 0xF4], [u 0xF6], [u 0xF2], [u 0xFB], [u 0xF9],
    [u 0xFF], [u 0xD6], [u 0xDC], [u 0xF8], [u 0xA3], [u 0xD8], [u 0xD7], [u 0x192],
    [u 0xE1], [u 0xED], [u 0xF3], [u 0xFA], [u 0xF1], [u 0xD1], [u 0xAA], [u 0xBA],
    [u 0xBF], [u 0xAE], [u 0xAC], [u 0xBD], [u 0xBC], [u 0xA1], [u 0xAB], [u 0xA4],
    [u 0x2591], [u 0x2592], [u 0x2593], [u 0x2502], [u 0x2524], [u 0xC1], [u 0xC2], [u 0xC0],
    [u 0xA9], [u 0x2563], [u 0x2551], [u 0x2557], [u 0x255D], [u 0xA2], [u 0xA5], [u 0x2510],
    [u 0x2514], [u 0x2534], [u 0x252C], [u 0x251C], [u 0x2500], [u 0x253C], [u 0x255E], [u 0x255F],
    [u 0x255A], [u 0x2554], [u 0x2569], [u 0x2566], [u 0x2560], [u 0x2550], [u 0x256C], [u 0x2567],
    [u 0x2568], [u 0x2564], [u 0x2565], [u 0x2559], [u 0x2558], [u 0x2552], [u 0x2553], [u 0x256B],
    [u 0x256A], [u 0x2518], [u 0x250C], [u 0x2588], [u 0x2584], [u 0x258C], [u 0x2590], [u 0x2580],
    [u 0x3B1], [u 0xDF], [u 0x393], [u 0x3C0], [u 0x3A3], [u 0x3C3], [u 0xB5], [u 0x3C4],
    [u 0x3A6], [u 0x398], [u 0x3A9], [u 0x3B4], [u 0x221E], [u 0x3C6], [u 0x3B5], [u 0x2229],
    [u 0x2261], [u 0xB1], [u 0x2265], [u 0x2264], [u 0x2320], [u 0x2321], [u 0xF7], [u 0x2248],
    [u 0xB0], [u 0x2219], [u 0xB7], [u 0x221A], [u 0x207F], [u 0xB2], [u 0x25A0], [u 0xA0] ]

/-- decoder/codepage_11_pc851.rs:4-16 (PC851: Greek) -/
def table851 : List Str :=
  [
    [u 0xC7], [u 0xFC], [u 0xE9], [u 0xE2], [u 0xE4], [u 0xE0], [u 0x386], [u 0xE7],
    [u 0xEA], [u 0xEB], [u 0xE8], [u 0xEF], [u 0xEE], [u 0x388], [u 0xC4], [u 0x389],
    [u 0x38A], [], [u 0x38C], [u 0xF4], [u 0xF6], [u 0x38E], [u 0xFB], [u 0xF9],
    [u 0x38F], [u 0xD6], [u 0xDC], [u 0x3AC], [u 0xA3], [u 0x3AD], [u 0x3AE], [u 0x3AF],
    [u 0x3CA], [u 0x390], [u 0x3CC], [u 0x3CD], [u 0x391], [u 0x392], [u 0x393], [u 0x394],
    [u 0x395], [u 0x396], [u 0x397], [u 0xBD], [u 0x398], [u 0x399], [u 0xAB], [u 0xBB],
    [u 0x2591], [u 0x2592], [u 0x2593], [u 0x2502], [u 0x2524], [u 0x39A], [u 0x39B], [u 0x39C],
    [u 0x39D], [u 0x2563], [u 0x2551], [u 0x2557], [u 0x255D], [u 0x39E], [u 0x39F], [u 0x2510],
    [u 0x2514], [u 0x2534], [u 0x252C], [u 0x251C], [u 0x2500], [u 0x253C], [u 0x3A0], [u 0x3A1],
    [u 0x255A], [u 0x2554], [u 0x2569], [u 0x2566], [u 0x2560], [u 0x2550], [u 0x256C], [u 0x3A3],
    [u 0x3A4], [u 0x3A5], [u 0x3A6], [u 0x3A7], [u 0x3A8], [u 0x3A9], [u 0x3B1], [u 0x3B2],
    [u 0x3B3], [u 0x2518], [u 0x250C], [u 0x2588], [u 0x2584], [u 0x3B4], [u 0x3B5], [u 0x2580],
    [u 0x3B6], [u 0x3B7], [u 0x3B8], [u 0x3B9], [u 0x3BA], [u 0x3BB], [u 0x3BC], [u 0x3BD],
    [u 0x3BE], [u 0x3BF], [u 0x3C0], [u 0x3C1], [u 0x3C3], [u 0x3C2], [u 0x3C4], [u 0xB4],
    [u 0xAD], [u 0xB1], [u 0x3C5], [u 0x3C6], [u 0x3C7], [u 0xA7], [u 0x3C8], [u 0xB8],
    [u 0xB0], [u 0xA8], [u 0x3C9], [u 0x3CB], [u 0x3B0], [u 0x3CE], [u 0x25A0], [u 0xA0] ]

/-- decoder/codepage_12_pc853.rs:4-16 (PC853: Turkish) -/
def table853 : List Str :=
  [
    [u 0xC7], [u 0xFC], [u 0xE9], [u 0xE2], [u 0xE4], [u 0xE0], [u 0x109], [u 0xE7],
    [u 0xEA], [u 0xEB], [u 0xE8], [u 0xEF], [u 0xEE], [u 0xEC], [u 0xC4], [u 0x108],
    [u 0xC9], [u 0x10B], [u 0x10A], [u 0xF4], [u 0xF6], [u 0xF2], [u 0xFB], [u 0xF9],
    [u 0x130], [u 0xD6], [u 0xDC], [u 0x11D], [u 0xA3], [u 0x11C], [u 0xD7], [u 0x135],
    [u 0xE1], [u 0xED], [u 0xF3], [u 0xFA], [u 0xF1], [u 0xD1], [u 0x11E], [u 0x11F],
    [u 0x124], [u 0x125], [], [u 0xBD], [u 0x134], [u 0x15F], [u 0xAB], [u 0xBB],
    [u 0x2591], [u 0x2592], [u 0x2593], [u 0x2502], [u 0x2524], [u 0xC1], [u 0xC2], [u 0xC0],
    [u 0x15E], [u 0x2563], [u 0x2551], [u 0x2557], [u 0x255D], [u 0x17B], [u 0x17C], [u 0x2510],
    [u 0x2514], [u 0x2534], [u 0x252C], [u 0x251C], [u 0x2500], [u 0x253C], [u 0x15C], [u 0x15D],
    [u 0x255A], [u 0x2554], [u 0x2569], [u 0x2566], [u 0x2560], [u 0x2550], [u 0x256C], [u 0xA4],
    [], [], [u 0xCA], [u 0xCB], [u 0xC8], [u 0x131], [u 0xCD], [u 0xCE],
    [u 0xCF], [u 0x2518], [u 0x250C], [u 0x2588], [u 0x2584], [], [u 0xCC], [u 0x2580],
    [u 0xD3], [u 0xDF], [u 0xD4], [u 0xD2], [u 0x120], [u 0x121], [u 0xB5], [u 0x126],
    [u 0x127], [u 0xDA], [u 0xDB], [u 0xD9], [u 0x16C], [u 0x16D], [u 0xB7], [u 0xB4],
    [u 0xAD], [], [u 0x2113], [u 0x149], [u 0x2D8], [u 0xA7], [u 0xF7], [u 0xB8],
    [u 0xB0], [u 0xA8], [u 0x2D9], [], [u 0xB3], [u 0xB2], [u 0x25A0], [u 0xA0] ]

/-- decoder/codepage_13_pc857.rs:4-16 (PC857: Turkish) -/
def table857 : List Str :=
  [
    [u 0xC7], [u 0xFC], [u 0xE9], [u 0xE2], [u 0xE4], [u 0xE0], [u 0xE5], [u 0xE7],
    [u 0xEA], [u 0xEB], [u 0xE8], [u 0xEF], [u 0xEE], [u 0x131], [u 0xC4], [u 0xC5],
    [u 0xC9], [u 0xE6], [u 0xC6], [u 0xF4], [u 0xF6], [u 0xF2], [u 0xFB], [u 0xF9],
    [u 0x130], [u 0xD6], [u 0xDC], [u 0xF8], [u 0xA3], [u 0xD8], [u 0x15E], [u 0x15F],
    [u 0xE1], [u 0xED], [u 0xF3], [u 0xFA], [u 0xF1], [u 0xD1], [u 0x11E], [u 0x11F],
    [u 0xBF], [u 0xAE], [u 0xAC], [u 0xBD], [u 0xBC], [u 0xA1], [u 0xAB], [u 0xBB],
    [u 0x2591], [u 0x2592], [u 0x2593], [u 0x2502], [u 0x2524], [u 0xC1], [u 0xC2], [u 0xC0],
    [u 0xA9], [u 0x2563], [u 0x2551], [u 0x2557], [u 0x255D], [u 0xA2], [u 0xA5], [u 0x2510],
    [u 0x2514], [u 0x2534], [u 0x252C], [u 0x251C], [u 0x2500], [u 0x253C], [u 0xE3], [u 0xC3],
    [u 0x255A], [u 0x2554], [u 0x2569], [u 0x2566], [u 0x2560], [u 0x2550], [u 0x256C], [u 0xA4],
    [u 0xBA], [u 0xAA], [u 0xCA], [u 0xCB], [u 0xC8], [u 0x20AC], [u 0xCD], [u 0xCE],
    [u 0xCF], [u 0x2518], [u 0x250C], [u 0x2588], [u 0x2584], [u 0xA6], [u 0xCC], [u 0x2580],
    [u 0xD3], [u 0xDF], [u 0xD4], [u 0xD2], [u 0xF5], [u 0xD5], [u 0xB5], [],
    [u 0xD7], [u 0xDA], [u 0xDB], [u 0xD9], [u 0xEC], [u 0xFF], [u 0xAF], [u 0xB4],
    [u 0xAD], [u 0xB1], [], [u 0xBE], [u 0xB6], [u 0xA7], [u 0xF7], [u 0xB8],
    [u 0xB0], [u 0xA8], [u 0xB7], [u 0xB9], [u 0xB3], [u 0xB2], [u 0x25A0], [u 0xA0] ]

/-- decoder/international.rs:3-3 (Us English) -/
def langUsa : List (Byte × Str) :=
  []

/-- decoder/international.rs:5-19 (French) -/
def langFrance : List (Byte × Str) :=
  [(0x40, [u 0xE0]), (0x5B, [u 0xE7]), (0x5C, [u 0xA7]), (0x5D, [u 0x5E]), (0x5E, [u 0xE9]), (0x60, [u 0xF9]), (0x7B, [u 0xE8]), (0x7C, [u 0xA8]), (0x7D, [u 0xFB]), (0x7E, [u 0xFC])]

/-- decoder/international.rs:21-33 (German) -/
def langGermany : List (Byte × Str) :=
  [(0x40, [u 0xA7]), (0x5B, [u 0xC4]), (0x5C, [u 0xD6]), (0x5D, [u 0xDC]), (0x60, [u 0xE4]), (0x7B, [u 0xF6]), (0x7C, [u 0xFC]), (0x7D, [u 0xDF])]

/-- decoder/international.rs:35-35 (British English) -/
def langUk : List (Byte × Str) :=
  [(0x23, [u 0xA3])]

/-- decoder/international.rs:37-51 (Danish Variant I) -/
def langDenmarkI : List (Byte × Str) :=
  [(0x40, [u 0xC4]), (0x5B, [u 0xC6]), (0x5C, [u 0xD8]), (0x5D, [u 0xC5]), (0x5E, [u 0x5E]), (0x60, [u 0xE4]), (0x7B, [u 0xE6]), (0x7C, [u 0xF8]), (0x7D, [u 0xE5]), (0x7E, [u 0x7E])]

/-- decoder/international.rs:53-67 (Swedish) -/
def langSweden : List (Byte × Str) :=
  [(0x40, [u 0xC9]), (0x5B, [u 0xC4]), (0x5C, [u 0xD6]), (0x5D, [u 0xC5]), (0x5E, [u 0xDC]), (0x60, [u 0xE9]), (0x7B, [u 0xE4]), (0x7C, [u 0xF6]), (0x7D, [u 0xE5]), (0x7E, [u 0xFC])]

/-- decoder/international.rs:69-81 (Italian) -/
def langItaly : List (Byte × Str) :=
  [(0x40, [u 0xA7]), (0x5C, [u 0xF9]), (0x5E, [u 0xE9]), (0x60, [u 0xE0]), (0x7B, [u 0xF2]), (0x7C, [u 0xE7]), (0x7D, [u 0xE8]), (0x7E, [u 0xEC])]

/-- decoder/international.rs:83-95 (Spanish Variant I) -/
def langSpainI : List (Byte × Str) :=
  [(0x40, [u 0xD1]), (0x5B, [u 0xA1]), (0x5C, [u 0xBF]), (0x5D, [u 0xE7]), (0x7B, [u 0xF1]), (0x7C, [u 0xAC]), (0x7D, [u 0xBD]), (0x7E, [u 0xBC])]

/-- decoder/international.rs:97-97 (Japanese) -/
def langJapan : List (Byte × Str) :=
  [(0x5C, [u 0xA5]), (0x7C, [u 0xA6])]

/-- decoder/international.rs:99-113 (Norwegian) -/
def langNorway : List (Byte × Str) :=
  [(0x40, [u 0xC4]), (0x5B, [u 0xC6]), (0x5C, [u 0xD8]), (0x5D, [u 0xC5]), (0x5E, [u 0xDC]), (0x60, [u 0xE4]), (0x7B, [u 0xE6]), (0x7C, [u 0xF8]), (0x7D, [u 0xE5]), (0x7E, [u 0xFC])]

/-- decoder/international.rs:115-129 (Danish Variant II) -/
def langDenmarkIi : List (Byte × Str) :=
  [(0x40, [u 0xC9]), (0x5B, [u 0xC6]), (0x5C, [u 0xD8]), (0x5D, [u 0xC5]), (0x5E, [u 0xDC]), (0x60, [u 0xE9]), (0x7B, [u 0xE6]), (0x7C, [u 0xF8]), (0x7D, [u 0xE5]), (0x7E, [u 0xFC])]

/-- decoder/international.rs:131-145 (Spanish Variant II) -/
def langSpainIi : List (Byte × Str) :=
  [(0x40, [u 0xE1]), (0x5B, [u 0xED]), (0x5C, [u 0xD1]), (0x5D, [u 0xD3]), (0x5E, [u 0xDA]), (0x60, [u 0xF1]), (0x7B, [u 0xE1]), (0x7C, [u 0xED]), (0x7D, [u 0xF3]), (0x7E, [u 0xFA])]

/-- decoder/international.rs:147-161 (Latin) -/
def langLatinAmerica : List (Byte × Str) :=
  [(0x40, [u 0xE1]), (0x5B, [u 0xED]), (0x5C, [u 0xD1]), (0x5D, [u 0xD3]), (0x5E, [u 0xDA]), (0x60, [u 0xF1]), (0x7B, [u 0xE9]), (0x7C, [u 0xED]), (0x7D, [u 0xF3]), (0x7E, [u 0xFA])]

/-- decoder/international.rs:163-163 (Korean) -/
def langKorea : List (Byte × Str) :=
  [(0x5C, [u 0x20A9]), (0x7C, [u 0x20A9])]

/-- decoder/international.rs:165-175 (Slovenian) -/
def langSlovenia : List (Byte × Str) :=
  [(0x5B, [u 0x160]), (0x5C, [u 0x110]), (0x5D, [u 0x10C]), (0x7B, [u 0x17E]), (0x7C, [u 0x111]), (0x7D, [u 0x10D])]

/-- decoder/international.rs:177-177 (Chinese) -/
def langChina : List (Byte × Str) :=
  [(0x5C, [u 0xA5])]

/-- decoder/international.rs:179-179 (Vietnamese) -/
def langVietnam : List (Byte × Str) :=
  [(0x23, [u 0x111])]

/-- decoder/international.rs:181-181 (Arabic) -/
def langArabia : List (Byte × Str) :=
  [(0x2A, [u 0x66D])]

/-- decoder/international.rs:183-197 (Devengari) -/
def langDevanagari : List (Byte × Str) :=
  [(0x30, [u 0x966]), (0x31, [u 0x967]), (0x32, [u 0x968]), (0x33, [u 0x969]), (0x34, [u 0x96A]), (0x35, [u 0x96B]), (0x36, [u 0x96C]), (0x37, [u 0x96D]), (0x38, [u 0x96E]), (0x39, [u 0x96F])]

/-- decoder/international.rs:199-213 (Bengali) -/
def langBengali : List (Byte × Str) :=
  [(0x30, [u 0x9E6]), (0x31, [u 0x9E7]), (0x32, [u 0x9E8]), (0x33, [u 0x9E9]), (0x34, [u 0x9EA]), (0x35, [u 0x9EB]), (0x36, [u 0x9EC]), (0x37, [u 0x9ED]), (0x38, [u 0x9EE]), (0x39, [u 0x9EF])]

/-- decoder/international.rs:215-229 (Tamil) -/
def langTamil : List (Byte × Str) :=
  [(0x30, [u 0xBE6]), (0x31, [u 0xBE7]), (0x32, [u 0xBE8]), (0x33, [u 0xBE9]), (0x34, [u 0xBEA]), (0x35, [u 0xBEB]), (0x36, [u 0xBEC]), (0x37, [u 0xBED]), (0x38, [u 0xBEE]), (0x39, [u 0xBEF])]

/-- decoder/international.rs:231-245 (Telugu) -/
def langTelugu : List (Byte × Str) :=
  [(0x30, [u 0xC66]), (0x31, [u 0xC67]), (0x32, [u 0xC68]), (0x33, [u 0xC69]), (0x34, [u 0xC6A]), (0x35, [u 0xC6B]), (0x36, [u 0xC6C]), (0x37, [u 0xC6D]), (0x38, [u 0xC6E]), (0x39, [u 0xC6F])]

/-- decoder/international.rs:247-261 (Assamese) -/
def langAssamese : List (Byte × Str) :=
  [(0x30, [u 0x9E6]), (0x31, [u 0x9E7]), (0x32, [u 0x9E8]), (0x33, [u 0x9E9]), (0x34, [u 0x9EA]), (0x35, [u 0x9EB]), (0x36, [u 0x9EC]), (0x37, [u 0x9ED]), (0x38, [u 0x9EE]), (0x39, [u 0x9EF])]

/-- decoder/international.rs:263-277 (Oriya) -/
def langOriya : List (Byte × Str) :=
  [(0x30, [u 0xB66]), (0x31, [u 0xB67]), (0x32, [u 0xB68]), (0x33, [u 0xB69]), (0x34, [u 0xB6A]), (0x35, [u 0xB6B]), (0x36, [u 0xB6C]), (0x37, [u 0xB6D]), (0x38, [u 0xB6E]), (0x39, [u 0xB6F])]

/-- decoder/international.rs:279-293 (Kannada) -/
def langKannada : List (Byte × Str) :=
  [(0x30, [u 0xCE6]), (0x31, [u 0xCE7]), (0x32, [u 0xCE8]), (0x33, [u 0xCE9]), (0x34, [u 0xCEA]), (0x35, [u 0xCEB]), (0x36, [u 0xCEC]), (0x37, [u 0xCED]), (0x38, [u 0xCEE]), (0x39, [u 0xCEF])]

/-- decoder/international.rs:295-309 (Malayalam) -/
def langMalayalam : List (Byte × Str) :=
  [(0x30, [u 0xD66]), (0x31, [u 0xD67]), (0x32, [u 0xD68]), (0x33, [u 0xD69]), (0x34, [u 0xD6A]), (0x35, [u 0xD6B]), (0x36, [u 0xD6C]), (0x37, [u 0xD6D]), (0x38, [u 0xD6E]), (0x39, [u 0xD6F])]

/-- decoder/international.rs:311-325 (Gujarati) -/
def langGujarati : List (Byte × Str) :=
  [(0x30, [u 0xAE6]), (0x31, [u 0xAE7]), (0x32, [u 0xAE8]), (0x33, [u 0xAE9]), (0x34, [u 0xAEA]), (0x35, [u 0xAEB]), (0x36, [u 0xAEC]), (0x37, [u 0xAED]), (0x38, [u 0xAEE]), (0x39, [u 0xAEF])]

/-- decoder/international.rs:327-341 (Punjabi) -/
def langPunjabi : List (Byte × Str) :=
  [(0x30, [u 0xA66]), (0x31, [u 0xA67]), (0x32, [u 0xA68]), (0x33, [u 0xA69]), (0x34, [u 0xA6A]), (0x35, [u 0xA6B]), (0x36, [u 0xA6C]), (0x37, [u 0xA6D]), (0x38, [u 0xA6E]), (0x39, [u 0xA6F])]

/-- decoder/international.rs:343-357 (Marathi) -/
def langMarathi : List (Byte × Str) :=
  [(0x30, [u 0x966]), (0x31, [u 0x967]), (0x32, [u 0x968]), (0x33, [u 0x969]), (0x34, [u 0x96A]), (0x35, [u 0x96B]), (0x36, [u 0x96C]), (0x37, [u 0x96D]), (0x38, [u 0x96E]), (0x39, [u 0x96F])]

end Thermal
