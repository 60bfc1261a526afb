import Verif.LR.TrieInt
/-! Generated by tools/genplan.py. How every state of the automaton can be completed. Proof-internal data, checked by the kernel. -/
set_option maxRecDepth 100000
set_option linter.all false
namespace Verif.LR
def plRT : BT Nat := (.node 512 (.node 256 (.node 128 (.node 64 (.node 32 (.node 16 (.node 8 (.node 4 (.node 2 (.node 1 (.leaf 0x0) (.leaf 0x6a)) (.node 1 (.leaf 0x72) (.leaf 0x21))) (.node 2 (.node 1 (.leaf 0x1f) (.leaf 0x36)) (.node 1 (.leaf 0x39) (.leaf 0x71)))) (.node 4 (.node 2 (.node 1 (.leaf 0x23) (.leaf 0x74)) (.node 1 (.leaf 0x77) (.leaf 0x6e))) (.node 2 (.node 1 (.leaf 0x24) (.leaf 0x68)) (.node 1 (.leaf 0x34) (.leaf 0x150))))) (.node 8 (.node 4 (.node 2 (.node 1 (.leaf 0x1a) (.leaf 0x1c)) (.node 1 (.leaf 0x1b) (.leaf 0x1))) (.node 2 (.node 1 (.leaf 0x2) (.leaf 0x3)) (.node 1 (.leaf 0x6) (.leaf 0x13)))) (.node 4 (.node 2 (.node 1 (.leaf 0x5) (.leaf 0x12)) (.node 1 (.leaf 0x8) (.leaf 0x9))) (.node 2 (.node 1 (.leaf 0x7) (.leaf 0xb)) (.node 1 (.leaf 0x10) (.leaf 0x11)))))) (.node 16 (.node 8 (.node 4 (.node 2 (.node 1 (.leaf 0xd) (.leaf 0xe)) (.node 1 (.leaf 0xc) (.leaf 0xf))) (.node 2 (.node 1 (.leaf 0xa) (.leaf 0x7c)) (.node 1 (.leaf 0x14e) (.leaf 0x6a)))) (.node 4 (.node 2 (.node 1 (.leaf 0x135) (.leaf 0x72)) (.node 1 (.leaf 0x21) (.leaf 0x1f))) (.node 2 (.node 1 (.leaf 0x36) (.leaf 0x3a)) (.node 1 (.leaf 0x39) (.leaf 0x3b))))) (.node 8 (.node 4 (.node 2 (.node 1 (.leaf 0x71) (.leaf 0x23)) (.node 1 (.leaf 0x74) (.leaf 0x77))) (.node 2 (.node 1 (.leaf 0x134) (.leaf 0x6e)) (.node 1 (.leaf 0x82) (.leaf 0x33)))) (.node 4 (.node 2 (.node 1 (.leaf 0x24) (.leaf 0x6b)) (.node 1 (.leaf 0x68) (.leaf 0x69))) (.node 2 (.node 1 (.leaf 0x35) (.leaf 0x34)) (.node 1 (.leaf 0x153) (.leaf 0x150))))))) (.node 32 (.node 16 (.node 8 (.node 4 (.node 2 (.node 1 (.leaf 0x151) (.leaf 0x1d)) (.node 1 (.leaf 0x1a) (.leaf 0x1c))) (.node 2 (.node 1 (.leaf 0x1b) (.leaf 0x0)) (.node 1 (.leaf 0x4) (.leaf 0x2)))) (.node 4 (.node 2 (.node 1 (.leaf 0x14) (.leaf 0x6)) (.node 1 (.leaf 0x5) (.leaf 0x8c))) (.node 2 (.node 1 (.leaf 0x7b) (.leaf 0x7c)) (.node 1 (.leaf 0x84) (.leaf 0x6a))))) (.node 8 (.node 4 (.node 2 (.node 1 (.leaf 0x136) (.leaf 0x22)) (.node 1 (.leaf 0x1f) (.leaf 0x3c))) (.node 2 (.node 1 (.leaf 0x3a) (.leaf 0x39)) (.node 1 (.leaf 0x3b) (.leaf 0x71)))) (.node 4 (.node 2 (.node 1 (.leaf 0x25) (.leaf 0x23)) (.node 1 (.leaf 0x74) (.leaf 0x77))) (.node 2 (.node 1 (.leaf 0x6c) (.leaf 0x6e)) (.node 1 (.leaf 0x83) (.leaf 0x82)))))) (.node 16 (.node 8 (.node 4 (.node 2 (.node 1 (.leaf 0x33) (.leaf 0x24)) (.node 1 (.leaf 0x32) (.leaf 0x6b))) (.node 2 (.node 1 (.leaf 0x68) (.leaf 0x69)) (.node 1 (.leaf 0x35) (.leaf 0x153)))) (.node 4 (.node 2 (.node 1 (.leaf 0x152) (.leaf 0x4)) (.node 1 (.leaf 0x14) (.leaf 0xa3))) (.node 2 (.node 1 (.leaf 0x8c) (.leaf 0x88)) (.node 1 (.leaf 0x89) (.leaf 0x87))))) (.node 8 (.node 4 (.node 2 (.node 1 (.leaf 0x7d) (.leaf 0x86)) (.node 1 (.leaf 0x99) (.leaf 0x85))) (.node 2 (.node 1 (.leaf 0x84) (.leaf 0x136)) (.node 1 (.leaf 0x11f) (.leaf 0x122)))) (.node 4 (.node 2 (.node 1 (.leaf 0x124) (.leaf 0xb2)) (.node 1 (.leaf 0x126) (.leaf 0x125))) (.node 2 (.node 1 (.leaf 0x129) (.leaf 0x120)) (.node 1 (.leaf 0x121) (.leaf 0xb4)))))))) (.node 64 (.node 32 (.node 16 (.node 8 (.node 4 (.node 2 (.node 1 (.leaf 0x12a) (.leaf 0x22)) (.node 1 (.leaf 0xad) (.leaf 0xaf))) (.node 2 (.node 1 (.leaf 0xb1) (.leaf 0xb3)) (.node 1 (.leaf 0x118) (.leaf 0x119)))) (.node 4 (.node 2 (.node 1 (.leaf 0x11a) (.leaf 0x123)) (.node 1 (.leaf 0x11b) (.leaf 0x11c))) (.node 2 (.node 1 (.leaf 0x11d) (.leaf 0x11e)) (.node 1 (.leaf 0x20) (.leaf 0x1f))))) (.node 8 (.node 4 (.node 2 (.node 1 (.leaf 0x3c) (.leaf 0x137)) (.node 1 (.leaf 0x3a) (.leaf 0x39))) (.node 2 (.node 1 (.leaf 0x3b) (.leaf 0x93)) (.node 1 (.leaf 0x71) (.leaf 0x23)))) (.node 4 (.node 2 (.node 1 (.leaf 0x75) (.leaf 0x74)) (.node 1 (.leaf 0x7a) (.leaf 0x77))) (.node 2 (.node 1 (.leaf 0x78) (.leaf 0x6c)) (.node 1 (.leaf 0x6e) (.leaf 0x83)))))) (.node 16 (.node 8 (.node 4 (.node 2 (.node 1 (.leaf 0x82) (.leaf 0x26)) (.node 1 (.leaf 0x33) (.leaf 0x24))) (.node 2 (.node 1 (.leaf 0x32) (.leaf 0x6b)) (.node 1 (.leaf 0x68) (.leaf 0x69)))) (.node 4 (.node 2 (.node 1 (.leaf 0x153) (.leaf 0x152)) (.node 1 (.leaf 0x14) (.leaf 0x124))) (.node 2 (.node 1 (.leaf 0xa3) (.leaf 0x8d)) (.node 1 (.leaf 0x8c) (.leaf 0x7d))))) (.node 8 (.node 4 (.node 2 (.node 1 (.leaf 0x7f) (.leaf 0x7e)) (.node 1 (.leaf 0x80) (.leaf 0x8a))) (.node 2 (.node 1 (.leaf 0x86) (.leaf 0x99)) (.node 1 (.leaf 0x85) (.leaf 0xa6)))) (.node 4 (.node 2 (.node 1 (.leaf 0xa5) (.leaf 0x84)) (.node 1 (.leaf 0x103) (.leaf 0x104))) (.node 2 (.node 1 (.leaf 0x105) (.leaf 0x106)) (.node 1 (.leaf 0x107) (.leaf 0x108))))))) (.node 32 (.node 16 (.node 8 (.node 4 (.node 2 (.node 1 (.leaf 0x109) (.leaf 0x10a)) (.node 1 (.leaf 0x10b) (.leaf 0x10c))) (.node 2 (.node 1 (.leaf 0x10d) (.leaf 0x10e)) (.node 1 (.leaf 0x10f) (.leaf 0x110)))) (.node 4 (.node 2 (.node 1 (.leaf 0x127) (.leaf 0xb2)) (.node 1 (.leaf 0x126) (.leaf 0x129))) (.node 2 (.node 1 (.leaf 0xb4) (.leaf 0xb5)) (.node 1 (.leaf 0x22) (.leaf 0xb0))))) (.node 8 (.node 4 (.node 2 (.node 1 (.leaf 0x3c) (.leaf 0x3a)) (.node 1 (.leaf 0x37) (.leaf 0x39))) (.node 2 (.node 1 (.leaf 0x38) (.leaf 0x3b)) (.node 1 (.leaf 0xee) (.leaf 0xe5)))) (.node 4 (.node 2 (.node 1 (.leaf 0x101) (.leaf 0x102)) (.node 1 (.leaf 0xe1) (.leaf 0xca))) (.node 2 (.node 1 (.leaf 0x111) (.leaf 0xc9)) (.node 1 (.leaf 0x116) (.leaf 0xbc)))))) (.node 16 (.node 8 (.node 4 (.node 2 (.node 1 (.leaf 0x93) (.leaf 0xb7)) (.node 1 (.leaf 0xbe) (.leaf 0xbf))) (.node 2 (.node 1 (.leaf 0xc0) (.leaf 0xb9)) (.node 1 (.leaf 0xbb) (.leaf 0xc1)))) (.node 4 (.node 2 (.node 1 (.leaf 0xba) (.leaf 0xce)) (.node 1 (.leaf 0xc2) (.leaf 0xc3))) (.node 2 (.node 1 (.leaf 0xc4) (.leaf 0xc5)) (.node 1 (.leaf 0xbd) (.leaf 0xb8))))) (.node 8 (.node 4 (.node 2 (.node 1 (.leaf 0xc7) (.leaf 0xc8)) (.node 1 (.leaf 0x23) (.leaf 0x164))) (.node 2 (.node 1 (.leaf 0x75) (.leaf 0x73)) (.node 1 (.leaf 0x74) (.leaf 0x7a)))) (.node 4 (.node 2 (.node 1 (.leaf 0x79) (.leaf 0x77)) (.node 1 (.leaf 0x70) (.leaf 0x6e))) (.node 2 (.node 1 (.leaf 0x6f) (.leaf 0x27)) (.node 1 (.leaf 0x28) (.leaf 0x33))))))))) (.node 128 (.node 64 (.node 32 (.node 16 (.node 8 (.node 4 (.node 2 (.node 1 (.leaf 0x24) (.leaf 0x32)) (.node 1 (.leaf 0x18) (.leaf 0x14))) (.node 2 (.node 1 (.leaf 0x16) (.leaf 0x8c)) (.node 1 (.leaf 0x8f) (.leaf 0xab)))) (.node 4 (.node 2 (.node 1 (.leaf 0xb6) (.leaf 0x7d)) (.node 1 (.leaf 0x81) (.leaf 0x99))) (.node 2 (.node 1 (.leaf 0x9b) (.leaf 0x9d)) (.node 1 (.leaf 0x85) (.leaf 0xa6))))) (.node 8 (.node 4 (.node 2 (.node 1 (.leaf 0xa8) (.leaf 0xa5)) (.node 1 (.leaf 0x145) (.leaf 0x84))) (.node 2 (.node 1 (.leaf 0x141) (.leaf 0x143)) (.node 1 (.leaf 0xb2) (.leaf 0x128)))) (.node 4 (.node 2 (.node 1 (.leaf 0xb0) (.leaf 0x3a)) (.node 1 (.leaf 0x37) (.leaf 0x39))) (.node 2 (.node 1 (.leaf 0x42) (.leaf 0x65)) (.node 1 (.leaf 0x64) (.leaf 0x66)))))) (.node 16 (.node 8 (.node 4 (.node 2 (.node 1 (.leaf 0x38) (.leaf 0x3e)) (.node 1 (.leaf 0x40) (.leaf 0x41))) (.node 2 (.node 1 (.leaf 0x3b) (.leaf 0xee)) (.node 1 (.leaf 0x115) (.leaf 0xe5)))) (.node 4 (.node 2 (.node 1 (.leaf 0x101) (.leaf 0x102)) (.node 1 (.leaf 0xe3) (.leaf 0xdf))) (.node 2 (.node 1 (.leaf 0xe1) (.leaf 0xe6)) (.node 1 (.leaf 0xca) (.leaf 0xca))))) (.node 8 (.node 4 (.node 2 (.node 1 (.leaf 0x111) (.leaf 0xc9)) (.node 1 (.leaf 0xc6) (.leaf 0xbc))) (.node 2 (.node 1 (.leaf 0xd9) (.leaf 0xda)) (.node 1 (.leaf 0x113) (.leaf 0xcb)))) (.node 4 (.node 2 (.node 1 (.leaf 0xd5) (.leaf 0xd6)) (.node 1 (.leaf 0xdb) (.leaf 0xcc))) (.node 2 (.node 1 (.leaf 0xd8) (.leaf 0xd7)) (.node 1 (.leaf 0xe7) (.leaf 0xe8))))))) (.node 32 (.node 16 (.node 8 (.node 4 (.node 2 (.node 1 (.leaf 0xe9) (.leaf 0xea)) (.node 1 (.leaf 0xeb) (.leaf 0xec))) (.node 2 (.node 1 (.leaf 0xed) (.leaf 0xd0)) (.node 1 (.leaf 0xcf) (.leaf 0xd2)))) (.node 4 (.node 2 (.node 1 (.leaf 0xd1) (.leaf 0xd3)) (.node 1 (.leaf 0xd4) (.leaf 0x112))) (.node 2 (.node 1 (.leaf 0x23) (.leaf 0x75)) (.node 1 (.leaf 0x165) (.leaf 0x73))))) (.node 8 (.node 4 (.node 2 (.node 1 (.leaf 0x7a) (.leaf 0x79)) (.node 1 (.leaf 0x70) (.leaf 0x27))) (.node 2 (.node 1 (.leaf 0x30) (.leaf 0x2d)) (.node 1 (.leaf 0x2b) (.leaf 0x31)))) (.node 4 (.node 2 (.node 1 (.leaf 0x28) (.leaf 0x2f)) (.node 1 (.leaf 0x24) (.leaf 0x19))) (.node 2 (.node 1 (.leaf 0x14) (.leaf 0x17)) (.node 1 (.leaf 0x92) (.leaf 0x8c)))))) (.node 16 (.node 8 (.node 4 (.node 2 (.node 1 (.leaf 0x90) (.leaf 0xac)) (.node 1 (.leaf 0x13e) (.leaf 0x13d))) (.node 2 (.node 1 (.leaf 0x13f) (.leaf 0xb6)) (.node 1 (.leaf 0x7d) (.leaf 0x81)))) (.node 4 (.node 2 (.node 1 (.leaf 0x9c) (.leaf 0x9f)) (.node 1 (.leaf 0x9e) (.leaf 0x9d))) (.node 2 (.node 1 (.leaf 0x85) (.leaf 0xa9)) (.node 1 (.leaf 0xa7) (.leaf 0x147))))) (.node 8 (.node 4 (.node 2 (.node 1 (.leaf 0x148) (.leaf 0x149)) (.node 1 (.leaf 0x14a) (.leaf 0x145))) (.node 2 (.node 1 (.leaf 0x144) (.leaf 0xb2)) (.node 1 (.leaf 0x3a) (.leaf 0x37)))) (.node 4 (.node 2 (.node 1 (.leaf 0x53) (.leaf 0x4d)) (.node 1 (.leaf 0x46) (.leaf 0x4f))) (.node 2 (.node 1 (.leaf 0x49) (.leaf 0x50)) (.node 1 (.leaf 0x43) (.leaf 0x54)))))))) (.node 64 (.node 32 (.node 16 (.node 8 (.node 4 (.node 2 (.node 1 (.leaf 0x4a) (.leaf 0x4b)) (.node 1 (.leaf 0x45) (.leaf 0x47))) (.node 2 (.node 1 (.leaf 0x48) (.leaf 0x4e)) (.node 1 (.leaf 0x51) (.leaf 0x52)))) (.node 4 (.node 2 (.node 1 (.leaf 0x4c) (.leaf 0x44)) (.node 1 (.leaf 0x42) (.leaf 0x65))) (.node 2 (.node 1 (.leaf 0x64) (.leaf 0x66)) (.node 1 (.leaf 0x38) (.leaf 0x3f))))) (.node 8 (.node 4 (.node 2 (.node 1 (.leaf 0x3b) (.leaf 0xee)) (.node 1 (.leaf 0xef) (.leaf 0x115))) (.node 2 (.node 1 (.leaf 0x117) (.leaf 0xe5)) (.node 1 (.leaf 0x101) (.leaf 0x102)))) (.node 4 (.node 2 (.node 1 (.leaf 0xe3) (.leaf 0xdf)) (.node 1 (.leaf 0xe2) (.leaf 0xe4))) (.node 2 (.node 1 (.leaf 0xe1) (.leaf 0xe6)) (.node 1 (.leaf 0xd6) (.leaf 0x111)))))) (.node 16 (.node 8 (.node 4 (.node 2 (.node 1 (.leaf 0xc6) (.leaf 0xbc)) (.node 1 (.leaf 0xd9) (.leaf 0xda))) (.node 2 (.node 1 (.leaf 0x113) (.leaf 0xd5)) (.node 1 (.leaf 0xd6) (.leaf 0xdc)))) (.node 4 (.node 2 (.node 1 (.leaf 0xdb) (.leaf 0xcc)) (.node 1 (.leaf 0xcd) (.leaf 0xd8))) (.node 2 (.node 1 (.leaf 0xd7) (.leaf 0xe7)) (.node 1 (.leaf 0xe8) (.leaf 0xe9))))) (.node 8 (.node 4 (.node 2 (.node 1 (.leaf 0xea) (.leaf 0xeb)) (.node 1 (.leaf 0xec) (.leaf 0xed))) (.node 2 (.node 1 (.leaf 0xd0) (.leaf 0xcf)) (.node 1 (.leaf 0xd2) (.leaf 0xd1)))) (.node 4 (.node 2 (.node 1 (.leaf 0xd3) (.leaf 0xd4)) (.node 1 (.leaf 0x112) (.leaf 0x23))) (.node 2 (.node 1 (.leaf 0x165) (.leaf 0x73)) (.node 1 (.leaf 0x70) (.leaf 0x27))))))) (.node 32 (.node 16 (.node 8 (.node 4 (.node 2 (.node 1 (.leaf 0x30) (.leaf 0x2d)) (.node 1 (.leaf 0x2b) (.leaf 0x31))) (.node 2 (.node 1 (.leaf 0x28) (.leaf 0x2a)) (.node 1 (.leaf 0x19) (.leaf 0x17)))) (.node 4 (.node 2 (.node 1 (.leaf 0x130) (.leaf 0x92)) (.node 1 (.leaf 0x12b) (.leaf 0x12d))) (.node 2 (.node 1 (.leaf 0x12c) (.leaf 0x12f)) (.node 1 (.leaf 0x133) (.leaf 0x12e))))) (.node 8 (.node 4 (.node 2 (.node 1 (.leaf 0x8c) (.leaf 0xac)) (.node 1 (.leaf 0x13d) (.leaf 0x9c))) (.node 2 (.node 1 (.leaf 0xa2) (.leaf 0x9d)) (.node 1 (.leaf 0x85) (.leaf 0xa9)))) (.node 4 (.node 2 (.node 1 (.leaf 0xa7) (.leaf 0x148)) (.node 1 (.leaf 0x14a) (.leaf 0x146))) (.node 2 (.node 1 (.leaf 0x14c) (.leaf 0x14b)) (.node 1 (.leaf 0x145) (.leaf 0xb2)))))) (.node 16 (.node 8 (.node 4 (.node 2 (.node 1 (.leaf 0x3a) (.leaf 0x37)) (.node 1 (.leaf 0x46) (.leaf 0x58))) (.node 2 (.node 1 (.leaf 0x49) (.leaf 0x54)) (.node 1 (.leaf 0x45) (.leaf 0x55)))) (.node 4 (.node 2 (.node 1 (.leaf 0x52) (.leaf 0x62)) (.node 1 (.leaf 0x63) (.leaf 0x61))) (.node 2 (.node 1 (.leaf 0x60) (.leaf 0x67)) (.node 1 (.leaf 0x42) (.leaf 0x5a))))) (.node 8 (.node 4 (.node 2 (.node 1 (.leaf 0x5c) (.leaf 0x5e)) (.node 1 (.leaf 0x65) (.leaf 0x64))) (.node 2 (.node 1 (.leaf 0x66) (.leaf 0x3f)) (.node 1 (.leaf 0xf2) (.leaf 0xee)))) (.node 4 (.node 2 (.node 1 (.leaf 0xef) (.leaf 0xf0)) (.node 1 (.leaf 0xe5) (.leaf 0x101))) (.node 2 (.node 1 (.leaf 0x102) (.leaf 0xe3)) (.node 1 (.leaf 0xe0) (.leaf 0xdf)))))))))) (.node 256 (.node 128 (.node 64 (.node 32 (.node 16 (.node 8 (.node 4 (.node 2 (.node 1 (.leaf 0xe2) (.leaf 0xe4)) (.node 1 (.leaf 0xe6) (.leaf 0x111))) (.node 2 (.node 1 (.leaf 0x113) (.leaf 0xd6)) (.node 1 (.leaf 0xdc) (.leaf 0xdd)))) (.node 4 (.node 2 (.node 1 (.leaf 0xdb) (.leaf 0xcd)) (.node 1 (.leaf 0x112) (.leaf 0x73))) (.node 2 (.node 1 (.leaf 0x70) (.leaf 0x27)) (.node 1 (.leaf 0x2c) (.leaf 0x2a))))) (.node 8 (.node 4 (.node 2 (.node 1 (.leaf 0x2e) (.leaf 0x19)) (.node 1 (.leaf 0x130) (.leaf 0x154))) (.node 2 (.node 1 (.leaf 0x15f) (.leaf 0x157)) (.node 1 (.leaf 0x15d) (.leaf 0x15b)))) (.node 4 (.node 2 (.node 1 (.leaf 0x15e) (.leaf 0x159)) (.node 1 (.leaf 0x155) (.leaf 0x12c))) (.node 2 (.node 1 (.leaf 0x13d) (.leaf 0x13b)) (.node 1 (.leaf 0x133) (.leaf 0x139)))))) (.node 16 (.node 8 (.node 4 (.node 2 (.node 1 (.leaf 0x95) (.leaf 0x8c)) (.node 1 (.leaf 0xa2) (.leaf 0x148))) (.node 2 (.node 1 (.leaf 0x146) (.leaf 0x14b)) (.node 1 (.leaf 0xb2) (.leaf 0x3a)))) (.node 4 (.node 2 (.node 1 (.leaf 0x46) (.leaf 0x58)) (.node 1 (.leaf 0x54) (.leaf 0x45))) (.node 2 (.node 1 (.leaf 0x55) (.leaf 0x63)) (.node 1 (.leaf 0x60) (.leaf 0x67))))) (.node 8 (.node 4 (.node 2 (.node 1 (.leaf 0x5d) (.leaf 0x5f)) (.node 1 (.leaf 0x65) (.leaf 0x64))) (.node 2 (.node 1 (.leaf 0x66) (.leaf 0xf2)) (.node 1 (.leaf 0xef) (.leaf 0xf0)))) (.node 4 (.node 2 (.node 1 (.leaf 0xf1) (.leaf 0x101)) (.node 1 (.leaf 0x102) (.leaf 0xe3))) (.node 2 (.node 1 (.leaf 0xe0) (.leaf 0xe2)) (.node 1 (.leaf 0xe4) (.leaf 0xe6))))))) (.node 32 (.node 16 (.node 8 (.node 4 (.node 2 (.node 1 (.leaf 0x113) (.leaf 0xde)) (.node 1 (.leaf 0xdc) (.leaf 0xdd))) (.node 2 (.node 1 (.leaf 0xdb) (.leaf 0x2c)) (.node 1 (.leaf 0x2a) (.leaf 0x130)))) (.node 4 (.node 2 (.node 1 (.leaf 0x154) (.leaf 0x15a)) (.node 1 (.leaf 0x15c) (.leaf 0x158))) (.node 2 (.node 1 (.leaf 0x155) (.leaf 0x12c)) (.node 1 (.leaf 0x13d) (.leaf 0x95))))) (.node 8 (.node 4 (.node 2 (.node 1 (.leaf 0x146) (.leaf 0x46)) (.node 1 (.leaf 0x58) (.leaf 0x57))) (.node 2 (.node 1 (.leaf 0x54) (.leaf 0x45)) (.node 1 (.leaf 0x55) (.leaf 0x67)))) (.node 4 (.node 2 (.node 1 (.leaf 0x64) (.leaf 0x66)) (.node 1 (.leaf 0xf4) (.leaf 0xf2))) (.node 2 (.node 1 (.leaf 0xef) (.leaf 0xf0)) (.node 1 (.leaf 0xf1) (.leaf 0x101)))))) (.node 16 (.node 8 (.node 4 (.node 2 (.node 1 (.leaf 0x102) (.leaf 0xe0)) (.node 1 (.leaf 0xe4) (.leaf 0xde))) (.node 2 (.node 1 (.leaf 0xdc) (.leaf 0x130)) (.node 1 (.leaf 0x154) (.leaf 0x155)))) (.node 4 (.node 2 (.node 1 (.leaf 0x13a) (.leaf 0x95)) (.node 1 (.leaf 0x57) (.leaf 0x66))) (.node 2 (.node 1 (.leaf 0xf4) (.leaf 0xf2)) (.node 1 (.leaf 0xf1) (.leaf 0x156))))) (.node 8 (.node 4 (.node 2 (.node 1 (.leaf 0x155) (.leaf 0x13a)) (.node 1 (.leaf 0x97) (.leaf 0x95))) (.node 2 (.node 1 (.leaf 0x57) (.leaf 0xf4)) (.node 1 (.leaf 0xf9) (.leaf 0xfa)))) (.node 4 (.node 2 (.node 1 (.leaf 0xfb) (.leaf 0xf2)) (.node 1 (.leaf 0xf6) (.leaf 0xf1))) (.node 2 (.node 1 (.leaf 0x156) (.leaf 0x161)) (.node 1 (.leaf 0x155) (.leaf 0x13a)))))))) (.node 64 (.node 32 (.node 16 (.node 8 (.node 4 (.node 2 (.node 1 (.leaf 0x97) (.leaf 0xf2)) (.node 1 (.leaf 0xfd) (.leaf 0xf7))) (.node 2 (.node 1 (.leaf 0xfc) (.leaf 0x100)) (.node 1 (.leaf 0xf6) (.leaf 0x156)))) (.node 4 (.node 2 (.node 1 (.leaf 0xff) (.leaf 0xfd)) (.node 1 (.leaf 0xf7) (.leaf 0xfe))) (.node 2 (.node 1 (.leaf 0xfc) (.leaf 0x156)) (.node 1 (.leaf 0xf7) (.leaf 0xf7))))) (.node 8 (.node 4 (.node 2 (.node 1 (.leaf 0x0) (.leaf 0x0)) (.node 1 (.leaf 0x0) (.leaf 0x0))) (.node 2 (.node 1 (.leaf 0x0) (.leaf 0x0)) (.node 1 (.leaf 0x0) (.leaf 0x0)))) (.node 4 (.node 2 (.node 1 (.leaf 0x0) (.leaf 0x0)) (.node 1 (.leaf 0x0) (.leaf 0x0))) (.node 2 (.node 1 (.leaf 0x0) (.leaf 0x0)) (.node 1 (.leaf 0x0) (.leaf 0x0)))))) (.node 16 (.node 8 (.node 4 (.node 2 (.node 1 (.leaf 0x0) (.leaf 0x0)) (.node 1 (.leaf 0x0) (.leaf 0x0))) (.node 2 (.node 1 (.leaf 0x0) (.leaf 0x0)) (.node 1 (.leaf 0x0) (.leaf 0x0)))) (.node 4 (.node 2 (.node 1 (.leaf 0x0) (.leaf 0x0)) (.node 1 (.leaf 0x0) (.leaf 0x0))) (.node 2 (.node 1 (.leaf 0x0) (.leaf 0x0)) (.node 1 (.leaf 0x0) (.leaf 0x0))))) (.node 8 (.node 4 (.node 2 (.node 1 (.leaf 0x0) (.leaf 0x0)) (.node 1 (.leaf 0x0) (.leaf 0x0))) (.node 2 (.node 1 (.leaf 0x0) (.leaf 0x0)) (.node 1 (.leaf 0x0) (.leaf 0x0)))) (.node 4 (.node 2 (.node 1 (.leaf 0x0) (.leaf 0x0)) (.node 1 (.leaf 0x0) (.leaf 0x0))) (.node 2 (.node 1 (.leaf 0x0) (.leaf 0x0)) (.node 1 (.leaf 0x0) (.leaf 0x0))))))) (.node 32 (.node 16 (.node 8 (.node 4 (.node 2 (.node 1 (.leaf 0x0) (.leaf 0x0)) (.node 1 (.leaf 0x0) (.leaf 0x0))) (.node 2 (.node 1 (.leaf 0x0) (.leaf 0x0)) (.node 1 (.leaf 0x0) (.leaf 0x0)))) (.node 4 (.node 2 (.node 1 (.leaf 0x0) (.leaf 0x0)) (.node 1 (.leaf 0x0) (.leaf 0x0))) (.node 2 (.node 1 (.leaf 0x0) (.leaf 0x0)) (.node 1 (.leaf 0x0) (.leaf 0x0))))) (.node 8 (.node 4 (.node 2 (.node 1 (.leaf 0x0) (.leaf 0x0)) (.node 1 (.leaf 0x0) (.leaf 0x0))) (.node 2 (.node 1 (.leaf 0x0) (.leaf 0x0)) (.node 1 (.leaf 0x0) (.leaf 0x0)))) (.node 4 (.node 2 (.node 1 (.leaf 0x0) (.leaf 0x0)) (.node 1 (.leaf 0x0) (.leaf 0x0))) (.node 2 (.node 1 (.leaf 0x0) (.leaf 0x0)) (.node 1 (.leaf 0x0) (.leaf 0x0)))))) (.node 16 (.node 8 (.node 4 (.node 2 (.node 1 (.leaf 0x0) (.leaf 0x0)) (.node 1 (.leaf 0x0) (.leaf 0x0))) (.node 2 (.node 1 (.leaf 0x0) (.leaf 0x0)) (.node 1 (.leaf 0x0) (.leaf 0x0)))) (.node 4 (.node 2 (.node 1 (.leaf 0x0) (.leaf 0x0)) (.node 1 (.leaf 0x0) (.leaf 0x0))) (.node 2 (.node 1 (.leaf 0x0) (.leaf 0x0)) (.node 1 (.leaf 0x0) (.leaf 0x0))))) (.node 8 (.node 4 (.node 2 (.node 1 (.leaf 0x0) (.leaf 0x0)) (.node 1 (.leaf 0x0) (.leaf 0x0))) (.node 2 (.node 1 (.leaf 0x0) (.leaf 0x0)) (.node 1 (.leaf 0x0) (.leaf 0x0)))) (.node 4 (.node 2 (.node 1 (.leaf 0x0) (.leaf 0x0)) (.node 1 (.leaf 0x0) (.leaf 0x0))) (.node 2 (.node 1 (.leaf 0x0) (.leaf 0x0)) (.node 1 (.leaf 0x0) (.leaf 0x0))))))))) (.node 128 (.node 64 (.node 32 (.node 16 (.node 8 (.node 4 (.node 2 (.node 1 (.leaf 0x0) (.leaf 0x0)) (.node 1 (.leaf 0x0) (.leaf 0x0))) (.node 2 (.node 1 (.leaf 0x0) (.leaf 0x0)) (.node 1 (.leaf 0x0) (.leaf 0x0)))) (.node 4 (.node 2 (.node 1 (.leaf 0x0) (.leaf 0x0)) (.node 1 (.leaf 0x0) (.leaf 0x0))) (.node 2 (.node 1 (.leaf 0x0) (.leaf 0x0)) (.node 1 (.leaf 0x0) (.leaf 0x0))))) (.node 8 (.node 4 (.node 2 (.node 1 (.leaf 0x0) (.leaf 0x0)) (.node 1 (.leaf 0x0) (.leaf 0x0))) (.node 2 (.node 1 (.leaf 0x0) (.leaf 0x0)) (.node 1 (.leaf 0x0) (.leaf 0x0)))) (.node 4 (.node 2 (.node 1 (.leaf 0x0) (.leaf 0x0)) (.node 1 (.leaf 0x0) (.leaf 0x0))) (.node 2 (.node 1 (.leaf 0x0) (.leaf 0x0)) (.node 1 (.leaf 0x0) (.leaf 0x0)))))) (.node 16 (.node 8 (.node 4 (.node 2 (.node 1 (.leaf 0x0) (.leaf 0x0)) (.node 1 (.leaf 0x0) (.leaf 0x0))) (.node 2 (.node 1 (.leaf 0x0) (.leaf 0x0)) (.node 1 (.leaf 0x0) (.leaf 0x0)))) (.node 4 (.node 2 (.node 1 (.leaf 0x0) (.leaf 0x0)) (.node 1 (.leaf 0x0) (.leaf 0x0))) (.node 2 (.node 1 (.leaf 0x0) (.leaf 0x0)) (.node 1 (.leaf 0x0) (.leaf 0x0))))) (.node 8 (.node 4 (.node 2 (.node 1 (.leaf 0x0) (.leaf 0x0)) (.node 1 (.leaf 0x0) (.leaf 0x0))) (.node 2 (.node 1 (.leaf 0x0) (.leaf 0x0)) (.node 1 (.leaf 0x0) (.leaf 0x0)))) (.node 4 (.node 2 (.node 1 (.leaf 0x0) (.leaf 0x0)) (.node 1 (.leaf 0x0) (.leaf 0x0))) (.node 2 (.node 1 (.leaf 0x0) (.leaf 0x0)) (.node 1 (.leaf 0x0) (.leaf 0x0))))))) (.node 32 (.node 16 (.node 8 (.node 4 (.node 2 (.node 1 (.leaf 0x0) (.leaf 0x0)) (.node 1 (.leaf 0x0) (.leaf 0x0))) (.node 2 (.node 1 (.leaf 0x0) (.leaf 0x0)) (.node 1 (.leaf 0x0) (.leaf 0x0)))) (.node 4 (.node 2 (.node 1 (.leaf 0x0) (.leaf 0x0)) (.node 1 (.leaf 0x0) (.leaf 0x0))) (.node 2 (.node 1 (.leaf 0x0) (.leaf 0x0)) (.node 1 (.leaf 0x0) (.leaf 0x0))))) (.node 8 (.node 4 (.node 2 (.node 1 (.leaf 0x0) (.leaf 0x0)) (.node 1 (.leaf 0x0) (.leaf 0x0))) (.node 2 (.node 1 (.leaf 0x0) (.leaf 0x0)) (.node 1 (.leaf 0x0) (.leaf 0x0)))) (.node 4 (.node 2 (.node 1 (.leaf 0x0) (.leaf 0x0)) (.node 1 (.leaf 0x0) (.leaf 0x0))) (.node 2 (.node 1 (.leaf 0x0) (.leaf 0x0)) (.node 1 (.leaf 0x0) (.leaf 0x0)))))) (.node 16 (.node 8 (.node 4 (.node 2 (.node 1 (.leaf 0x0) (.leaf 0x0)) (.node 1 (.leaf 0x0) (.leaf 0x0))) (.node 2 (.node 1 (.leaf 0x0) (.leaf 0x0)) (.node 1 (.leaf 0x0) (.leaf 0x0)))) (.node 4 (.node 2 (.node 1 (.leaf 0x0) (.leaf 0x0)) (.node 1 (.leaf 0x0) (.leaf 0x0))) (.node 2 (.node 1 (.leaf 0x0) (.leaf 0x0)) (.node 1 (.leaf 0x0) (.leaf 0x0))))) (.node 8 (.node 4 (.node 2 (.node 1 (.leaf 0x0) (.leaf 0x0)) (.node 1 (.leaf 0x0) (.leaf 0x0))) (.node 2 (.node 1 (.leaf 0x0) (.leaf 0x0)) (.node 1 (.leaf 0x0) (.leaf 0x0)))) (.node 4 (.node 2 (.node 1 (.leaf 0x0) (.leaf 0x0)) (.node 1 (.leaf 0x0) (.leaf 0x0))) (.node 2 (.node 1 (.leaf 0x0) (.leaf 0x0)) (.node 1 (.leaf 0x0) (.leaf 0x0)))))))) (.node 64 (.node 32 (.node 16 (.node 8 (.node 4 (.node 2 (.node 1 (.leaf 0x0) (.leaf 0x0)) (.node 1 (.leaf 0x0) (.leaf 0x0))) (.node 2 (.node 1 (.leaf 0x0) (.leaf 0x0)) (.node 1 (.leaf 0x0) (.leaf 0x0)))) (.node 4 (.node 2 (.node 1 (.leaf 0x0) (.leaf 0x0)) (.node 1 (.leaf 0x0) (.leaf 0x0))) (.node 2 (.node 1 (.leaf 0x0) (.leaf 0x0)) (.node 1 (.leaf 0x0) (.leaf 0x0))))) (.node 8 (.node 4 (.node 2 (.node 1 (.leaf 0x0) (.leaf 0x0)) (.node 1 (.leaf 0x0) (.leaf 0x0))) (.node 2 (.node 1 (.leaf 0x0) (.leaf 0x0)) (.node 1 (.leaf 0x0) (.leaf 0x0)))) (.node 4 (.node 2 (.node 1 (.leaf 0x0) (.leaf 0x0)) (.node 1 (.leaf 0x0) (.leaf 0x0))) (.node 2 (.node 1 (.leaf 0x0) (.leaf 0x0)) (.node 1 (.leaf 0x0) (.leaf 0x0)))))) (.node 16 (.node 8 (.node 4 (.node 2 (.node 1 (.leaf 0x0) (.leaf 0x0)) (.node 1 (.leaf 0x0) (.leaf 0x0))) (.node 2 (.node 1 (.leaf 0x0) (.leaf 0x0)) (.node 1 (.leaf 0x0) (.leaf 0x0)))) (.node 4 (.node 2 (.node 1 (.leaf 0x0) (.leaf 0x0)) (.node 1 (.leaf 0x0) (.leaf 0x0))) (.node 2 (.node 1 (.leaf 0x0) (.leaf 0x0)) (.node 1 (.leaf 0x0) (.leaf 0x0))))) (.node 8 (.node 4 (.node 2 (.node 1 (.leaf 0x0) (.leaf 0x0)) (.node 1 (.leaf 0x0) (.leaf 0x0))) (.node 2 (.node 1 (.leaf 0x0) (.leaf 0x0)) (.node 1 (.leaf 0x0) (.leaf 0x0)))) (.node 4 (.node 2 (.node 1 (.leaf 0x0) (.leaf 0x0)) (.node 1 (.leaf 0x0) (.leaf 0x0))) (.node 2 (.node 1 (.leaf 0x0) (.leaf 0x0)) (.node 1 (.leaf 0x0) (.leaf 0x0))))))) (.node 32 (.node 16 (.node 8 (.node 4 (.node 2 (.node 1 (.leaf 0x0) (.leaf 0x0)) (.node 1 (.leaf 0x0) (.leaf 0x0))) (.node 2 (.node 1 (.leaf 0x0) (.leaf 0x0)) (.node 1 (.leaf 0x0) (.leaf 0x0)))) (.node 4 (.node 2 (.node 1 (.leaf 0x0) (.leaf 0x0)) (.node 1 (.leaf 0x0) (.leaf 0x0))) (.node 2 (.node 1 (.leaf 0x0) (.leaf 0x0)) (.node 1 (.leaf 0x0) (.leaf 0x0))))) (.node 8 (.node 4 (.node 2 (.node 1 (.leaf 0x0) (.leaf 0x0)) (.node 1 (.leaf 0x0) (.leaf 0x0))) (.node 2 (.node 1 (.leaf 0x0) (.leaf 0x0)) (.node 1 (.leaf 0x0) (.leaf 0x0)))) (.node 4 (.node 2 (.node 1 (.leaf 0x0) (.leaf 0x0)) (.node 1 (.leaf 0x0) (.leaf 0x0))) (.node 2 (.node 1 (.leaf 0x0) (.leaf 0x0)) (.node 1 (.leaf 0x0) (.leaf 0x0)))))) (.node 16 (.node 8 (.node 4 (.node 2 (.node 1 (.leaf 0x0) (.leaf 0x0)) (.node 1 (.leaf 0x0) (.leaf 0x0))) (.node 2 (.node 1 (.leaf 0x0) (.leaf 0x0)) (.node 1 (.leaf 0x0) (.leaf 0x0)))) (.node 4 (.node 2 (.node 1 (.leaf 0x0) (.leaf 0x0)) (.node 1 (.leaf 0x0) (.leaf 0x0))) (.node 2 (.node 1 (.leaf 0x0) (.leaf 0x0)) (.node 1 (.leaf 0x0) (.leaf 0x0))))) (.node 8 (.node 4 (.node 2 (.node 1 (.leaf 0x0) (.leaf 0x0)) (.node 1 (.leaf 0x0) (.leaf 0x0))) (.node 2 (.node 1 (.leaf 0x0) (.leaf 0x0)) (.node 1 (.leaf 0x0) (.leaf 0x0)))) (.node 4 (.node 2 (.node 1 (.leaf 0x0) (.leaf 0x0)) (.node 1 (.leaf 0x0) (.leaf 0x0))) (.node 2 (.node 1 (.leaf 0x0) (.leaf 0x0)) (.node 1 (.leaf 0x0) (.leaf 0x0)))))))))))
def plKT : BT Nat := (.node 512 (.node 256 (.node 128 (.node 64 (.node 32 (.node 16 (.node 8 (.node 4 (.node 2 (.node 1 (.leaf 0x0) (.leaf 0x1)) (.node 1 (.leaf 0x1) (.leaf 0x1))) (.node 2 (.node 1 (.leaf 0x1) (.leaf 0x1)) (.node 1 (.leaf 0x1) (.leaf 0x1)))) (.node 4 (.node 2 (.node 1 (.leaf 0x1) (.leaf 0x1)) (.node 1 (.leaf 0x1) (.leaf 0x1))) (.node 2 (.node 1 (.leaf 0x1) (.leaf 0x1)) (.node 1 (.leaf 0x1) (.leaf 0x1))))) (.node 8 (.node 4 (.node 2 (.node 1 (.leaf 0x1) (.leaf 0x1)) (.node 1 (.leaf 0x1) (.leaf 0x1))) (.node 2 (.node 1 (.leaf 0x1) (.leaf 0x1)) (.node 1 (.leaf 0x1) (.leaf 0x1)))) (.node 4 (.node 2 (.node 1 (.leaf 0x1) (.leaf 0x1)) (.node 1 (.leaf 0x1) (.leaf 0x1))) (.node 2 (.node 1 (.leaf 0x1) (.leaf 0x1)) (.node 1 (.leaf 0x1) (.leaf 0x1)))))) (.node 16 (.node 8 (.node 4 (.node 2 (.node 1 (.leaf 0x1) (.leaf 0x1)) (.node 1 (.leaf 0x1) (.leaf 0x1))) (.node 2 (.node 1 (.leaf 0x1) (.leaf 0x1)) (.node 1 (.leaf 0x1) (.leaf 0x2)))) (.node 4 (.node 2 (.node 1 (.leaf 0x1) (.leaf 0x2)) (.node 1 (.leaf 0x2) (.leaf 0x2))) (.node 2 (.node 1 (.leaf 0x2) (.leaf 0x2)) (.node 1 (.leaf 0x2) (.leaf 0x2))))) (.node 8 (.node 4 (.node 2 (.node 1 (.leaf 0x2) (.leaf 0x2)) (.node 1 (.leaf 0x2) (.leaf 0x2))) (.node 2 (.node 1 (.leaf 0x1) (.leaf 0x2)) (.node 1 (.leaf 0x1) (.leaf 0x2)))) (.node 4 (.node 2 (.node 1 (.leaf 0x2) (.leaf 0x2)) (.node 1 (.leaf 0x2) (.leaf 0x2))) (.node 2 (.node 1 (.leaf 0x2) (.leaf 0x2)) (.node 1 (.leaf 0x1) (.leaf 0x2))))))) (.node 32 (.node 16 (.node 8 (.node 4 (.node 2 (.node 1 (.leaf 0x1) (.leaf 0x1)) (.node 1 (.leaf 0x2) (.leaf 0x2))) (.node 2 (.node 1 (.leaf 0x2) (.leaf 0x0)) (.node 1 (.leaf 0x2) (.leaf 0x2)))) (.node 4 (.node 2 (.node 1 (.leaf 0x1) (.leaf 0x2)) (.node 1 (.leaf 0x2) (.leaf 0x1))) (.node 2 (.node 1 (.leaf 0x2) (.leaf 0x2)) (.node 1 (.leaf 0x1) (.leaf 0x3))))) (.node 8 (.node 4 (.node 2 (.node 1 (.leaf 0x2) (.leaf 0x3)) (.node 1 (.leaf 0x3) (.leaf 0x1))) (.node 2 (.node 1 (.leaf 0x3) (.leaf 0x3)) (.node 1 (.leaf 0x3) (.leaf 0x3)))) (.node 4 (.node 2 (.node 1 (.leaf 0x1) (.leaf 0x3)) (.node 1 (.leaf 0x3) (.leaf 0x3))) (.node 2 (.node 1 (.leaf 0x1) (.leaf 0x3)) (.node 1 (.leaf 0x2) (.leaf 0x2)))))) (.node 16 (.node 8 (.node 4 (.node 2 (.node 1 (.leaf 0x3) (.leaf 0x3)) (.node 1 (.leaf 0x3) (.leaf 0x3))) (.node 2 (.node 1 (.leaf 0x3) (.leaf 0x3)) (.node 1 (.leaf 0x3) (.leaf 0x2)))) (.node 4 (.node 2 (.node 1 (.leaf 0x2) (.leaf 0x3)) (.node 1 (.leaf 0x2) (.leaf 0x1))) (.node 2 (.node 1 (.leaf 0x2) (.leaf 0x1)) (.node 1 (.leaf 0x1) (.leaf 0x1))))) (.node 8 (.node 4 (.node 2 (.node 1 (.leaf 0x3) (.leaf 0x1)) (.node 1 (.leaf 0x1) (.leaf 0x2))) (.node 2 (.node 1 (.leaf 0x2) (.leaf 0x3)) (.node 1 (.leaf 0x1) (.leaf 0x1)))) (.node 4 (.node 2 (.node 1 (.leaf 0x1) (.leaf 0x1)) (.node 1 (.leaf 0x1) (.leaf 0x1))) (.node 2 (.node 1 (.leaf 0x1) (.leaf 0x1)) (.node 1 (.leaf 0x1) (.leaf 0x1)))))))) (.node 64 (.node 32 (.node 16 (.node 8 (.node 4 (.node 2 (.node 1 (.leaf 0x1) (.leaf 0x4)) (.node 1 (.leaf 0x1) (.leaf 0x1))) (.node 2 (.node 1 (.leaf 0x1) (.leaf 0x1)) (.node 1 (.leaf 0x1) (.leaf 0x1)))) (.node 4 (.node 2 (.node 1 (.leaf 0x1) (.leaf 0x1)) (.node 1 (.leaf 0x1) (.leaf 0x1))) (.node 2 (.node 1 (.leaf 0x1) (.leaf 0x1)) (.node 1 (.leaf 0x1) (.leaf 0x4))))) (.node 8 (.node 4 (.node 2 (.node 1 (.leaf 0x2) (.leaf 0x1)) (.node 1 (.leaf 0x4) (.leaf 0x4))) (.node 2 (.node 1 (.leaf 0x4) (.leaf 0x1)) (.node 1 (.leaf 0x4) (.leaf 0x4)))) (.node 4 (.node 2 (.node 1 (.leaf 0x1) (.leaf 0x4)) (.node 1 (.leaf 0x1) (.leaf 0x4))) (.node 2 (.node 1 (.leaf 0x1) (.leaf 0x2)) (.node 1 (.leaf 0x4) (.leaf 0x3)))))) (.node 16 (.node 8 (.node 4 (.node 2 (.node 1 (.leaf 0x3) (.leaf 0x1)) (.node 1 (.leaf 0x4) (.leaf 0x4))) (.node 2 (.node 1 (.leaf 0x4) (.leaf 0x4)) (.node 1 (.leaf 0x4) (.leaf 0x4)))) (.node 4 (.node 2 (.node 1 (.leaf 0x3) (.leaf 0x3)) (.node 1 (.leaf 0x3) (.leaf 0x1))) (.node 2 (.node 1 (.leaf 0x2) (.leaf 0x1)) (.node 1 (.leaf 0x3) (.leaf 0x4))))) (.node 8 (.node 4 (.node 2 (.node 1 (.leaf 0x1) (.leaf 0x1)) (.node 1 (.leaf 0x1) (.leaf 0x1))) (.node 2 (.node 1 (.leaf 0x2) (.leaf 0x2)) (.node 1 (.leaf 0x3) (.leaf 0x1)))) (.node 4 (.node 2 (.node 1 (.leaf 0x1) (.leaf 0x3)) (.node 1 (.leaf 0x1) (.leaf 0x1))) (.node 2 (.node 1 (.leaf 0x1) (.leaf 0x1)) (.node 1 (.leaf 0x1) (.leaf 0x1))))))) (.node 32 (.node 16 (.node 8 (.node 4 (.node 2 (.node 1 (.leaf 0x1) (.leaf 0x1)) (.node 1 (.leaf 0x1) (.leaf 0x1))) (.node 2 (.node 1 (.leaf 0x1) (.leaf 0x1)) (.node 1 (.leaf 0x1) (.leaf 0x1)))) (.node 4 (.node 2 (.node 1 (.leaf 0x2) (.leaf 0x2)) (.node 1 (.leaf 0x2) (.leaf 0x2))) (.node 2 (.node 1 (.leaf 0x2) (.leaf 0x2)) (.node 1 (.leaf 0x5) (.leaf 0x2))))) (.node 8 (.node 4 (.node 2 (.node 1 (.leaf 0x3) (.leaf 0x5)) (.node 1 (.leaf 0x5) (.leaf 0x5))) (.node 2 (.node 1 (.leaf 0x5) (.leaf 0x5)) (.node 1 (.leaf 0x1) (.leaf 0x1)))) (.node 4 (.node 2 (.node 1 (.leaf 0x1) (.leaf 0x1)) (.node 1 (.leaf 0x1) (.leaf 0x1))) (.node 2 (.node 1 (.leaf 0x1) (.leaf 0x1)) (.node 1 (.leaf 0x1) (.leaf 0x1)))))) (.node 16 (.node 8 (.node 4 (.node 2 (.node 1 (.leaf 0x2) (.leaf 0x1)) (.node 1 (.leaf 0x1) (.leaf 0x1))) (.node 2 (.node 1 (.leaf 0x1) (.leaf 0x1)) (.node 1 (.leaf 0x1) (.leaf 0x1)))) (.node 4 (.node 2 (.node 1 (.leaf 0x1) (.leaf 0x1)) (.node 1 (.leaf 0x1) (.leaf 0x1))) (.node 2 (.node 1 (.leaf 0x1) (.leaf 0x1)) (.node 1 (.leaf 0x1) (.leaf 0x1))))) (.node 8 (.node 4 (.node 2 (.node 1 (.leaf 0x1) (.leaf 0x1)) (.node 1 (.leaf 0x5) (.leaf 0x1))) (.node 2 (.node 1 (.leaf 0x2) (.leaf 0x5)) (.node 1 (.leaf 0x5) (.leaf 0x2)))) (.node 4 (.node 2 (.node 1 (.leaf 0x2) (.leaf 0x5)) (.node 1 (.leaf 0x1) (.leaf 0x5))) (.node 2 (.node 1 (.leaf 0x1) (.leaf 0x1)) (.node 1 (.leaf 0x1) (.leaf 0x5))))))))) (.node 128 (.node 64 (.node 32 (.node 16 (.node 8 (.node 4 (.node 2 (.node 1 (.leaf 0x5) (.leaf 0x5)) (.node 1 (.leaf 0x1) (.leaf 0x4))) (.node 2 (.node 1 (.leaf 0x1) (.leaf 0x4)) (.node 1 (.leaf 0x1) (.leaf 0x1)))) (.node 4 (.node 2 (.node 1 (.leaf 0x1) (.leaf 0x5)) (.node 1 (.leaf 0x2) (.leaf 0x3))) (.node 2 (.node 1 (.leaf 0x1) (.leaf 0x1)) (.node 1 (.leaf 0x4) (.leaf 0x2))))) (.node 8 (.node 4 (.node 2 (.node 1 (.leaf 0x2) (.leaf 0x2)) (.node 1 (.leaf 0x1) (.leaf 0x4))) (.node 2 (.node 1 (.leaf 0x1) (.leaf 0x1)) (.node 1 (.leaf 0x3) (.leaf 0x3)))) (.node 4 (.node 2 (.node 1 (.leaf 0x3) (.leaf 0x6)) (.node 1 (.leaf 0x6) (.leaf 0x6))) (.node 2 (.node 1 (.leaf 0x1) (.leaf 0x1)) (.node 1 (.leaf 0x1) (.leaf 0x1)))))) (.node 16 (.node 8 (.node 4 (.node 2 (.node 1 (.leaf 0x6) (.leaf 0x1)) (.node 1 (.leaf 0x1) (.leaf 0x1))) (.node 2 (.node 1 (.leaf 0x6) (.leaf 0x2)) (.node 1 (.leaf 0x2) (.leaf 0x2)))) (.node 4 (.node 2 (.node 1 (.leaf 0x2) (.leaf 0x2)) (.node 1 (.leaf 0x1) (.leaf 0x2))) (.node 2 (.node 1 (.leaf 0x2) (.leaf 0x2)) (.node 1 (.leaf 0x1) (.leaf 0x2))))) (.node 8 (.node 4 (.node 2 (.node 1 (.leaf 0x2) (.leaf 0x2)) (.node 1 (.leaf 0x2) (.leaf 0x2))) (.node 2 (.node 1 (.leaf 0x2) (.leaf 0x2)) (.node 1 (.leaf 0x2) (.leaf 0x2)))) (.node 4 (.node 2 (.node 1 (.leaf 0x2) (.leaf 0x2)) (.node 1 (.leaf 0x2) (.leaf 0x2))) (.node 2 (.node 1 (.leaf 0x2) (.leaf 0x2)) (.node 1 (.leaf 0x2) (.leaf 0x2))))))) (.node 32 (.node 16 (.node 8 (.node 4 (.node 2 (.node 1 (.leaf 0x2) (.leaf 0x2)) (.node 1 (.leaf 0x2) (.leaf 0x2))) (.node 2 (.node 1 (.leaf 0x2) (.leaf 0x2)) (.node 1 (.leaf 0x2) (.leaf 0x2)))) (.node 4 (.node 2 (.node 1 (.leaf 0x2) (.leaf 0x2)) (.node 1 (.leaf 0x2) (.leaf 0x2))) (.node 2 (.node 1 (.leaf 0x6) (.leaf 0x3)) (.node 1 (.leaf 0x2) (.leaf 0x6))))) (.node 8 (.node 4 (.node 2 (.node 1 (.leaf 0x3) (.leaf 0x3)) (.node 1 (.leaf 0x2) (.leaf 0x2))) (.node 2 (.node 1 (.leaf 0x1) (.leaf 0x1)) (.node 1 (.leaf 0x1) (.leaf 0x1)))) (.node 4 (.node 2 (.node 1 (.leaf 0x2) (.leaf 0x1)) (.node 1 (.leaf 0x6) (.leaf 0x2))) (.node 2 (.node 1 (.leaf 0x5) (.leaf 0x2)) (.node 1 (.leaf 0x1) (.leaf 0x5)))))) (.node 16 (.node 8 (.node 4 (.node 2 (.node 1 (.leaf 0x1) (.leaf 0x2)) (.node 1 (.leaf 0x1) (.leaf 0x1))) (.node 2 (.node 1 (.leaf 0x1) (.leaf 0x2)) (.node 1 (.leaf 0x6) (.leaf 0x3)))) (.node 4 (.node 2 (.node 1 (.leaf 0x2) (.leaf 0x1)) (.node 1 (.leaf 0x1) (.leaf 0x2))) (.node 2 (.node 1 (.leaf 0x5) (.leaf 0x3)) (.node 1 (.leaf 0x3) (.leaf 0x1))))) (.node 8 (.node 4 (.node 2 (.node 1 (.leaf 0x1) (.leaf 0x1)) (.node 1 (.leaf 0x1) (.leaf 0x2))) (.node 2 (.node 1 (.leaf 0x2) (.leaf 0x4)) (.node 1 (.leaf 0x7) (.leaf 0x7)))) (.node 4 (.node 2 (.node 1 (.leaf 0x1) (.leaf 0x1)) (.node 1 (.leaf 0x1) (.leaf 0x1))) (.node 2 (.node 1 (.leaf 0x1) (.leaf 0x1)) (.node 1 (.leaf 0x1) (.leaf 0x1)))))))) (.node 64 (.node 32 (.node 16 (.node 8 (.node 4 (.node 2 (.node 1 (.leaf 0x1) (.leaf 0x1)) (.node 1 (.leaf 0x1) (.leaf 0x1))) (.node 2 (.node 1 (.leaf 0x1) (.leaf 0x1)) (.node 1 (.leaf 0x1) (.leaf 0x1)))) (.node 4 (.node 2 (.node 1 (.leaf 0x1) (.leaf 0x1)) (.node 1 (.leaf 0x2) (.leaf 0x2))) (.node 2 (.node 1 (.leaf 0x2) (.leaf 0x2)) (.node 1 (.leaf 0x7) (.leaf 0x2))))) (.node 8 (.node 4 (.node 2 (.node 1 (.leaf 0x7) (.leaf 0x3)) (.node 1 (.leaf 0x3) (.leaf 0x3))) (.node 2 (.node 1 (.leaf 0x3) (.leaf 0x3)) (.node 1 (.leaf 0x3) (.leaf 0x3)))) (.node 4 (.node 2 (.node 1 (.leaf 0x2) (.leaf 0x3)) (.node 1 (.leaf 0x3) (.leaf 0x2))) (.node 2 (.node 1 (.leaf 0x3) (.leaf 0x3)) (.node 1 (.leaf 0x2) (.leaf 0x3)))))) (.node 16 (.node 8 (.node 4 (.node 2 (.node 1 (.leaf 0x3) (.leaf 0x3)) (.node 1 (.leaf 0x3) (.leaf 0x3))) (.node 2 (.node 1 (.leaf 0x3) (.leaf 0x3)) (.node 1 (.leaf 0x3) (.leaf 0x3)))) (.node 4 (.node 2 (.node 1 (.leaf 0x3) (.leaf 0x3)) (.node 1 (.leaf 0x3) (.leaf 0x3))) (.node 2 (.node 1 (.leaf 0x3) (.leaf 0x3)) (.node 1 (.leaf 0x3) (.leaf 0x3))))) (.node 8 (.node 4 (.node 2 (.node 1 (.leaf 0x3) (.leaf 0x3)) (.node 1 (.leaf 0x3) (.leaf 0x3))) (.node 2 (.node 1 (.leaf 0x3) (.leaf 0x3)) (.node 1 (.leaf 0x3) (.leaf 0x3)))) (.node 4 (.node 2 (.node 1 (.leaf 0x3) (.leaf 0x3)) (.node 1 (.leaf 0x3) (.leaf 0x7))) (.node 2 (.node 1 (.leaf 0x3) (.leaf 0x7)) (.node 1 (.leaf 0x3) (.leaf 0x3))))))) (.node 32 (.node 16 (.node 8 (.node 4 (.node 2 (.node 1 (.leaf 0x2) (.leaf 0x2)) (.node 1 (.leaf 0x2) (.leaf 0x2))) (.node 2 (.node 1 (.leaf 0x3) (.leaf 0x2)) (.node 1 (.leaf 0x3) (.leaf 0x3)))) (.node 4 (.node 2 (.node 1 (.leaf 0x1) (.leaf 0x2)) (.node 1 (.leaf 0x1) (.leaf 0x1))) (.node 2 (.node 1 (.leaf 0x1) (.leaf 0x1)) (.node 1 (.leaf 0x1) (.leaf 0x1))))) (.node 8 (.node 4 (.node 2 (.node 1 (.leaf 0x6) (.leaf 0x3)) (.node 1 (.leaf 0x2) (.leaf 0x3))) (.node 2 (.node 1 (.leaf 0x1) (.leaf 0x3)) (.node 1 (.leaf 0x6) (.leaf 0x4)))) (.node 4 (.node 2 (.node 1 (.leaf 0x4) (.leaf 0x2)) (.node 1 (.leaf 0x2) (.leaf 0x3))) (.node 2 (.node 1 (.leaf 0x1) (.leaf 0x1)) (.node 1 (.leaf 0x3) (.leaf 0x5)))))) (.node 16 (.node 8 (.node 4 (.node 2 (.node 1 (.leaf 0x8) (.leaf 0x8)) (.node 1 (.leaf 0x2) (.leaf 0x1))) (.node 2 (.node 1 (.leaf 0x2) (.leaf 0x2)) (.node 1 (.leaf 0x2) (.leaf 0x1)))) (.node 4 (.node 2 (.node 1 (.leaf 0x2) (.leaf 0x1)) (.node 1 (.leaf 0x1) (.leaf 0x1))) (.node 2 (.node 1 (.leaf 0x1) (.leaf 0x1)) (.node 1 (.leaf 0x3) (.leaf 0x1))))) (.node 8 (.node 4 (.node 2 (.node 1 (.leaf 0x1) (.leaf 0x1)) (.node 1 (.leaf 0x3) (.leaf 0x3))) (.node 2 (.node 1 (.leaf 0x3) (.leaf 0x3)) (.node 1 (.leaf 0x1) (.leaf 0x4)))) (.node 4 (.node 2 (.node 1 (.leaf 0x4) (.leaf 0x4)) (.node 1 (.leaf 0x4) (.leaf 0x4))) (.node 2 (.node 1 (.leaf 0x4) (.leaf 0x3)) (.node 1 (.leaf 0x4) (.leaf 0x4)))))))))) (.node 256 (.node 128 (.node 64 (.node 32 (.node 16 (.node 8 (.node 4 (.node 2 (.node 1 (.leaf 0x4) (.leaf 0x3)) (.node 1 (.leaf 0x4) (.leaf 0x4))) (.node 2 (.node 1 (.leaf 0x4) (.leaf 0x4)) (.node 1 (.leaf 0x4) (.leaf 0x4)))) (.node 4 (.node 2 (.node 1 (.leaf 0x4) (.leaf 0x4)) (.node 1 (.leaf 0x4) (.leaf 0x8))) (.node 2 (.node 1 (.leaf 0x4) (.leaf 0x4)) (.node 1 (.leaf 0x3) (.leaf 0x3))))) (.node 8 (.node 4 (.node 2 (.node 1 (.leaf 0x3) (.leaf 0x4)) (.node 1 (.leaf 0x2) (.leaf 0x2))) (.node 2 (.node 1 (.leaf 0x1) (.leaf 0x1)) (.node 1 (.leaf 0x1) (.leaf 0x1)))) (.node 4 (.node 2 (.node 1 (.leaf 0x1) (.leaf 0x1)) (.node 1 (.leaf 0x2) (.leaf 0x2))) (.node 2 (.node 1 (.leaf 0x1) (.leaf 0x1)) (.node 1 (.leaf 0x2) (.leaf 0x1)))))) (.node 16 (.node 8 (.node 4 (.node 2 (.node 1 (.leaf 0x1) (.leaf 0x7)) (.node 1 (.leaf 0x2) (.leaf 0x3))) (.node 2 (.node 1 (.leaf 0x4) (.leaf 0x2)) (.node 1 (.leaf 0x6) (.leaf 0x9)))) (.node 4 (.node 2 (.node 1 (.leaf 0x3) (.leaf 0x2)) (.node 1 (.leaf 0x3) (.leaf 0x3))) (.node 2 (.node 1 (.leaf 0x2) (.leaf 0x2)) (.node 1 (.leaf 0x2) (.leaf 0x2))))) (.node 8 (.node 4 (.node 2 (.node 1 (.leaf 0x2) (.leaf 0x2)) (.node 1 (.leaf 0x4) (.leaf 0x4))) (.node 2 (.node 1 (.leaf 0x4) (.leaf 0x2)) (.node 1 (.leaf 0x5) (.leaf 0x5)))) (.node 4 (.node 2 (.node 1 (.leaf 0x5) (.leaf 0x5)) (.node 1 (.leaf 0x5) (.leaf 0x4))) (.node 2 (.node 1 (.leaf 0x5) (.leaf 0x5)) (.node 1 (.leaf 0x4) (.leaf 0x5))))))) (.node 32 (.node 16 (.node 8 (.node 4 (.node 2 (.node 1 (.leaf 0x5) (.leaf 0x5)) (.node 1 (.leaf 0x5) (.leaf 0x5))) (.node 2 (.node 1 (.leaf 0x5) (.leaf 0x4)) (.node 1 (.leaf 0x4) (.leaf 0x3)))) (.node 4 (.node 2 (.node 1 (.leaf 0x3) (.leaf 0x2)) (.node 1 (.leaf 0x2) (.leaf 0x2))) (.node 2 (.node 1 (.leaf 0x3) (.leaf 0x3)) (.node 1 (.leaf 0x2) (.leaf 0x2))))) (.node 8 (.node 4 (.node 2 (.node 1 (.leaf 0x5) (.leaf 0x4)) (.node 1 (.leaf 0x3) (.leaf 0x3))) (.node 2 (.node 1 (.leaf 0x4) (.leaf 0x4)) (.node 1 (.leaf 0x3) (.leaf 0x3)))) (.node 4 (.node 2 (.node 1 (.leaf 0x5) (.leaf 0x5)) (.node 1 (.leaf 0x1) (.leaf 0x3))) (.node 2 (.node 1 (.leaf 0x6) (.leaf 0x6)) (.node 1 (.leaf 0x6) (.leaf 0x6)))))) (.node 16 (.node 8 (.node 4 (.node 2 (.node 1 (.leaf 0x6) (.leaf 0x6)) (.node 1 (.leaf 0x5) (.leaf 0x6))) (.node 2 (.node 1 (.leaf 0x6) (.leaf 0x4)) (.node 1 (.leaf 0x4) (.leaf 0x4)))) (.node 4 (.node 2 (.node 1 (.leaf 0x3) (.leaf 0x3)) (.node 1 (.leaf 0x4) (.leaf 0x6))) (.node 2 (.node 1 (.leaf 0x2) (.leaf 0x4)) (.node 1 (.leaf 0x7) (.leaf 0x5))))) (.node 8 (.node 4 (.node 2 (.node 1 (.leaf 0x5) (.leaf 0x4)) (.node 1 (.leaf 0x1) (.leaf 0x4))) (.node 2 (.node 1 (.leaf 0x5) (.leaf 0x3)) (.node 1 (.leaf 0x1) (.leaf 0x1)))) (.node 4 (.node 2 (.node 1 (.leaf 0x1) (.leaf 0x5)) (.node 1 (.leaf 0x1) (.leaf 0x8))) (.node 2 (.node 1 (.leaf 0x6) (.leaf 0x1)) (.node 1 (.leaf 0x6) (.leaf 0x5)))))))) (.node 64 (.node 32 (.node 16 (.node 8 (.node 4 (.node 2 (.node 1 (.leaf 0x2) (.leaf 0x6)) (.node 1 (.leaf 0x1) (.leaf 0x2))) (.node 2 (.node 1 (.leaf 0x1) (.leaf 0x1)) (.node 1 (.leaf 0x2) (.leaf 0x7)))) (.node 4 (.node 2 (.node 1 (.leaf 0x2) (.leaf 0x2)) (.node 1 (.leaf 0x3) (.leaf 0x2))) (.node 2 (.node 1 (.leaf 0x2) (.leaf 0x8)) (.node 1 (.leaf 0x4) (.leaf 0x5))))) (.node 8 (.node 4 (.node 2 (.node 1 (.leaf 0x0) (.leaf 0x0)) (.node 1 (.leaf 0x0) (.leaf 0x0))) (.node 2 (.node 1 (.leaf 0x0) (.leaf 0x0)) (.node 1 (.leaf 0x0) (.leaf 0x0)))) (.node 4 (.node 2 (.node 1 (.leaf 0x0) (.leaf 0x0)) (.node 1 (.leaf 0x0) (.leaf 0x0))) (.node 2 (.node 1 (.leaf 0x0) (.leaf 0x0)) (.node 1 (.leaf 0x0) (.leaf 0x0)))))) (.node 16 (.node 8 (.node 4 (.node 2 (.node 1 (.leaf 0x0) (.leaf 0x0)) (.node 1 (.leaf 0x0) (.leaf 0x0))) (.node 2 (.node 1 (.leaf 0x0) (.leaf 0x0)) (.node 1 (.leaf 0x0) (.leaf 0x0)))) (.node 4 (.node 2 (.node 1 (.leaf 0x0) (.leaf 0x0)) (.node 1 (.leaf 0x0) (.leaf 0x0))) (.node 2 (.node 1 (.leaf 0x0) (.leaf 0x0)) (.node 1 (.leaf 0x0) (.leaf 0x0))))) (.node 8 (.node 4 (.node 2 (.node 1 (.leaf 0x0) (.leaf 0x0)) (.node 1 (.leaf 0x0) (.leaf 0x0))) (.node 2 (.node 1 (.leaf 0x0) (.leaf 0x0)) (.node 1 (.leaf 0x0) (.leaf 0x0)))) (.node 4 (.node 2 (.node 1 (.leaf 0x0) (.leaf 0x0)) (.node 1 (.leaf 0x0) (.leaf 0x0))) (.node 2 (.node 1 (.leaf 0x0) (.leaf 0x0)) (.node 1 (.leaf 0x0) (.leaf 0x0))))))) (.node 32 (.node 16 (.node 8 (.node 4 (.node 2 (.node 1 (.leaf 0x0) (.leaf 0x0)) (.node 1 (.leaf 0x0) (.leaf 0x0))) (.node 2 (.node 1 (.leaf 0x0) (.leaf 0x0)) (.node 1 (.leaf 0x0) (.leaf 0x0)))) (.node 4 (.node 2 (.node 1 (.leaf 0x0) (.leaf 0x0)) (.node 1 (.leaf 0x0) (.leaf 0x0))) (.node 2 (.node 1 (.leaf 0x0) (.leaf 0x0)) (.node 1 (.leaf 0x0) (.leaf 0x0))))) (.node 8 (.node 4 (.node 2 (.node 1 (.leaf 0x0) (.leaf 0x0)) (.node 1 (.leaf 0x0) (.leaf 0x0))) (.node 2 (.node 1 (.leaf 0x0) (.leaf 0x0)) (.node 1 (.leaf 0x0) (.leaf 0x0)))) (.node 4 (.node 2 (.node 1 (.leaf 0x0) (.leaf 0x0)) (.node 1 (.leaf 0x0) (.leaf 0x0))) (.node 2 (.node 1 (.leaf 0x0) (.leaf 0x0)) (.node 1 (.leaf 0x0) (.leaf 0x0)))))) (.node 16 (.node 8 (.node 4 (.node 2 (.node 1 (.leaf 0x0) (.leaf 0x0)) (.node 1 (.leaf 0x0) (.leaf 0x0))) (.node 2 (.node 1 (.leaf 0x0) (.leaf 0x0)) (.node 1 (.leaf 0x0) (.leaf 0x0)))) (.node 4 (.node 2 (.node 1 (.leaf 0x0) (.leaf 0x0)) (.node 1 (.leaf 0x0) (.leaf 0x0))) (.node 2 (.node 1 (.leaf 0x0) (.leaf 0x0)) (.node 1 (.leaf 0x0) (.leaf 0x0))))) (.node 8 (.node 4 (.node 2 (.node 1 (.leaf 0x0) (.leaf 0x0)) (.node 1 (.leaf 0x0) (.leaf 0x0))) (.node 2 (.node 1 (.leaf 0x0) (.leaf 0x0)) (.node 1 (.leaf 0x0) (.leaf 0x0)))) (.node 4 (.node 2 (.node 1 (.leaf 0x0) (.leaf 0x0)) (.node 1 (.leaf 0x0) (.leaf 0x0))) (.node 2 (.node 1 (.leaf 0x0) (.leaf 0x0)) (.node 1 (.leaf 0x0) (.leaf 0x0))))))))) (.node 128 (.node 64 (.node 32 (.node 16 (.node 8 (.node 4 (.node 2 (.node 1 (.leaf 0x0) (.leaf 0x0)) (.node 1 (.leaf 0x0) (.leaf 0x0))) (.node 2 (.node 1 (.leaf 0x0) (.leaf 0x0)) (.node 1 (.leaf 0x0) (.leaf 0x0)))) (.node 4 (.node 2 (.node 1 (.leaf 0x0) (.leaf 0x0)) (.node 1 (.leaf 0x0) (.leaf 0x0))) (.node 2 (.node 1 (.leaf 0x0) (.leaf 0x0)) (.node 1 (.leaf 0x0) (.leaf 0x0))))) (.node 8 (.node 4 (.node 2 (.node 1 (.leaf 0x0) (.leaf 0x0)) (.node 1 (.leaf 0x0) (.leaf 0x0))) (.node 2 (.node 1 (.leaf 0x0) (.leaf 0x0)) (.node 1 (.leaf 0x0) (.leaf 0x0)))) (.node 4 (.node 2 (.node 1 (.leaf 0x0) (.leaf 0x0)) (.node 1 (.leaf 0x0) (.leaf 0x0))) (.node 2 (.node 1 (.leaf 0x0) (.leaf 0x0)) (.node 1 (.leaf 0x0) (.leaf 0x0)))))) (.node 16 (.node 8 (.node 4 (.node 2 (.node 1 (.leaf 0x0) (.leaf 0x0)) (.node 1 (.leaf 0x0) (.leaf 0x0))) (.node 2 (.node 1 (.leaf 0x0) (.leaf 0x0)) (.node 1 (.leaf 0x0) (.leaf 0x0)))) (.node 4 (.node 2 (.node 1 (.leaf 0x0) (.leaf 0x0)) (.node 1 (.leaf 0x0) (.leaf 0x0))) (.node 2 (.node 1 (.leaf 0x0) (.leaf 0x0)) (.node 1 (.leaf 0x0) (.leaf 0x0))))) (.node 8 (.node 4 (.node 2 (.node 1 (.leaf 0x0) (.leaf 0x0)) (.node 1 (.leaf 0x0) (.leaf 0x0))) (.node 2 (.node 1 (.leaf 0x0) (.leaf 0x0)) (.node 1 (.leaf 0x0) (.leaf 0x0)))) (.node 4 (.node 2 (.node 1 (.leaf 0x0) (.leaf 0x0)) (.node 1 (.leaf 0x0) (.leaf 0x0))) (.node 2 (.node 1 (.leaf 0x0) (.leaf 0x0)) (.node 1 (.leaf 0x0) (.leaf 0x0))))))) (.node 32 (.node 16 (.node 8 (.node 4 (.node 2 (.node 1 (.leaf 0x0) (.leaf 0x0)) (.node 1 (.leaf 0x0) (.leaf 0x0))) (.node 2 (.node 1 (.leaf 0x0) (.leaf 0x0)) (.node 1 (.leaf 0x0) (.leaf 0x0)))) (.node 4 (.node 2 (.node 1 (.leaf 0x0) (.leaf 0x0)) (.node 1 (.leaf 0x0) (.leaf 0x0))) (.node 2 (.node 1 (.leaf 0x0) (.leaf 0x0)) (.node 1 (.leaf 0x0) (.leaf 0x0))))) (.node 8 (.node 4 (.node 2 (.node 1 (.leaf 0x0) (.leaf 0x0)) (.node 1 (.leaf 0x0) (.leaf 0x0))) (.node 2 (.node 1 (.leaf 0x0) (.leaf 0x0)) (.node 1 (.leaf 0x0) (.leaf 0x0)))) (.node 4 (.node 2 (.node 1 (.leaf 0x0) (.leaf 0x0)) (.node 1 (.leaf 0x0) (.leaf 0x0))) (.node 2 (.node 1 (.leaf 0x0) (.leaf 0x0)) (.node 1 (.leaf 0x0) (.leaf 0x0)))))) (.node 16 (.node 8 (.node 4 (.node 2 (.node 1 (.leaf 0x0) (.leaf 0x0)) (.node 1 (.leaf 0x0) (.leaf 0x0))) (.node 2 (.node 1 (.leaf 0x0) (.leaf 0x0)) (.node 1 (.leaf 0x0) (.leaf 0x0)))) (.node 4 (.node 2 (.node 1 (.leaf 0x0) (.leaf 0x0)) (.node 1 (.leaf 0x0) (.leaf 0x0))) (.node 2 (.node 1 (.leaf 0x0) (.leaf 0x0)) (.node 1 (.leaf 0x0) (.leaf 0x0))))) (.node 8 (.node 4 (.node 2 (.node 1 (.leaf 0x0) (.leaf 0x0)) (.node 1 (.leaf 0x0) (.leaf 0x0))) (.node 2 (.node 1 (.leaf 0x0) (.leaf 0x0)) (.node 1 (.leaf 0x0) (.leaf 0x0)))) (.node 4 (.node 2 (.node 1 (.leaf 0x0) (.leaf 0x0)) (.node 1 (.leaf 0x0) (.leaf 0x0))) (.node 2 (.node 1 (.leaf 0x0) (.leaf 0x0)) (.node 1 (.leaf 0x0) (.leaf 0x0)))))))) (.node 64 (.node 32 (.node 16 (.node 8 (.node 4 (.node 2 (.node 1 (.leaf 0x0) (.leaf 0x0)) (.node 1 (.leaf 0x0) (.leaf 0x0))) (.node 2 (.node 1 (.leaf 0x0) (.leaf 0x0)) (.node 1 (.leaf 0x0) (.leaf 0x0)))) (.node 4 (.node 2 (.node 1 (.leaf 0x0) (.leaf 0x0)) (.node 1 (.leaf 0x0) (.leaf 0x0))) (.node 2 (.node 1 (.leaf 0x0) (.leaf 0x0)) (.node 1 (.leaf 0x0) (.leaf 0x0))))) (.node 8 (.node 4 (.node 2 (.node 1 (.leaf 0x0) (.leaf 0x0)) (.node 1 (.leaf 0x0) (.leaf 0x0))) (.node 2 (.node 1 (.leaf 0x0) (.leaf 0x0)) (.node 1 (.leaf 0x0) (.leaf 0x0)))) (.node 4 (.node 2 (.node 1 (.leaf 0x0) (.leaf 0x0)) (.node 1 (.leaf 0x0) (.leaf 0x0))) (.node 2 (.node 1 (.leaf 0x0) (.leaf 0x0)) (.node 1 (.leaf 0x0) (.leaf 0x0)))))) (.node 16 (.node 8 (.node 4 (.node 2 (.node 1 (.leaf 0x0) (.leaf 0x0)) (.node 1 (.leaf 0x0) (.leaf 0x0))) (.node 2 (.node 1 (.leaf 0x0) (.leaf 0x0)) (.node 1 (.leaf 0x0) (.leaf 0x0)))) (.node 4 (.node 2 (.node 1 (.leaf 0x0) (.leaf 0x0)) (.node 1 (.leaf 0x0) (.leaf 0x0))) (.node 2 (.node 1 (.leaf 0x0) (.leaf 0x0)) (.node 1 (.leaf 0x0) (.leaf 0x0))))) (.node 8 (.node 4 (.node 2 (.node 1 (.leaf 0x0) (.leaf 0x0)) (.node 1 (.leaf 0x0) (.leaf 0x0))) (.node 2 (.node 1 (.leaf 0x0) (.leaf 0x0)) (.node 1 (.leaf 0x0) (.leaf 0x0)))) (.node 4 (.node 2 (.node 1 (.leaf 0x0) (.leaf 0x0)) (.node 1 (.leaf 0x0) (.leaf 0x0))) (.node 2 (.node 1 (.leaf 0x0) (.leaf 0x0)) (.node 1 (.leaf 0x0) (.leaf 0x0))))))) (.node 32 (.node 16 (.node 8 (.node 4 (.node 2 (.node 1 (.leaf 0x0) (.leaf 0x0)) (.node 1 (.leaf 0x0) (.leaf 0x0))) (.node 2 (.node 1 (.leaf 0x0) (.leaf 0x0)) (.node 1 (.leaf 0x0) (.leaf 0x0)))) (.node 4 (.node 2 (.node 1 (.leaf 0x0) (.leaf 0x0)) (.node 1 (.leaf 0x0) (.leaf 0x0))) (.node 2 (.node 1 (.leaf 0x0) (.leaf 0x0)) (.node 1 (.leaf 0x0) (.leaf 0x0))))) (.node 8 (.node 4 (.node 2 (.node 1 (.leaf 0x0) (.leaf 0x0)) (.node 1 (.leaf 0x0) (.leaf 0x0))) (.node 2 (.node 1 (.leaf 0x0) (.leaf 0x0)) (.node 1 (.leaf 0x0) (.leaf 0x0)))) (.node 4 (.node 2 (.node 1 (.leaf 0x0) (.leaf 0x0)) (.node 1 (.leaf 0x0) (.leaf 0x0))) (.node 2 (.node 1 (.leaf 0x0) (.leaf 0x0)) (.node 1 (.leaf 0x0) (.leaf 0x0)))))) (.node 16 (.node 8 (.node 4 (.node 2 (.node 1 (.leaf 0x0) (.leaf 0x0)) (.node 1 (.leaf 0x0) (.leaf 0x0))) (.node 2 (.node 1 (.leaf 0x0) (.leaf 0x0)) (.node 1 (.leaf 0x0) (.leaf 0x0)))) (.node 4 (.node 2 (.node 1 (.leaf 0x0) (.leaf 0x0)) (.node 1 (.leaf 0x0) (.leaf 0x0))) (.node 2 (.node 1 (.leaf 0x0) (.leaf 0x0)) (.node 1 (.leaf 0x0) (.leaf 0x0))))) (.node 8 (.node 4 (.node 2 (.node 1 (.leaf 0x0) (.leaf 0x0)) (.node 1 (.leaf 0x0) (.leaf 0x0))) (.node 2 (.node 1 (.leaf 0x0) (.leaf 0x0)) (.node 1 (.leaf 0x0) (.leaf 0x0)))) (.node 4 (.node 2 (.node 1 (.leaf 0x0) (.leaf 0x0)) (.node 1 (.leaf 0x0) (.leaf 0x0))) (.node 2 (.node 1 (.leaf 0x0) (.leaf 0x0)) (.node 1 (.leaf 0x0) (.leaf 0x0)))))))))))
def coT : BT Nat := (.node 256 (.node 128 (.node 64 (.node 32 (.node 16 (.node 8 (.node 4 (.node 2 (.node 1 (.leaf 0x1) (.leaf 0x1)) (.node 1 (.leaf 0x1) (.leaf 0x1))) (.node 2 (.node 1 (.leaf 0x1) (.leaf 0x1)) (.node 1 (.leaf 0x1) (.leaf 0x1)))) (.node 4 (.node 2 (.node 1 (.leaf 0x1) (.leaf 0x1)) (.node 1 (.leaf 0x1) (.leaf 0x1))) (.node 2 (.node 1 (.leaf 0x1) (.leaf 0x1)) (.node 1 (.leaf 0x1) (.leaf 0x1))))) (.node 8 (.node 4 (.node 2 (.node 1 (.leaf 0x1) (.leaf 0x1)) (.node 1 (.leaf 0x1) (.leaf 0x1))) (.node 2 (.node 1 (.leaf 0x1) (.leaf 0x1)) (.node 1 (.leaf 0x1) (.leaf 0x1)))) (.node 4 (.node 2 (.node 1 (.leaf 0x1) (.leaf 0x1)) (.node 1 (.leaf 0x1) (.leaf 0x1))) (.node 2 (.node 1 (.leaf 0x1) (.leaf 0x1)) (.node 1 (.leaf 0x1) (.leaf 0x1)))))) (.node 16 (.node 8 (.node 4 (.node 2 (.node 1 (.leaf 0x1) (.leaf 0x1)) (.node 1 (.leaf 0x1) (.leaf 0x1))) (.node 2 (.node 1 (.leaf 0x1) (.leaf 0x1)) (.node 1 (.leaf 0x1) (.leaf 0x1)))) (.node 4 (.node 2 (.node 1 (.leaf 0x1) (.leaf 0x1)) (.node 1 (.leaf 0x1) (.leaf 0x1))) (.node 2 (.node 1 (.leaf 0x1) (.leaf 0x1)) (.node 1 (.leaf 0x1) (.leaf 0x1))))) (.node 8 (.node 4 (.node 2 (.node 1 (.leaf 0x1) (.leaf 0x1)) (.node 1 (.leaf 0x1) (.leaf 0x1))) (.node 2 (.node 1 (.leaf 0x1) (.leaf 0x1)) (.node 1 (.leaf 0x1) (.leaf 0x1)))) (.node 4 (.node 2 (.node 1 (.leaf 0x1) (.leaf 0x1)) (.node 1 (.leaf 0x1) (.leaf 0x1))) (.node 2 (.node 1 (.leaf 0x1) (.leaf 0x1)) (.node 1 (.leaf 0x1) (.leaf 0x1))))))) (.node 32 (.node 16 (.node 8 (.node 4 (.node 2 (.node 1 (.leaf 0x1) (.leaf 0x1)) (.node 1 (.leaf 0x1) (.leaf 0x1))) (.node 2 (.node 1 (.leaf 0x1) (.leaf 0x1)) (.node 1 (.leaf 0x1) (.leaf 0x1)))) (.node 4 (.node 2 (.node 1 (.leaf 0x1) (.leaf 0x1)) (.node 1 (.leaf 0x1) (.leaf 0x1))) (.node 2 (.node 1 (.leaf 0x1) (.leaf 0x1)) (.node 1 (.leaf 0x1) (.leaf 0x1))))) (.node 8 (.node 4 (.node 2 (.node 1 (.leaf 0x1) (.leaf 0x1)) (.node 1 (.leaf 0x1) (.leaf 0x1))) (.node 2 (.node 1 (.leaf 0x1) (.leaf 0x1)) (.node 1 (.leaf 0x1) (.leaf 0x1)))) (.node 4 (.node 2 (.node 1 (.leaf 0x1) (.leaf 0x1)) (.node 1 (.leaf 0x1) (.leaf 0x1))) (.node 2 (.node 1 (.leaf 0x1) (.leaf 0x1)) (.node 1 (.leaf 0x1) (.leaf 0x1)))))) (.node 16 (.node 8 (.node 4 (.node 2 (.node 1 (.leaf 0x1) (.leaf 0x1)) (.node 1 (.leaf 0x1) (.leaf 0x1))) (.node 2 (.node 1 (.leaf 0x1) (.leaf 0x1)) (.node 1 (.leaf 0x1) (.leaf 0x1)))) (.node 4 (.node 2 (.node 1 (.leaf 0x1) (.leaf 0x1)) (.node 1 (.leaf 0x1) (.leaf 0x1))) (.node 2 (.node 1 (.leaf 0x1) (.leaf 0x1)) (.node 1 (.leaf 0x1) (.leaf 0x1))))) (.node 8 (.node 4 (.node 2 (.node 1 (.leaf 0x1) (.leaf 0x1)) (.node 1 (.leaf 0x1) (.leaf 0x1))) (.node 2 (.node 1 (.leaf 0x1) (.leaf 0x1)) (.node 1 (.leaf 0x1) (.leaf 0x1)))) (.node 4 (.node 2 (.node 1 (.leaf 0x1) (.leaf 0x1)) (.node 1 (.leaf 0x1) (.leaf 0x1))) (.node 2 (.node 1 (.leaf 0x1) (.leaf 0x1)) (.node 1 (.leaf 0x1) (.leaf 0x1)))))))) (.node 64 (.node 32 (.node 16 (.node 8 (.node 4 (.node 2 (.node 1 (.leaf 0x1) (.leaf 0x1)) (.node 1 (.leaf 0x1) (.leaf 0x1))) (.node 2 (.node 1 (.leaf 0x1) (.leaf 0x1)) (.node 1 (.leaf 0x1) (.leaf 0x1)))) (.node 4 (.node 2 (.node 1 (.leaf 0x1) (.leaf 0x1)) (.node 1 (.leaf 0x1) (.leaf 0x1))) (.node 2 (.node 1 (.leaf 0x1) (.leaf 0x1)) (.node 1 (.leaf 0x1) (.leaf 0x1))))) (.node 8 (.node 4 (.node 2 (.node 1 (.leaf 0x1) (.leaf 0x1)) (.node 1 (.leaf 0x1) (.leaf 0x1))) (.node 2 (.node 1 (.leaf 0x1) (.leaf 0x1)) (.node 1 (.leaf 0x1) (.leaf 0x1)))) (.node 4 (.node 2 (.node 1 (.leaf 0x1) (.leaf 0x1)) (.node 1 (.leaf 0x1) (.leaf 0x1))) (.node 2 (.node 1 (.leaf 0x1) (.leaf 0x1)) (.node 1 (.leaf 0x1) (.leaf 0x1)))))) (.node 16 (.node 8 (.node 4 (.node 2 (.node 1 (.leaf 0x1) (.leaf 0x1)) (.node 1 (.leaf 0x1) (.leaf 0x1))) (.node 2 (.node 1 (.leaf 0x1) (.leaf 0x1)) (.node 1 (.leaf 0x1) (.leaf 0x1)))) (.node 4 (.node 2 (.node 1 (.leaf 0x1) (.leaf 0x1)) (.node 1 (.leaf 0x1) (.leaf 0x1))) (.node 2 (.node 1 (.leaf 0x1) (.leaf 0x1)) (.node 1 (.leaf 0x1) (.leaf 0x1))))) (.node 8 (.node 4 (.node 2 (.node 1 (.leaf 0x1) (.leaf 0x1)) (.node 1 (.leaf 0x1) (.leaf 0x1))) (.node 2 (.node 1 (.leaf 0x1) (.leaf 0x1)) (.node 1 (.leaf 0x1) (.leaf 0x1)))) (.node 4 (.node 2 (.node 1 (.leaf 0x1) (.leaf 0x1)) (.node 1 (.leaf 0x1) (.leaf 0x1))) (.node 2 (.node 1 (.leaf 0x1) (.leaf 0x1)) (.node 1 (.leaf 0x1) (.leaf 0x1))))))) (.node 32 (.node 16 (.node 8 (.node 4 (.node 2 (.node 1 (.leaf 0x1) (.leaf 0x1)) (.node 1 (.leaf 0x1) (.leaf 0x1))) (.node 2 (.node 1 (.leaf 0x1) (.leaf 0x1)) (.node 1 (.leaf 0x1) (.leaf 0x0)))) (.node 4 (.node 2 (.node 1 (.leaf 0x7) (.leaf 0x5)) (.node 1 (.leaf 0x4) (.leaf 0x4))) (.node 2 (.node 1 (.leaf 0x1) (.leaf 0x3)) (.node 1 (.leaf 0x2) (.leaf 0x3))))) (.node 8 (.node 4 (.node 2 (.node 1 (.leaf 0x1) (.leaf 0x6)) (.node 1 (.leaf 0x2) (.leaf 0x3))) (.node 2 (.node 1 (.leaf 0x9) (.leaf 0x2)) (.node 1 (.leaf 0x2) (.leaf 0x1)))) (.node 4 (.node 2 (.node 1 (.leaf 0x3) (.leaf 0x3)) (.node 1 (.leaf 0x8) (.leaf 0x3))) (.node 2 (.node 1 (.leaf 0xb) (.leaf 0x1)) (.node 1 (.leaf 0x7) (.leaf 0x6)))))) (.node 16 (.node 8 (.node 4 (.node 2 (.node 1 (.leaf 0x5) (.leaf 0x2)) (.node 1 (.leaf 0x1) (.leaf 0x1))) (.node 2 (.node 1 (.leaf 0x1) (.leaf 0x3)) (.node 1 (.leaf 0x2) (.leaf 0x6)))) (.node 4 (.node 2 (.node 1 (.leaf 0x5) (.leaf 0x4)) (.node 1 (.leaf 0x1) (.leaf 0xc))) (.node 2 (.node 1 (.leaf 0x6) (.leaf 0x5)) (.node 1 (.leaf 0x6) (.leaf 0x4))))) (.node 8 (.node 4 (.node 2 (.node 1 (.leaf 0xf) (.leaf 0x1)) (.node 1 (.leaf 0x10) (.leaf 0x9))) (.node 2 (.node 1 (.leaf 0x8) (.leaf 0x16)) (.node 1 (.leaf 0x12) (.leaf 0x11)))) (.node 4 (.node 2 (.node 1 (.leaf 0x17) (.leaf 0x14)) (.node 1 (.leaf 0x4) (.leaf 0x2))) (.node 2 (.node 1 (.leaf 0x1) (.leaf 0x10)) (.node 1 (.leaf 0x1) (.leaf 0x9))))))))) (.node 128 (.node 64 (.node 32 (.node 16 (.node 8 (.node 4 (.node 2 (.node 1 (.leaf 0x1) (.leaf 0x9)) (.node 1 (.leaf 0x1) (.leaf 0x1))) (.node 2 (.node 1 (.leaf 0x1) (.leaf 0x1)) (.node 1 (.leaf 0x9) (.leaf 0x8)))) (.node 4 (.node 2 (.node 1 (.leaf 0x1) (.leaf 0x1)) (.node 1 (.leaf 0x1) (.leaf 0x1))) (.node 2 (.node 1 (.leaf 0x8) (.leaf 0x1)) (.node 1 (.leaf 0x6) (.leaf 0x5))))) (.node 8 (.node 4 (.node 2 (.node 1 (.leaf 0x4) (.leaf 0x7)) (.node 1 (.leaf 0x5) (.leaf 0x4))) (.node 2 (.node 1 (.leaf 0x3) (.leaf 0x0)) (.node 1 (.leaf 0x0) (.leaf 0x0)))) (.node 4 (.node 2 (.node 1 (.leaf 0x0) (.leaf 0x10)) (.node 1 (.leaf 0xd) (.leaf 0x18))) (.node 2 (.node 1 (.leaf 0x0) (.leaf 0x5)) (.node 1 (.leaf 0x1) (.leaf 0x1)))))) (.node 16 (.node 8 (.node 4 (.node 2 (.node 1 (.leaf 0x1) (.leaf 0x2)) (.node 1 (.leaf 0x2) (.leaf 0xc))) (.node 2 (.node 1 (.leaf 0xc) (.leaf 0x2)) (.node 1 (.leaf 0x2) (.leaf 0x3)))) (.node 4 (.node 2 (.node 1 (.leaf 0xc) (.leaf 0x0)) (.node 1 (.leaf 0x0) (.leaf 0x2))) (.node 2 (.node 1 (.leaf 0x3) (.leaf 0x2)) (.node 1 (.leaf 0x2) (.leaf 0x2))))) (.node 8 (.node 4 (.node 2 (.node 1 (.leaf 0x2) (.leaf 0x2)) (.node 1 (.leaf 0x3) (.leaf 0x3))) (.node 2 (.node 1 (.leaf 0x2) (.leaf 0x7)) (.node 1 (.leaf 0x6) (.leaf 0x5)))) (.node 4 (.node 2 (.node 1 (.leaf 0x7) (.leaf 0x4)) (.node 1 (.leaf 0x3) (.leaf 0x2))) (.node 2 (.node 1 (.leaf 0x1) (.leaf 0x3)) (.node 1 (.leaf 0x1) (.leaf 0x2))))))) (.node 32 (.node 16 (.node 8 (.node 4 (.node 2 (.node 1 (.leaf 0x1) (.leaf 0x1)) (.node 1 (.leaf 0x6) (.leaf 0x5))) (.node 2 (.node 1 (.leaf 0x2) (.leaf 0x1)) (.node 1 (.leaf 0x1) (.leaf 0x1d)))) (.node 4 (.node 2 (.node 1 (.leaf 0x1b) (.leaf 0x1a)) (.node 1 (.leaf 0x14) (.leaf 0x1))) (.node 2 (.node 1 (.leaf 0x6) (.leaf 0x1)) (.node 1 (.leaf 0x2) (.leaf 0x0))))) (.node 8 (.node 4 (.node 2 (.node 1 (.leaf 0x0) (.leaf 0x0)) (.node 1 (.leaf 0x0) (.leaf 0x0))) (.node 2 (.node 1 (.leaf 0x0) (.leaf 0x0)) (.node 1 (.leaf 0x0) (.leaf 0x0)))) (.node 4 (.node 2 (.node 1 (.leaf 0x0) (.leaf 0x0)) (.node 1 (.leaf 0x0) (.leaf 0x0))) (.node 2 (.node 1 (.leaf 0x0) (.leaf 0x0)) (.node 1 (.leaf 0x0) (.leaf 0x0)))))) (.node 16 (.node 8 (.node 4 (.node 2 (.node 1 (.leaf 0x0) (.leaf 0x0)) (.node 1 (.leaf 0x0) (.leaf 0x0))) (.node 2 (.node 1 (.leaf 0x0) (.leaf 0x0)) (.node 1 (.leaf 0x0) (.leaf 0x0)))) (.node 4 (.node 2 (.node 1 (.leaf 0x0) (.leaf 0x0)) (.node 1 (.leaf 0x0) (.leaf 0x0))) (.node 2 (.node 1 (.leaf 0x0) (.leaf 0x0)) (.node 1 (.leaf 0x0) (.leaf 0x0))))) (.node 8 (.node 4 (.node 2 (.node 1 (.leaf 0x0) (.leaf 0x0)) (.node 1 (.leaf 0x0) (.leaf 0x0))) (.node 2 (.node 1 (.leaf 0x0) (.leaf 0x0)) (.node 1 (.leaf 0x0) (.leaf 0x0)))) (.node 4 (.node 2 (.node 1 (.leaf 0x0) (.leaf 0x0)) (.node 1 (.leaf 0x0) (.leaf 0x0))) (.node 2 (.node 1 (.leaf 0x0) (.leaf 0x0)) (.node 1 (.leaf 0x0) (.leaf 0x0)))))))) (.node 64 (.node 32 (.node 16 (.node 8 (.node 4 (.node 2 (.node 1 (.leaf 0x0) (.leaf 0x0)) (.node 1 (.leaf 0x0) (.leaf 0x0))) (.node 2 (.node 1 (.leaf 0x0) (.leaf 0x0)) (.node 1 (.leaf 0x0) (.leaf 0x0)))) (.node 4 (.node 2 (.node 1 (.leaf 0x0) (.leaf 0x0)) (.node 1 (.leaf 0x0) (.leaf 0x0))) (.node 2 (.node 1 (.leaf 0x0) (.leaf 0x0)) (.node 1 (.leaf 0x0) (.leaf 0x0))))) (.node 8 (.node 4 (.node 2 (.node 1 (.leaf 0x0) (.leaf 0x0)) (.node 1 (.leaf 0x0) (.leaf 0x0))) (.node 2 (.node 1 (.leaf 0x0) (.leaf 0x0)) (.node 1 (.leaf 0x0) (.leaf 0x0)))) (.node 4 (.node 2 (.node 1 (.leaf 0x0) (.leaf 0x0)) (.node 1 (.leaf 0x0) (.leaf 0x0))) (.node 2 (.node 1 (.leaf 0x0) (.leaf 0x0)) (.node 1 (.leaf 0x0) (.leaf 0x0)))))) (.node 16 (.node 8 (.node 4 (.node 2 (.node 1 (.leaf 0x0) (.leaf 0x0)) (.node 1 (.leaf 0x0) (.leaf 0x0))) (.node 2 (.node 1 (.leaf 0x0) (.leaf 0x0)) (.node 1 (.leaf 0x0) (.leaf 0x0)))) (.node 4 (.node 2 (.node 1 (.leaf 0x0) (.leaf 0x0)) (.node 1 (.leaf 0x0) (.leaf 0x0))) (.node 2 (.node 1 (.leaf 0x0) (.leaf 0x0)) (.node 1 (.leaf 0x0) (.leaf 0x0))))) (.node 8 (.node 4 (.node 2 (.node 1 (.leaf 0x0) (.leaf 0x0)) (.node 1 (.leaf 0x0) (.leaf 0x0))) (.node 2 (.node 1 (.leaf 0x0) (.leaf 0x0)) (.node 1 (.leaf 0x0) (.leaf 0x0)))) (.node 4 (.node 2 (.node 1 (.leaf 0x0) (.leaf 0x0)) (.node 1 (.leaf 0x0) (.leaf 0x0))) (.node 2 (.node 1 (.leaf 0x0) (.leaf 0x0)) (.node 1 (.leaf 0x0) (.leaf 0x0))))))) (.node 32 (.node 16 (.node 8 (.node 4 (.node 2 (.node 1 (.leaf 0x0) (.leaf 0x0)) (.node 1 (.leaf 0x0) (.leaf 0x0))) (.node 2 (.node 1 (.leaf 0x0) (.leaf 0x0)) (.node 1 (.leaf 0x0) (.leaf 0x0)))) (.node 4 (.node 2 (.node 1 (.leaf 0x0) (.leaf 0x0)) (.node 1 (.leaf 0x0) (.leaf 0x0))) (.node 2 (.node 1 (.leaf 0x0) (.leaf 0x0)) (.node 1 (.leaf 0x0) (.leaf 0x0))))) (.node 8 (.node 4 (.node 2 (.node 1 (.leaf 0x0) (.leaf 0x0)) (.node 1 (.leaf 0x0) (.leaf 0x0))) (.node 2 (.node 1 (.leaf 0x0) (.leaf 0x0)) (.node 1 (.leaf 0x0) (.leaf 0x0)))) (.node 4 (.node 2 (.node 1 (.leaf 0x0) (.leaf 0x0)) (.node 1 (.leaf 0x0) (.leaf 0x0))) (.node 2 (.node 1 (.leaf 0x0) (.leaf 0x0)) (.node 1 (.leaf 0x0) (.leaf 0x0)))))) (.node 16 (.node 8 (.node 4 (.node 2 (.node 1 (.leaf 0x0) (.leaf 0x0)) (.node 1 (.leaf 0x0) (.leaf 0x0))) (.node 2 (.node 1 (.leaf 0x0) (.leaf 0x0)) (.node 1 (.leaf 0x0) (.leaf 0x0)))) (.node 4 (.node 2 (.node 1 (.leaf 0x0) (.leaf 0x0)) (.node 1 (.leaf 0x0) (.leaf 0x0))) (.node 2 (.node 1 (.leaf 0x0) (.leaf 0x0)) (.node 1 (.leaf 0x0) (.leaf 0x0))))) (.node 8 (.node 4 (.node 2 (.node 1 (.leaf 0x0) (.leaf 0x0)) (.node 1 (.leaf 0x0) (.leaf 0x0))) (.node 2 (.node 1 (.leaf 0x0) (.leaf 0x0)) (.node 1 (.leaf 0x0) (.leaf 0x0)))) (.node 4 (.node 2 (.node 1 (.leaf 0x0) (.leaf 0x0)) (.node 1 (.leaf 0x0) (.leaf 0x0))) (.node 2 (.node 1 (.leaf 0x0) (.leaf 0x0)) (.node 1 (.leaf 0x0) (.leaf 0x0))))))))))
def beT : BT Nat := (.node 256 (.node 128 (.node 64 (.node 32 (.node 16 (.node 8 (.node 4 (.node 2 (.node 1 (.leaf 0x0) (.leaf 0x0)) (.node 1 (.leaf 0x0) (.leaf 0x0))) (.node 2 (.node 1 (.leaf 0x0) (.leaf 0x0)) (.node 1 (.leaf 0x0) (.leaf 0x0)))) (.node 4 (.node 2 (.node 1 (.leaf 0x0) (.leaf 0x0)) (.node 1 (.leaf 0x0) (.leaf 0x0))) (.node 2 (.node 1 (.leaf 0x0) (.leaf 0x0)) (.node 1 (.leaf 0x0) (.leaf 0x0))))) (.node 8 (.node 4 (.node 2 (.node 1 (.leaf 0x0) (.leaf 0x0)) (.node 1 (.leaf 0x0) (.leaf 0x0))) (.node 2 (.node 1 (.leaf 0x0) (.leaf 0x0)) (.node 1 (.leaf 0x0) (.leaf 0x0)))) (.node 4 (.node 2 (.node 1 (.leaf 0x0) (.leaf 0x0)) (.node 1 (.leaf 0x0) (.leaf 0x0))) (.node 2 (.node 1 (.leaf 0x0) (.leaf 0x0)) (.node 1 (.leaf 0x0) (.leaf 0x0)))))) (.node 16 (.node 8 (.node 4 (.node 2 (.node 1 (.leaf 0x0) (.leaf 0x0)) (.node 1 (.leaf 0x0) (.leaf 0x0))) (.node 2 (.node 1 (.leaf 0x0) (.leaf 0x0)) (.node 1 (.leaf 0x0) (.leaf 0x0)))) (.node 4 (.node 2 (.node 1 (.leaf 0x0) (.leaf 0x0)) (.node 1 (.leaf 0x0) (.leaf 0x0))) (.node 2 (.node 1 (.leaf 0x0) (.leaf 0x0)) (.node 1 (.leaf 0x0) (.leaf 0x0))))) (.node 8 (.node 4 (.node 2 (.node 1 (.leaf 0x0) (.leaf 0x0)) (.node 1 (.leaf 0x0) (.leaf 0x0))) (.node 2 (.node 1 (.leaf 0x0) (.leaf 0x0)) (.node 1 (.leaf 0x0) (.leaf 0x0)))) (.node 4 (.node 2 (.node 1 (.leaf 0x0) (.leaf 0x0)) (.node 1 (.leaf 0x0) (.leaf 0x0))) (.node 2 (.node 1 (.leaf 0x0) (.leaf 0x0)) (.node 1 (.leaf 0x0) (.leaf 0x0))))))) (.node 32 (.node 16 (.node 8 (.node 4 (.node 2 (.node 1 (.leaf 0x0) (.leaf 0x0)) (.node 1 (.leaf 0x0) (.leaf 0x0))) (.node 2 (.node 1 (.leaf 0x0) (.leaf 0x0)) (.node 1 (.leaf 0x0) (.leaf 0x0)))) (.node 4 (.node 2 (.node 1 (.leaf 0x0) (.leaf 0x0)) (.node 1 (.leaf 0x0) (.leaf 0x0))) (.node 2 (.node 1 (.leaf 0x0) (.leaf 0x0)) (.node 1 (.leaf 0x0) (.leaf 0x0))))) (.node 8 (.node 4 (.node 2 (.node 1 (.leaf 0x0) (.leaf 0x0)) (.node 1 (.leaf 0x0) (.leaf 0x0))) (.node 2 (.node 1 (.leaf 0x0) (.leaf 0x0)) (.node 1 (.leaf 0x0) (.leaf 0x0)))) (.node 4 (.node 2 (.node 1 (.leaf 0x0) (.leaf 0x0)) (.node 1 (.leaf 0x0) (.leaf 0x0))) (.node 2 (.node 1 (.leaf 0x0) (.leaf 0x0)) (.node 1 (.leaf 0x0) (.leaf 0x0)))))) (.node 16 (.node 8 (.node 4 (.node 2 (.node 1 (.leaf 0x0) (.leaf 0x0)) (.node 1 (.leaf 0x0) (.leaf 0x0))) (.node 2 (.node 1 (.leaf 0x0) (.leaf 0x0)) (.node 1 (.leaf 0x0) (.leaf 0x0)))) (.node 4 (.node 2 (.node 1 (.leaf 0x0) (.leaf 0x0)) (.node 1 (.leaf 0x0) (.leaf 0x0))) (.node 2 (.node 1 (.leaf 0x0) (.leaf 0x0)) (.node 1 (.leaf 0x0) (.leaf 0x0))))) (.node 8 (.node 4 (.node 2 (.node 1 (.leaf 0x0) (.leaf 0x0)) (.node 1 (.leaf 0x0) (.leaf 0x0))) (.node 2 (.node 1 (.leaf 0x0) (.leaf 0x0)) (.node 1 (.leaf 0x0) (.leaf 0x0)))) (.node 4 (.node 2 (.node 1 (.leaf 0x0) (.leaf 0x0)) (.node 1 (.leaf 0x0) (.leaf 0x0))) (.node 2 (.node 1 (.leaf 0x0) (.leaf 0x0)) (.node 1 (.leaf 0x0) (.leaf 0x0)))))))) (.node 64 (.node 32 (.node 16 (.node 8 (.node 4 (.node 2 (.node 1 (.leaf 0x0) (.leaf 0x0)) (.node 1 (.leaf 0x0) (.leaf 0x0))) (.node 2 (.node 1 (.leaf 0x0) (.leaf 0x0)) (.node 1 (.leaf 0x0) (.leaf 0x0)))) (.node 4 (.node 2 (.node 1 (.leaf 0x0) (.leaf 0x0)) (.node 1 (.leaf 0x0) (.leaf 0x0))) (.node 2 (.node 1 (.leaf 0x0) (.leaf 0x0)) (.node 1 (.leaf 0x0) (.leaf 0x0))))) (.node 8 (.node 4 (.node 2 (.node 1 (.leaf 0x0) (.leaf 0x0)) (.node 1 (.leaf 0x0) (.leaf 0x0))) (.node 2 (.node 1 (.leaf 0x0) (.leaf 0x0)) (.node 1 (.leaf 0x0) (.leaf 0x0)))) (.node 4 (.node 2 (.node 1 (.leaf 0x0) (.leaf 0x0)) (.node 1 (.leaf 0x0) (.leaf 0x0))) (.node 2 (.node 1 (.leaf 0x0) (.leaf 0x0)) (.node 1 (.leaf 0x0) (.leaf 0x0)))))) (.node 16 (.node 8 (.node 4 (.node 2 (.node 1 (.leaf 0x0) (.leaf 0x0)) (.node 1 (.leaf 0x0) (.leaf 0x0))) (.node 2 (.node 1 (.leaf 0x0) (.leaf 0x0)) (.node 1 (.leaf 0x0) (.leaf 0x0)))) (.node 4 (.node 2 (.node 1 (.leaf 0x0) (.leaf 0x0)) (.node 1 (.leaf 0x0) (.leaf 0x0))) (.node 2 (.node 1 (.leaf 0x0) (.leaf 0x0)) (.node 1 (.leaf 0x0) (.leaf 0x0))))) (.node 8 (.node 4 (.node 2 (.node 1 (.leaf 0x0) (.leaf 0x0)) (.node 1 (.leaf 0x0) (.leaf 0x0))) (.node 2 (.node 1 (.leaf 0x0) (.leaf 0x0)) (.node 1 (.leaf 0x0) (.leaf 0x0)))) (.node 4 (.node 2 (.node 1 (.leaf 0x0) (.leaf 0x0)) (.node 1 (.leaf 0x0) (.leaf 0x0))) (.node 2 (.node 1 (.leaf 0x0) (.leaf 0x0)) (.node 1 (.leaf 0x0) (.leaf 0x0))))))) (.node 32 (.node 16 (.node 8 (.node 4 (.node 2 (.node 1 (.leaf 0x0) (.leaf 0x0)) (.node 1 (.leaf 0x0) (.leaf 0x0))) (.node 2 (.node 1 (.leaf 0x0) (.leaf 0x0)) (.node 1 (.leaf 0x0) (.leaf 0x0)))) (.node 4 (.node 2 (.node 1 (.leaf 0x2) (.leaf 0x3)) (.node 1 (.leaf 0x7) (.leaf 0x12))) (.node 2 (.node 1 (.leaf 0x15) (.leaf 0x16)) (.node 1 (.leaf 0x18) (.leaf 0x1a))))) (.node 8 (.node 4 (.node 2 (.node 1 (.leaf 0x1e) (.leaf 0x1f)) (.node 1 (.leaf 0x20) (.leaf 0x21))) (.node 2 (.node 1 (.leaf 0x24) (.leaf 0x25)) (.node 1 (.leaf 0x26) (.leaf 0x29)))) (.node 4 (.node 2 (.node 1 (.leaf 0x2d) (.leaf 0x30)) (.node 1 (.leaf 0x32) (.leaf 0x34))) (.node 2 (.node 1 (.leaf 0x37) (.leaf 0x3d)) (.node 1 (.leaf 0x3e) (.leaf 0x40)))))) (.node 16 (.node 8 (.node 4 (.node 2 (.node 1 (.leaf 0x42) (.leaf 0x43)) (.node 1 (.leaf 0x56) (.leaf 0x59))) (.node 2 (.node 1 (.leaf 0x5b) (.leaf 0x5c)) (.node 1 (.leaf 0x61) (.leaf 0x65)))) (.node 4 (.node 2 (.node 1 (.leaf 0x67) (.leaf 0x6a)) (.node 1 (.leaf 0x6d) (.leaf 0x6e))) (.node 2 (.node 1 (.leaf 0x6f) (.leaf 0x70)) (.node 1 (.leaf 0x71) (.leaf 0x72))))) (.node 8 (.node 4 (.node 2 (.node 1 (.leaf 0x73) (.leaf 0x76)) (.node 1 (.leaf 0x77) (.leaf 0x78))) (.node 2 (.node 1 (.leaf 0x7a) (.leaf 0x7c)) (.node 1 (.leaf 0x7f) (.leaf 0x80)))) (.node 4 (.node 2 (.node 1 (.leaf 0x82) (.leaf 0x84)) (.node 1 (.leaf 0x86) (.leaf 0x87))) (.node 2 (.node 1 (.leaf 0x8b) (.leaf 0x8c)) (.node 1 (.leaf 0x8e) (.leaf 0x8f))))))))) (.node 128 (.node 64 (.node 32 (.node 16 (.node 8 (.node 4 (.node 2 (.node 1 (.leaf 0x91) (.leaf 0x92)) (.node 1 (.leaf 0x94) (.leaf 0x96))) (.node 2 (.node 1 (.leaf 0x98) (.leaf 0x9a)) (.node 1 (.leaf 0x9b) (.leaf 0x9d)))) (.node 4 (.node 2 (.node 1 (.leaf 0xa0) (.leaf 0xa1)) (.node 1 (.leaf 0xa4) (.leaf 0xaa))) (.node 2 (.node 1 (.leaf 0xab) (.leaf 0xae)) (.node 1 (.leaf 0xaf) (.leaf 0xb1))))) (.node 8 (.node 4 (.node 2 (.node 1 (.leaf 0xb4) (.leaf 0xb6)) (.node 1 (.leaf 0xb7) (.leaf 0xbe))) (.node 2 (.node 1 (.leaf 0xc7) (.leaf 0x0)) (.node 1 (.leaf 0x0) (.leaf 0x0)))) (.node 4 (.node 2 (.node 1 (.leaf 0x0) (.leaf 0xe1)) (.node 1 (.leaf 0xe3) (.leaf 0xe5))) (.node 2 (.node 1 (.leaf 0x0) (.leaf 0xee)) (.node 1 (.leaf 0xf3) (.leaf 0xf5)))))) (.node 16 (.node 8 (.node 4 (.node 2 (.node 1 (.leaf 0xf8) (.leaf 0xf9)) (.node 1 (.leaf 0x100) (.leaf 0x101))) (.node 2 (.node 1 (.leaf 0x102) (.leaf 0x103)) (.node 1 (.leaf 0x109) (.leaf 0x10f)))) (.node 4 (.node 2 (.node 1 (.leaf 0x111) (.leaf 0x0)) (.node 1 (.leaf 0x0) (.leaf 0x114))) (.node 2 (.node 1 (.leaf 0x118) (.leaf 0x11f)) (.node 1 (.leaf 0x120) (.leaf 0x122))))) (.node 8 (.node 4 (.node 2 (.node 1 (.leaf 0x124) (.leaf 0x125)) (.node 1 (.leaf 0x126) (.leaf 0x129))) (.node 2 (.node 1 (.leaf 0x12a) (.leaf 0x12b)) (.node 1 (.leaf 0x12d) (.leaf 0x12f)))) (.node 4 (.node 2 (.node 1 (.leaf 0x131) (.leaf 0x133)) (.node 1 (.leaf 0x134) (.leaf 0x135))) (.node 2 (.node 1 (.leaf 0x138) (.leaf 0x139)) (.node 1 (.leaf 0x13c) (.leaf 0x13e))))))) (.node 32 (.node 16 (.node 8 (.node 4 (.node 2 (.node 1 (.leaf 0x140) (.leaf 0x142)) (.node 1 (.leaf 0x143) (.leaf 0x145))) (.node 2 (.node 1 (.leaf 0x147) (.leaf 0x14d)) (.node 1 (.leaf 0x14f) (.leaf 0x150)))) (.node 4 (.node 2 (.node 1 (.leaf 0x151) (.leaf 0x153)) (.node 1 (.leaf 0x156) (.leaf 0x160))) (.node 2 (.node 1 (.leaf 0x161) (.leaf 0x163)) (.node 1 (.leaf 0x164) (.leaf 0x0))))) (.node 8 (.node 4 (.node 2 (.node 1 (.leaf 0x0) (.leaf 0x0)) (.node 1 (.leaf 0x0) (.leaf 0x0))) (.node 2 (.node 1 (.leaf 0x0) (.leaf 0x0)) (.node 1 (.leaf 0x0) (.leaf 0x0)))) (.node 4 (.node 2 (.node 1 (.leaf 0x0) (.leaf 0x0)) (.node 1 (.leaf 0x0) (.leaf 0x0))) (.node 2 (.node 1 (.leaf 0x0) (.leaf 0x0)) (.node 1 (.leaf 0x0) (.leaf 0x0)))))) (.node 16 (.node 8 (.node 4 (.node 2 (.node 1 (.leaf 0x0) (.leaf 0x0)) (.node 1 (.leaf 0x0) (.leaf 0x0))) (.node 2 (.node 1 (.leaf 0x0) (.leaf 0x0)) (.node 1 (.leaf 0x0) (.leaf 0x0)))) (.node 4 (.node 2 (.node 1 (.leaf 0x0) (.leaf 0x0)) (.node 1 (.leaf 0x0) (.leaf 0x0))) (.node 2 (.node 1 (.leaf 0x0) (.leaf 0x0)) (.node 1 (.leaf 0x0) (.leaf 0x0))))) (.node 8 (.node 4 (.node 2 (.node 1 (.leaf 0x0) (.leaf 0x0)) (.node 1 (.leaf 0x0) (.leaf 0x0))) (.node 2 (.node 1 (.leaf 0x0) (.leaf 0x0)) (.node 1 (.leaf 0x0) (.leaf 0x0)))) (.node 4 (.node 2 (.node 1 (.leaf 0x0) (.leaf 0x0)) (.node 1 (.leaf 0x0) (.leaf 0x0))) (.node 2 (.node 1 (.leaf 0x0) (.leaf 0x0)) (.node 1 (.leaf 0x0) (.leaf 0x0)))))))) (.node 64 (.node 32 (.node 16 (.node 8 (.node 4 (.node 2 (.node 1 (.leaf 0x0) (.leaf 0x0)) (.node 1 (.leaf 0x0) (.leaf 0x0))) (.node 2 (.node 1 (.leaf 0x0) (.leaf 0x0)) (.node 1 (.leaf 0x0) (.leaf 0x0)))) (.node 4 (.node 2 (.node 1 (.leaf 0x0) (.leaf 0x0)) (.node 1 (.leaf 0x0) (.leaf 0x0))) (.node 2 (.node 1 (.leaf 0x0) (.leaf 0x0)) (.node 1 (.leaf 0x0) (.leaf 0x0))))) (.node 8 (.node 4 (.node 2 (.node 1 (.leaf 0x0) (.leaf 0x0)) (.node 1 (.leaf 0x0) (.leaf 0x0))) (.node 2 (.node 1 (.leaf 0x0) (.leaf 0x0)) (.node 1 (.leaf 0x0) (.leaf 0x0)))) (.node 4 (.node 2 (.node 1 (.leaf 0x0) (.leaf 0x0)) (.node 1 (.leaf 0x0) (.leaf 0x0))) (.node 2 (.node 1 (.leaf 0x0) (.leaf 0x0)) (.node 1 (.leaf 0x0) (.leaf 0x0)))))) (.node 16 (.node 8 (.node 4 (.node 2 (.node 1 (.leaf 0x0) (.leaf 0x0)) (.node 1 (.leaf 0x0) (.leaf 0x0))) (.node 2 (.node 1 (.leaf 0x0) (.leaf 0x0)) (.node 1 (.leaf 0x0) (.leaf 0x0)))) (.node 4 (.node 2 (.node 1 (.leaf 0x0) (.leaf 0x0)) (.node 1 (.leaf 0x0) (.leaf 0x0))) (.node 2 (.node 1 (.leaf 0x0) (.leaf 0x0)) (.node 1 (.leaf 0x0) (.leaf 0x0))))) (.node 8 (.node 4 (.node 2 (.node 1 (.leaf 0x0) (.leaf 0x0)) (.node 1 (.leaf 0x0) (.leaf 0x0))) (.node 2 (.node 1 (.leaf 0x0) (.leaf 0x0)) (.node 1 (.leaf 0x0) (.leaf 0x0)))) (.node 4 (.node 2 (.node 1 (.leaf 0x0) (.leaf 0x0)) (.node 1 (.leaf 0x0) (.leaf 0x0))) (.node 2 (.node 1 (.leaf 0x0) (.leaf 0x0)) (.node 1 (.leaf 0x0) (.leaf 0x0))))))) (.node 32 (.node 16 (.node 8 (.node 4 (.node 2 (.node 1 (.leaf 0x0) (.leaf 0x0)) (.node 1 (.leaf 0x0) (.leaf 0x0))) (.node 2 (.node 1 (.leaf 0x0) (.leaf 0x0)) (.node 1 (.leaf 0x0) (.leaf 0x0)))) (.node 4 (.node 2 (.node 1 (.leaf 0x0) (.leaf 0x0)) (.node 1 (.leaf 0x0) (.leaf 0x0))) (.node 2 (.node 1 (.leaf 0x0) (.leaf 0x0)) (.node 1 (.leaf 0x0) (.leaf 0x0))))) (.node 8 (.node 4 (.node 2 (.node 1 (.leaf 0x0) (.leaf 0x0)) (.node 1 (.leaf 0x0) (.leaf 0x0))) (.node 2 (.node 1 (.leaf 0x0) (.leaf 0x0)) (.node 1 (.leaf 0x0) (.leaf 0x0)))) (.node 4 (.node 2 (.node 1 (.leaf 0x0) (.leaf 0x0)) (.node 1 (.leaf 0x0) (.leaf 0x0))) (.node 2 (.node 1 (.leaf 0x0) (.leaf 0x0)) (.node 1 (.leaf 0x0) (.leaf 0x0)))))) (.node 16 (.node 8 (.node 4 (.node 2 (.node 1 (.leaf 0x0) (.leaf 0x0)) (.node 1 (.leaf 0x0) (.leaf 0x0))) (.node 2 (.node 1 (.leaf 0x0) (.leaf 0x0)) (.node 1 (.leaf 0x0) (.leaf 0x0)))) (.node 4 (.node 2 (.node 1 (.leaf 0x0) (.leaf 0x0)) (.node 1 (.leaf 0x0) (.leaf 0x0))) (.node 2 (.node 1 (.leaf 0x0) (.leaf 0x0)) (.node 1 (.leaf 0x0) (.leaf 0x0))))) (.node 8 (.node 4 (.node 2 (.node 1 (.leaf 0x0) (.leaf 0x0)) (.node 1 (.leaf 0x0) (.leaf 0x0))) (.node 2 (.node 1 (.leaf 0x0) (.leaf 0x0)) (.node 1 (.leaf 0x0) (.leaf 0x0)))) (.node 4 (.node 2 (.node 1 (.leaf 0x0) (.leaf 0x0)) (.node 1 (.leaf 0x0) (.leaf 0x0))) (.node 2 (.node 1 (.leaf 0x0) (.leaf 0x0)) (.node 1 (.leaf 0x0) (.leaf 0x0))))))))))
def ftT : BT Nat := (.node 256 (.node 128 (.node 64 (.node 32 (.node 16 (.node 8 (.node 4 (.node 2 (.node 1 (.leaf 0x1) (.leaf 0x2)) (.node 1 (.leaf 0x3) (.leaf 0x4))) (.node 2 (.node 1 (.leaf 0x5) (.leaf 0x6)) (.node 1 (.leaf 0x7) (.leaf 0x8)))) (.node 4 (.node 2 (.node 1 (.leaf 0x9) (.leaf 0xa)) (.node 1 (.leaf 0xb) (.leaf 0xc))) (.node 2 (.node 1 (.leaf 0xd) (.leaf 0xe)) (.node 1 (.leaf 0xf) (.leaf 0x10))))) (.node 8 (.node 4 (.node 2 (.node 1 (.leaf 0x11) (.leaf 0x12)) (.node 1 (.leaf 0x13) (.leaf 0x14))) (.node 2 (.node 1 (.leaf 0x15) (.leaf 0x16)) (.node 1 (.leaf 0x17) (.leaf 0x18)))) (.node 4 (.node 2 (.node 1 (.leaf 0x19) (.leaf 0x1a)) (.node 1 (.leaf 0x1b) (.leaf 0x1c))) (.node 2 (.node 1 (.leaf 0x1d) (.leaf 0x1e)) (.node 1 (.leaf 0x1f) (.leaf 0x20)))))) (.node 16 (.node 8 (.node 4 (.node 2 (.node 1 (.leaf 0x21) (.leaf 0x22)) (.node 1 (.leaf 0x23) (.leaf 0x24))) (.node 2 (.node 1 (.leaf 0x25) (.leaf 0x26)) (.node 1 (.leaf 0x27) (.leaf 0x28)))) (.node 4 (.node 2 (.node 1 (.leaf 0x29) (.leaf 0x2a)) (.node 1 (.leaf 0x2b) (.leaf 0x2c))) (.node 2 (.node 1 (.leaf 0x2d) (.leaf 0x2e)) (.node 1 (.leaf 0x2f) (.leaf 0x30))))) (.node 8 (.node 4 (.node 2 (.node 1 (.leaf 0x31) (.leaf 0x32)) (.node 1 (.leaf 0x33) (.leaf 0x34))) (.node 2 (.node 1 (.leaf 0x35) (.leaf 0x36)) (.node 1 (.leaf 0x37) (.leaf 0x38)))) (.node 4 (.node 2 (.node 1 (.leaf 0x39) (.leaf 0x3a)) (.node 1 (.leaf 0x3b) (.leaf 0x3c))) (.node 2 (.node 1 (.leaf 0x3d) (.leaf 0x3e)) (.node 1 (.leaf 0x3f) (.leaf 0x40))))))) (.node 32 (.node 16 (.node 8 (.node 4 (.node 2 (.node 1 (.leaf 0x41) (.leaf 0x42)) (.node 1 (.leaf 0x43) (.leaf 0x44))) (.node 2 (.node 1 (.leaf 0x45) (.leaf 0x46)) (.node 1 (.leaf 0x47) (.leaf 0x48)))) (.node 4 (.node 2 (.node 1 (.leaf 0x49) (.leaf 0x4a)) (.node 1 (.leaf 0x4b) (.leaf 0x4c))) (.node 2 (.node 1 (.leaf 0x4d) (.leaf 0x4e)) (.node 1 (.leaf 0x4f) (.leaf 0x50))))) (.node 8 (.node 4 (.node 2 (.node 1 (.leaf 0x51) (.leaf 0x52)) (.node 1 (.leaf 0x53) (.leaf 0x54))) (.node 2 (.node 1 (.leaf 0x55) (.leaf 0x56)) (.node 1 (.leaf 0x57) (.leaf 0x58)))) (.node 4 (.node 2 (.node 1 (.leaf 0x59) (.leaf 0x5a)) (.node 1 (.leaf 0x5b) (.leaf 0x5c))) (.node 2 (.node 1 (.leaf 0x5d) (.leaf 0x5e)) (.node 1 (.leaf 0x5f) (.leaf 0x60)))))) (.node 16 (.node 8 (.node 4 (.node 2 (.node 1 (.leaf 0x61) (.leaf 0x62)) (.node 1 (.leaf 0x63) (.leaf 0x64))) (.node 2 (.node 1 (.leaf 0x65) (.leaf 0x66)) (.node 1 (.leaf 0x67) (.leaf 0x68)))) (.node 4 (.node 2 (.node 1 (.leaf 0x69) (.leaf 0x6a)) (.node 1 (.leaf 0x6b) (.leaf 0x6c))) (.node 2 (.node 1 (.leaf 0x6d) (.leaf 0x6e)) (.node 1 (.leaf 0x6f) (.leaf 0x70))))) (.node 8 (.node 4 (.node 2 (.node 1 (.leaf 0x71) (.leaf 0x72)) (.node 1 (.leaf 0x73) (.leaf 0x74))) (.node 2 (.node 1 (.leaf 0x75) (.leaf 0x76)) (.node 1 (.leaf 0x77) (.leaf 0x78)))) (.node 4 (.node 2 (.node 1 (.leaf 0x79) (.leaf 0x7a)) (.node 1 (.leaf 0x7b) (.leaf 0x7c))) (.node 2 (.node 1 (.leaf 0x7d) (.leaf 0x7e)) (.node 1 (.leaf 0x7f) (.leaf 0x80)))))))) (.node 64 (.node 32 (.node 16 (.node 8 (.node 4 (.node 2 (.node 1 (.leaf 0x81) (.leaf 0x82)) (.node 1 (.leaf 0x83) (.leaf 0x84))) (.node 2 (.node 1 (.leaf 0x85) (.leaf 0x86)) (.node 1 (.leaf 0x87) (.leaf 0x88)))) (.node 4 (.node 2 (.node 1 (.leaf 0x89) (.leaf 0x8a)) (.node 1 (.leaf 0x8b) (.leaf 0x8c))) (.node 2 (.node 1 (.leaf 0x8d) (.leaf 0x8e)) (.node 1 (.leaf 0x8f) (.leaf 0x90))))) (.node 8 (.node 4 (.node 2 (.node 1 (.leaf 0x91) (.leaf 0x92)) (.node 1 (.leaf 0x93) (.leaf 0x94))) (.node 2 (.node 1 (.leaf 0x95) (.leaf 0x96)) (.node 1 (.leaf 0x97) (.leaf 0x98)))) (.node 4 (.node 2 (.node 1 (.leaf 0x99) (.leaf 0x9a)) (.node 1 (.leaf 0x9b) (.leaf 0x9c))) (.node 2 (.node 1 (.leaf 0x9d) (.leaf 0x9e)) (.node 1 (.leaf 0x9f) (.leaf 0xa0)))))) (.node 16 (.node 8 (.node 4 (.node 2 (.node 1 (.leaf 0xa1) (.leaf 0xa2)) (.node 1 (.leaf 0xa3) (.leaf 0xa4))) (.node 2 (.node 1 (.leaf 0xa5) (.leaf 0xa6)) (.node 1 (.leaf 0xa7) (.leaf 0xa8)))) (.node 4 (.node 2 (.node 1 (.leaf 0xa9) (.leaf 0xaa)) (.node 1 (.leaf 0xab) (.leaf 0xac))) (.node 2 (.node 1 (.leaf 0xad) (.leaf 0xae)) (.node 1 (.leaf 0xaf) (.leaf 0xb0))))) (.node 8 (.node 4 (.node 2 (.node 1 (.leaf 0xb1) (.leaf 0xb2)) (.node 1 (.leaf 0xb3) (.leaf 0xb4))) (.node 2 (.node 1 (.leaf 0xb5) (.leaf 0xb6)) (.node 1 (.leaf 0xb7) (.leaf 0xb8)))) (.node 4 (.node 2 (.node 1 (.leaf 0xb9) (.leaf 0xba)) (.node 1 (.leaf 0xbb) (.leaf 0xbc))) (.node 2 (.node 1 (.leaf 0xbd) (.leaf 0xbe)) (.node 1 (.leaf 0xbf) (.leaf 0xc0))))))) (.node 32 (.node 16 (.node 8 (.node 4 (.node 2 (.node 1 (.leaf 0xc1) (.leaf 0xc2)) (.node 1 (.leaf 0xc3) (.leaf 0xc4))) (.node 2 (.node 1 (.leaf 0xc5) (.leaf 0xc6)) (.node 1 (.leaf 0xc7) (.leaf 0x0)))) (.node 4 (.node 2 (.node 1 (.leaf 0x6c) (.leaf 0x6c)) (.node 1 (.leaf 0x6c) (.leaf 0x17))) (.node 2 (.node 1 (.leaf 0x0) (.leaf 0x4)) (.node 1 (.leaf 0x4) (.leaf 0x9c))))) (.node 8 (.node 4 (.node 2 (.node 1 (.leaf 0x0) (.leaf 0x1c)) (.node 1 (.leaf 0x5) (.leaf 0x17))) (.node 2 (.node 1 (.leaf 0x58) (.leaf 0x4)) (.node 1 (.leaf 0x5) (.leaf 0x0)))) (.node 4 (.node 2 (.node 1 (.leaf 0x19) (.leaf 0x4)) (.node 1 (.leaf 0x58) (.leaf 0x6c))) (.node 2 (.node 1 (.leaf 0x29) (.leaf 0x0)) (.node 1 (.leaf 0x4) (.leaf 0x4)))))) (.node 16 (.node 8 (.node 4 (.node 2 (.node 1 (.leaf 0x4) (.leaf 0x22)) (.node 1 (.leaf 0x0) (.leaf 0x0))) (.node 2 (.node 1 (.leaf 0x0) (.leaf 0xaa)) (.node 1 (.leaf 0xaa) (.leaf 0xaa)))) (.node 4 (.node 2 (.node 1 (.leaf 0xae) (.leaf 0x8)) (.node 1 (.leaf 0x0) (.leaf 0x42))) (.node 2 (.node 1 (.leaf 0x5c) (.leaf 0x5c)) (.node 1 (.leaf 0x2a) (.leaf 0x10))))) (.node 8 (.node 4 (.node 2 (.node 1 (.leaf 0x36) (.leaf 0x0)) (.node 1 (.leaf 0x3f) (.leaf 0x4))) (.node 2 (.node 1 (.leaf 0x4) (.leaf 0x3b)) (.node 1 (.leaf 0x3b) (.leaf 0x3b)))) (.node 4 (.node 2 (.node 1 (.leaf 0xc2) (.leaf 0x3b)) (.node 1 (.leaf 0x52) (.leaf 0x52))) (.node 2 (.node 1 (.leaf 0x0) (.leaf 0x3b)) (.node 1 (.leaf 0x0) (.leaf 0x4))))))))) (.node 128 (.node 64 (.node 32 (.node 16 (.node 8 (.node 4 (.node 2 (.node 1 (.leaf 0x0) (.leaf 0x5f)) (.node 1 (.leaf 0x0) (.leaf 0x0))) (.node 2 (.node 1 (.leaf 0x0) (.leaf 0x0)) (.node 1 (.leaf 0x4) (.leaf 0x4)))) (.node 4 (.node 2 (.node 1 (.leaf 0x0) (.leaf 0x0)) (.node 1 (.leaf 0x0) (.leaf 0x0))) (.node 2 (.node 1 (.leaf 0x4) (.leaf 0x0)) (.node 1 (.leaf 0xba) (.leaf 0xba))))) (.node 8 (.node 4 (.node 2 (.node 1 (.leaf 0xba) (.leaf 0x4)) (.node 1 (.leaf 0x4) (.leaf 0x4))) (.node 2 (.node 1 (.leaf 0x4) (.leaf 0x0)) (.node 1 (.leaf 0x0) (.leaf 0x0)))) (.node 4 (.node 2 (.node 1 (.leaf 0x0) (.leaf 0x56)) (.node 1 (.leaf 0x71) (.leaf 0x2f))) (.node 2 (.node 1 (.leaf 0x0) (.leaf 0x4)) (.node 1 (.leaf 0x0) (.leaf 0x0)))))) (.node 16 (.node 8 (.node 4 (.node 2 (.node 1 (.leaf 0x0) (.leaf 0xa3)) (.node 1 (.leaf 0xa9) (.leaf 0x30))) (.node 2 (.node 1 (.leaf 0x31) (.leaf 0x8b)) (.node 1 (.leaf 0x91) (.leaf 0x8b)))) (.node 4 (.node 2 (.node 1 (.leaf 0x88) (.leaf 0x0)) (.node 1 (.leaf 0x0) (.leaf 0x4))) (.node 2 (.node 1 (.leaf 0x5) (.leaf 0x5)) (.node 1 (.leaf 0x98) (.leaf 0x6))))) (.node 8 (.node 4 (.node 2 (.node 1 (.leaf 0x7) (.leaf 0x69)) (.node 1 (.leaf 0x59) (.leaf 0x97))) (.node 2 (.node 1 (.leaf 0xc7) (.leaf 0x4)) (.node 1 (.leaf 0x4) (.leaf 0x4)))) (.node 4 (.node 2 (.node 1 (.leaf 0x4) (.leaf 0x4)) (.node 1 (.leaf 0x4) (.leaf 0x4))) (.node 2 (.node 1 (.leaf 0x0) (.leaf 0x4)) (.node 1 (.leaf 0x0) (.leaf 0x4))))))) (.node 32 (.node 16 (.node 8 (.node 4 (.node 2 (.node 1 (.leaf 0x0) (.leaf 0x0)) (.node 1 (.leaf 0x78) (.leaf 0x78))) (.node 2 (.node 1 (.leaf 0x3f) (.leaf 0x0)) (.node 1 (.leaf 0x0) (.leaf 0x72)))) (.node 4 (.node 2 (.node 1 (.leaf 0x4) (.leaf 0x4)) (.node 1 (.leaf 0x4) (.leaf 0x0))) (.node 2 (.node 1 (.leaf 0x4) (.leaf 0x0)) (.node 1 (.leaf 0x4) (.leaf 0x0))))) (.node 8 (.node 4 (.node 2 (.node 1 (.leaf 0x0) (.leaf 0x0)) (.node 1 (.leaf 0x0) (.leaf 0x0))) (.node 2 (.node 1 (.leaf 0x0) (.leaf 0x0)) (.node 1 (.leaf 0x0) (.leaf 0x0)))) (.node 4 (.node 2 (.node 1 (.leaf 0x0) (.leaf 0x0)) (.node 1 (.leaf 0x0) (.leaf 0x0))) (.node 2 (.node 1 (.leaf 0x0) (.leaf 0x0)) (.node 1 (.leaf 0x0) (.leaf 0x0)))))) (.node 16 (.node 8 (.node 4 (.node 2 (.node 1 (.leaf 0x0) (.leaf 0x0)) (.node 1 (.leaf 0x0) (.leaf 0x0))) (.node 2 (.node 1 (.leaf 0x0) (.leaf 0x0)) (.node 1 (.leaf 0x0) (.leaf 0x0)))) (.node 4 (.node 2 (.node 1 (.leaf 0x0) (.leaf 0x0)) (.node 1 (.leaf 0x0) (.leaf 0x0))) (.node 2 (.node 1 (.leaf 0x0) (.leaf 0x0)) (.node 1 (.leaf 0x0) (.leaf 0x0))))) (.node 8 (.node 4 (.node 2 (.node 1 (.leaf 0x0) (.leaf 0x0)) (.node 1 (.leaf 0x0) (.leaf 0x0))) (.node 2 (.node 1 (.leaf 0x0) (.leaf 0x0)) (.node 1 (.leaf 0x0) (.leaf 0x0)))) (.node 4 (.node 2 (.node 1 (.leaf 0x0) (.leaf 0x0)) (.node 1 (.leaf 0x0) (.leaf 0x0))) (.node 2 (.node 1 (.leaf 0x0) (.leaf 0x0)) (.node 1 (.leaf 0x0) (.leaf 0x0)))))))) (.node 64 (.node 32 (.node 16 (.node 8 (.node 4 (.node 2 (.node 1 (.leaf 0x0) (.leaf 0x0)) (.node 1 (.leaf 0x0) (.leaf 0x0))) (.node 2 (.node 1 (.leaf 0x0) (.leaf 0x0)) (.node 1 (.leaf 0x0) (.leaf 0x0)))) (.node 4 (.node 2 (.node 1 (.leaf 0x0) (.leaf 0x0)) (.node 1 (.leaf 0x0) (.leaf 0x0))) (.node 2 (.node 1 (.leaf 0x0) (.leaf 0x0)) (.node 1 (.leaf 0x0) (.leaf 0x0))))) (.node 8 (.node 4 (.node 2 (.node 1 (.leaf 0x0) (.leaf 0x0)) (.node 1 (.leaf 0x0) (.leaf 0x0))) (.node 2 (.node 1 (.leaf 0x0) (.leaf 0x0)) (.node 1 (.leaf 0x0) (.leaf 0x0)))) (.node 4 (.node 2 (.node 1 (.leaf 0x0) (.leaf 0x0)) (.node 1 (.leaf 0x0) (.leaf 0x0))) (.node 2 (.node 1 (.leaf 0x0) (.leaf 0x0)) (.node 1 (.leaf 0x0) (.leaf 0x0)))))) (.node 16 (.node 8 (.node 4 (.node 2 (.node 1 (.leaf 0x0) (.leaf 0x0)) (.node 1 (.leaf 0x0) (.leaf 0x0))) (.node 2 (.node 1 (.leaf 0x0) (.leaf 0x0)) (.node 1 (.leaf 0x0) (.leaf 0x0)))) (.node 4 (.node 2 (.node 1 (.leaf 0x0) (.leaf 0x0)) (.node 1 (.leaf 0x0) (.leaf 0x0))) (.node 2 (.node 1 (.leaf 0x0) (.leaf 0x0)) (.node 1 (.leaf 0x0) (.leaf 0x0))))) (.node 8 (.node 4 (.node 2 (.node 1 (.leaf 0x0) (.leaf 0x0)) (.node 1 (.leaf 0x0) (.leaf 0x0))) (.node 2 (.node 1 (.leaf 0x0) (.leaf 0x0)) (.node 1 (.leaf 0x0) (.leaf 0x0)))) (.node 4 (.node 2 (.node 1 (.leaf 0x0) (.leaf 0x0)) (.node 1 (.leaf 0x0) (.leaf 0x0))) (.node 2 (.node 1 (.leaf 0x0) (.leaf 0x0)) (.node 1 (.leaf 0x0) (.leaf 0x0))))))) (.node 32 (.node 16 (.node 8 (.node 4 (.node 2 (.node 1 (.leaf 0x0) (.leaf 0x0)) (.node 1 (.leaf 0x0) (.leaf 0x0))) (.node 2 (.node 1 (.leaf 0x0) (.leaf 0x0)) (.node 1 (.leaf 0x0) (.leaf 0x0)))) (.node 4 (.node 2 (.node 1 (.leaf 0x0) (.leaf 0x0)) (.node 1 (.leaf 0x0) (.leaf 0x0))) (.node 2 (.node 1 (.leaf 0x0) (.leaf 0x0)) (.node 1 (.leaf 0x0) (.leaf 0x0))))) (.node 8 (.node 4 (.node 2 (.node 1 (.leaf 0x0) (.leaf 0x0)) (.node 1 (.leaf 0x0) (.leaf 0x0))) (.node 2 (.node 1 (.leaf 0x0) (.leaf 0x0)) (.node 1 (.leaf 0x0) (.leaf 0x0)))) (.node 4 (.node 2 (.node 1 (.leaf 0x0) (.leaf 0x0)) (.node 1 (.leaf 0x0) (.leaf 0x0))) (.node 2 (.node 1 (.leaf 0x0) (.leaf 0x0)) (.node 1 (.leaf 0x0) (.leaf 0x0)))))) (.node 16 (.node 8 (.node 4 (.node 2 (.node 1 (.leaf 0x0) (.leaf 0x0)) (.node 1 (.leaf 0x0) (.leaf 0x0))) (.node 2 (.node 1 (.leaf 0x0) (.leaf 0x0)) (.node 1 (.leaf 0x0) (.leaf 0x0)))) (.node 4 (.node 2 (.node 1 (.leaf 0x0) (.leaf 0x0)) (.node 1 (.leaf 0x0) (.leaf 0x0))) (.node 2 (.node 1 (.leaf 0x0) (.leaf 0x0)) (.node 1 (.leaf 0x0) (.leaf 0x0))))) (.node 8 (.node 4 (.node 2 (.node 1 (.leaf 0x0) (.leaf 0x0)) (.node 1 (.leaf 0x0) (.leaf 0x0))) (.node 2 (.node 1 (.leaf 0x0) (.leaf 0x0)) (.node 1 (.leaf 0x0) (.leaf 0x0)))) (.node 4 (.node 2 (.node 1 (.leaf 0x0) (.leaf 0x0)) (.node 1 (.leaf 0x0) (.leaf 0x0))) (.node 2 (.node 1 (.leaf 0x0) (.leaf 0x0)) (.node 1 (.leaf 0x0) (.leaf 0x0))))))))))
def rkT : BT Nat := (.node 256 (.node 128 (.node 64 (.node 32 (.node 16 (.node 8 (.node 4 (.node 2 (.node 1 (.leaf 0x0) (.leaf 0x0)) (.node 1 (.leaf 0x0) (.leaf 0x7))) (.node 2 (.node 1 (.leaf 0x9) (.leaf 0x9)) (.node 1 (.leaf 0xa) (.leaf 0x5)))) (.node 4 (.node 2 (.node 1 (.leaf 0x0) (.leaf 0x3)) (.node 1 (.leaf 0x0) (.leaf 0x2))) (.node 2 (.node 1 (.leaf 0x2) (.leaf 0x0)) (.node 1 (.leaf 0x0) (.leaf 0x5))))) (.node 8 (.node 4 (.node 2 (.node 1 (.leaf 0x0) (.leaf 0x1)) (.node 1 (.leaf 0x0) (.leaf 0x1))) (.node 2 (.node 1 (.leaf 0x0) (.leaf 0x0)) (.node 1 (.leaf 0x5) (.leaf 0x0)))) (.node 4 (.node 2 (.node 1 (.leaf 0x2) (.leaf 0x2)) (.node 1 (.leaf 0x1) (.leaf 0x4))) (.node 2 (.node 1 (.leaf 0x0) (.leaf 0x2)) (.node 1 (.leaf 0x2) (.leaf 0x2)))))) (.node 16 (.node 8 (.node 4 (.node 2 (.node 1 (.leaf 0x2) (.leaf 0x2)) (.node 1 (.leaf 0x0) (.leaf 0x2))) (.node 2 (.node 1 (.leaf 0x0) (.leaf 0x4)) (.node 1 (.leaf 0x0) (.leaf 0x1)))) (.node 4 (.node 2 (.node 1 (.leaf 0x5) (.leaf 0x5)) (.node 1 (.leaf 0x0) (.leaf 0x2))) (.node 2 (.node 1 (.leaf 0x0) (.leaf 0x3)) (.node 1 (.leaf 0x6) (.leaf 0x7))))) (.node 8 (.node 4 (.node 2 (.node 1 (.leaf 0x7) (.leaf 0x2)) (.node 1 (.leaf 0x0) (.leaf 0x2))) (.node 2 (.node 1 (.leaf 0x4) (.leaf 0x5)) (.node 1 (.leaf 0x1) (.leaf 0x2)))) (.node 4 (.node 2 (.node 1 (.leaf 0x0) (.leaf 0x0)) (.node 1 (.leaf 0x4) (.leaf 0x0))) (.node 2 (.node 1 (.leaf 0x1) (.leaf 0x0)) (.node 1 (.leaf 0x5) (.leaf 0x1))))))) (.node 32 (.node 16 (.node 8 (.node 4 (.node 2 (.node 1 (.leaf 0x0) (.leaf 0x5)) (.node 1 (.leaf 0x2) (.leaf 0x0))) (.node 2 (.node 1 (.leaf 0x2) (.leaf 0x2)) (.node 1 (.leaf 0x1) (.leaf 0x2)))) (.node 4 (.node 2 (.node 1 (.leaf 0x2) (.leaf 0x0)) (.node 1 (.leaf 0x0) (.leaf 0x0))) (.node 2 (.node 1 (.leaf 0x2) (.leaf 0x2)) (.node 1 (.leaf 0x2) (.leaf 0x2))))) (.node 8 (.node 4 (.node 2 (.node 1 (.leaf 0x1) (.leaf 0x3)) (.node 1 (.leaf 0x1) (.leaf 0x2))) (.node 2 (.node 1 (.leaf 0x0) (.leaf 0x7)) (.node 1 (.leaf 0x2) (.leaf 0x4)))) (.node 4 (.node 2 (.node 1 (.leaf 0x9) (.leaf 0x2)) (.node 1 (.leaf 0x2) (.leaf 0x5))) (.node 2 (.node 1 (.leaf 0x1) (.leaf 0x1)) (.node 1 (.leaf 0x3) (.leaf 0x2)))))) (.node 16 (.node 8 (.node 4 (.node 2 (.node 1 (.leaf 0x0) (.leaf 0x1)) (.node 1 (.leaf 0x1) (.leaf 0x1))) (.node 2 (.node 1 (.leaf 0x2) (.leaf 0x1)) (.node 1 (.leaf 0x0) (.leaf 0x2)))) (.node 4 (.node 2 (.node 1 (.leaf 0x9) (.leaf 0x2)) (.node 1 (.leaf 0x0) (.leaf 0x4))) (.node 2 (.node 1 (.leaf 0x2) (.leaf 0x1)) (.node 1 (.leaf 0x2) (.leaf 0x1))))) (.node 8 (.node 4 (.node 2 (.node 1 (.leaf 0x2) (.leaf 0x7)) (.node 1 (.leaf 0x0) (.leaf 0x2))) (.node 2 (.node 1 (.leaf 0x1) (.leaf 0x2)) (.node 1 (.leaf 0x1) (.leaf 0x4)))) (.node 4 (.node 2 (.node 1 (.leaf 0x2) (.leaf 0x7)) (.node 1 (.leaf 0x0) (.leaf 0x1))) (.node 2 (.node 1 (.leaf 0x2) (.leaf 0x4)) (.node 1 (.leaf 0x1) (.leaf 0x2)))))))) (.node 64 (.node 32 (.node 16 (.node 8 (.node 4 (.node 2 (.node 1 (.leaf 0x1) (.leaf 0x1)) (.node 1 (.leaf 0x1) (.leaf 0x1))) (.node 2 (.node 1 (.leaf 0x1) (.leaf 0x1)) (.node 1 (.leaf 0x2) (.leaf 0x7)))) (.node 4 (.node 2 (.node 1 (.leaf 0x1) (.leaf 0x1)) (.node 1 (.leaf 0x3) (.leaf 0x3))) (.node 2 (.node 1 (.leaf 0x3) (.leaf 0x3)) (.node 1 (.leaf 0x3) (.leaf 0x3))))) (.node 8 (.node 4 (.node 2 (.node 1 (.leaf 0x3) (.leaf 0x3)) (.node 1 (.leaf 0x3) (.leaf 0x3))) (.node 2 (.node 1 (.leaf 0x3) (.leaf 0x3)) (.node 1 (.leaf 0x9) (.leaf 0x9)))) (.node 4 (.node 2 (.node 1 (.leaf 0x9) (.leaf 0x2)) (.node 1 (.leaf 0x2) (.leaf 0x5))) (.node 2 (.node 1 (.leaf 0x5) (.leaf 0x5)) (.node 1 (.leaf 0x2) (.leaf 0x2)))))) (.node 16 (.node 8 (.node 4 (.node 2 (.node 1 (.leaf 0x1) (.leaf 0x2)) (.node 1 (.leaf 0x3) (.leaf 0x3))) (.node 2 (.node 1 (.leaf 0x3) (.leaf 0x2)) (.node 1 (.leaf 0x1) (.leaf 0x1)))) (.node 4 (.node 2 (.node 1 (.leaf 0x2) (.leaf 0x4)) (.node 1 (.leaf 0x4) (.leaf 0x4))) (.node 2 (.node 1 (.leaf 0x2) (.leaf 0x4)) (.node 1 (.leaf 0x1) (.leaf 0x1))))) (.node 8 (.node 4 (.node 2 (.node 1 (.leaf 0x1) (.leaf 0x1)) (.node 1 (.leaf 0x1) (.leaf 0x0))) (.node 2 (.node 1 (.leaf 0x0) (.leaf 0x1)) (.node 1 (.leaf 0x1) (.leaf 0x0)))) (.node 4 (.node 2 (.node 1 (.leaf 0x1) (.leaf 0x7)) (.node 1 (.leaf 0x8) (.leaf 0x1))) (.node 2 (.node 1 (.leaf 0x1) (.leaf 0x1)) (.node 1 (.leaf 0x0) (.leaf 0x1))))))) (.node 32 (.node 16 (.node 8 (.node 4 (.node 2 (.node 1 (.leaf 0x1) (.leaf 0x6)) (.node 1 (.leaf 0x1) (.leaf 0x1))) (.node 2 (.node 1 (.leaf 0x1) (.leaf 0x1)) (.node 1 (.leaf 0x9) (.leaf 0x0)))) (.node 4 (.node 2 (.node 1 (.leaf 0x0) (.leaf 0x1)) (.node 1 (.leaf 0x2) (.leaf 0x3))) (.node 2 (.node 1 (.leaf 0x1) (.leaf 0x1)) (.node 1 (.leaf 0x2) (.leaf 0x4))))) (.node 8 (.node 4 (.node 2 (.node 1 (.leaf 0x1) (.leaf 0x3)) (.node 1 (.leaf 0x1) (.leaf 0x4))) (.node 2 (.node 1 (.leaf 0x3) (.leaf 0x1)) (.node 1 (.leaf 0x1) (.leaf 0x1)))) (.node 4 (.node 2 (.node 1 (.leaf 0x1) (.leaf 0x2)) (.node 1 (.leaf 0x3) (.leaf 0x3))) (.node 2 (.node 1 (.leaf 0x4) (.leaf 0x1)) (.node 1 (.leaf 0x1) (.leaf 0x2)))))) (.node 16 (.node 8 (.node 4 (.node 2 (.node 1 (.leaf 0x3) (.leaf 0x1)) (.node 1 (.leaf 0x1) (.leaf 0x1))) (.node 2 (.node 1 (.leaf 0x1) (.leaf 0x2)) (.node 1 (.leaf 0x3) (.leaf 0x3)))) (.node 4 (.node 2 (.node 1 (.leaf 0x3) (.leaf 0x4)) (.node 1 (.leaf 0x1) (.leaf 0x4))) (.node 2 (.node 1 (.leaf 0x1) (.leaf 0x2)) (.node 1 (.leaf 0x4) (.leaf 0x4))))) (.node 8 (.node 4 (.node 2 (.node 1 (.leaf 0x4) (.leaf 0x1)) (.node 1 (.leaf 0x4) (.leaf 0x1))) (.node 2 (.node 1 (.leaf 0x2) (.leaf 0x4)) (.node 1 (.leaf 0x1) (.leaf 0x2)))) (.node 4 (.node 2 (.node 1 (.leaf 0x2) (.leaf 0x1)) (.node 1 (.leaf 0x1) (.leaf 0x2))) (.node 2 (.node 1 (.leaf 0x1) (.leaf 0x3)) (.node 1 (.leaf 0x1) (.leaf 0x1))))))))) (.node 128 (.node 64 (.node 32 (.node 16 (.node 8 (.node 4 (.node 2 (.node 1 (.leaf 0x1) (.leaf 0x2)) (.node 1 (.leaf 0x1) (.leaf 0x1))) (.node 2 (.node 1 (.leaf 0x1) (.leaf 0x1)) (.node 1 (.leaf 0x1) (.leaf 0x2)))) (.node 4 (.node 2 (.node 1 (.leaf 0x1) (.leaf 0x1)) (.node 1 (.leaf 0x1) (.leaf 0x1))) (.node 2 (.node 1 (.leaf 0x2) (.leaf 0x1)) (.node 1 (.leaf 0x2) (.leaf 0x3))))) (.node 8 (.node 4 (.node 2 (.node 1 (.leaf 0x4) (.leaf 0x3)) (.node 1 (.leaf 0x4) (.leaf 0x5))) (.node 2 (.node 1 (.leaf 0x6) (.leaf 0x6)) (.node 1 (.leaf 0x6) (.leaf 0x5)))) (.node 4 (.node 2 (.node 1 (.leaf 0x5) (.leaf 0x6)) (.node 1 (.leaf 0x1) (.leaf 0x5))) (.node 2 (.node 1 (.leaf 0x7) (.leaf 0x6)) (.node 1 (.leaf 0x1) (.leaf 0x1)))))) (.node 16 (.node 8 (.node 4 (.node 2 (.node 1 (.leaf 0x1) (.leaf 0x2)) (.node 1 (.leaf 0x1) (.leaf 0x6))) (.node 2 (.node 1 (.leaf 0x6) (.leaf 0x2)) (.node 1 (.leaf 0x2) (.leaf 0x1)))) (.node 4 (.node 2 (.node 1 (.leaf 0x6) (.leaf 0x6)) (.node 1 (.leaf 0x5) (.leaf 0x7))) (.node 2 (.node 1 (.leaf 0x7) (.leaf 0x8)) (.node 1 (.leaf 0x8) (.leaf 0x8))))) (.node 8 (.node 4 (.node 2 (.node 1 (.leaf 0x9) (.leaf 0x8)) (.node 1 (.leaf 0x8) (.leaf 0x8))) (.node 2 (.node 1 (.leaf 0x8) (.leaf 0x1)) (.node 1 (.leaf 0x2) (.leaf 0x3)))) (.node 4 (.node 2 (.node 1 (.leaf 0x2) (.leaf 0x4)) (.node 1 (.leaf 0x1) (.leaf 0x5))) (.node 2 (.node 1 (.leaf 0x1) (.leaf 0x2)) (.node 1 (.leaf 0x1) (.leaf 0x3))))))) (.node 32 (.node 16 (.node 8 (.node 4 (.node 2 (.node 1 (.leaf 0x1) (.leaf 0x1)) (.node 1 (.leaf 0x2) (.leaf 0x3))) (.node 2 (.node 1 (.leaf 0x1) (.leaf 0x1)) (.node 1 (.leaf 0x5) (.leaf 0x6)))) (.node 4 (.node 2 (.node 1 (.leaf 0x1) (.leaf 0x2)) (.node 1 (.leaf 0x3) (.leaf 0x1))) (.node 2 (.node 1 (.leaf 0x1) (.leaf 0x1)) (.node 1 (.leaf 0x1) (.leaf 0x0))))) (.node 8 (.node 4 (.node 2 (.node 1 (.leaf 0x0) (.leaf 0x0)) (.node 1 (.leaf 0x0) (.leaf 0x0))) (.node 2 (.node 1 (.leaf 0x0) (.leaf 0x0)) (.node 1 (.leaf 0x0) (.leaf 0x0)))) (.node 4 (.node 2 (.node 1 (.leaf 0x0) (.leaf 0x0)) (.node 1 (.leaf 0x0) (.leaf 0x0))) (.node 2 (.node 1 (.leaf 0x0) (.leaf 0x0)) (.node 1 (.leaf 0x0) (.leaf 0x0)))))) (.node 16 (.node 8 (.node 4 (.node 2 (.node 1 (.leaf 0x0) (.leaf 0x0)) (.node 1 (.leaf 0x0) (.leaf 0x0))) (.node 2 (.node 1 (.leaf 0x0) (.leaf 0x0)) (.node 1 (.leaf 0x0) (.leaf 0x0)))) (.node 4 (.node 2 (.node 1 (.leaf 0x0) (.leaf 0x0)) (.node 1 (.leaf 0x0) (.leaf 0x0))) (.node 2 (.node 1 (.leaf 0x0) (.leaf 0x0)) (.node 1 (.leaf 0x0) (.leaf 0x0))))) (.node 8 (.node 4 (.node 2 (.node 1 (.leaf 0x0) (.leaf 0x0)) (.node 1 (.leaf 0x0) (.leaf 0x0))) (.node 2 (.node 1 (.leaf 0x0) (.leaf 0x0)) (.node 1 (.leaf 0x0) (.leaf 0x0)))) (.node 4 (.node 2 (.node 1 (.leaf 0x0) (.leaf 0x0)) (.node 1 (.leaf 0x0) (.leaf 0x0))) (.node 2 (.node 1 (.leaf 0x0) (.leaf 0x0)) (.node 1 (.leaf 0x0) (.leaf 0x0)))))))) (.node 64 (.node 32 (.node 16 (.node 8 (.node 4 (.node 2 (.node 1 (.leaf 0x0) (.leaf 0x0)) (.node 1 (.leaf 0x0) (.leaf 0x0))) (.node 2 (.node 1 (.leaf 0x0) (.leaf 0x0)) (.node 1 (.leaf 0x0) (.leaf 0x0)))) (.node 4 (.node 2 (.node 1 (.leaf 0x0) (.leaf 0x0)) (.node 1 (.leaf 0x0) (.leaf 0x0))) (.node 2 (.node 1 (.leaf 0x0) (.leaf 0x0)) (.node 1 (.leaf 0x0) (.leaf 0x0))))) (.node 8 (.node 4 (.node 2 (.node 1 (.leaf 0x0) (.leaf 0x0)) (.node 1 (.leaf 0x0) (.leaf 0x0))) (.node 2 (.node 1 (.leaf 0x0) (.leaf 0x0)) (.node 1 (.leaf 0x0) (.leaf 0x0)))) (.node 4 (.node 2 (.node 1 (.leaf 0x0) (.leaf 0x0)) (.node 1 (.leaf 0x0) (.leaf 0x0))) (.node 2 (.node 1 (.leaf 0x0) (.leaf 0x0)) (.node 1 (.leaf 0x0) (.leaf 0x0)))))) (.node 16 (.node 8 (.node 4 (.node 2 (.node 1 (.leaf 0x0) (.leaf 0x0)) (.node 1 (.leaf 0x0) (.leaf 0x0))) (.node 2 (.node 1 (.leaf 0x0) (.leaf 0x0)) (.node 1 (.leaf 0x0) (.leaf 0x0)))) (.node 4 (.node 2 (.node 1 (.leaf 0x0) (.leaf 0x0)) (.node 1 (.leaf 0x0) (.leaf 0x0))) (.node 2 (.node 1 (.leaf 0x0) (.leaf 0x0)) (.node 1 (.leaf 0x0) (.leaf 0x0))))) (.node 8 (.node 4 (.node 2 (.node 1 (.leaf 0x0) (.leaf 0x0)) (.node 1 (.leaf 0x0) (.leaf 0x0))) (.node 2 (.node 1 (.leaf 0x0) (.leaf 0x0)) (.node 1 (.leaf 0x0) (.leaf 0x0)))) (.node 4 (.node 2 (.node 1 (.leaf 0x0) (.leaf 0x0)) (.node 1 (.leaf 0x0) (.leaf 0x0))) (.node 2 (.node 1 (.leaf 0x0) (.leaf 0x0)) (.node 1 (.leaf 0x0) (.leaf 0x0))))))) (.node 32 (.node 16 (.node 8 (.node 4 (.node 2 (.node 1 (.leaf 0x0) (.leaf 0x0)) (.node 1 (.leaf 0x0) (.leaf 0x0))) (.node 2 (.node 1 (.leaf 0x0) (.leaf 0x0)) (.node 1 (.leaf 0x0) (.leaf 0x0)))) (.node 4 (.node 2 (.node 1 (.leaf 0x0) (.leaf 0x0)) (.node 1 (.leaf 0x0) (.leaf 0x0))) (.node 2 (.node 1 (.leaf 0x0) (.leaf 0x0)) (.node 1 (.leaf 0x0) (.leaf 0x0))))) (.node 8 (.node 4 (.node 2 (.node 1 (.leaf 0x0) (.leaf 0x0)) (.node 1 (.leaf 0x0) (.leaf 0x0))) (.node 2 (.node 1 (.leaf 0x0) (.leaf 0x0)) (.node 1 (.leaf 0x0) (.leaf 0x0)))) (.node 4 (.node 2 (.node 1 (.leaf 0x0) (.leaf 0x0)) (.node 1 (.leaf 0x0) (.leaf 0x0))) (.node 2 (.node 1 (.leaf 0x0) (.leaf 0x0)) (.node 1 (.leaf 0x0) (.leaf 0x0)))))) (.node 16 (.node 8 (.node 4 (.node 2 (.node 1 (.leaf 0x0) (.leaf 0x0)) (.node 1 (.leaf 0x0) (.leaf 0x0))) (.node 2 (.node 1 (.leaf 0x0) (.leaf 0x0)) (.node 1 (.leaf 0x0) (.leaf 0x0)))) (.node 4 (.node 2 (.node 1 (.leaf 0x0) (.leaf 0x0)) (.node 1 (.leaf 0x0) (.leaf 0x0))) (.node 2 (.node 1 (.leaf 0x0) (.leaf 0x0)) (.node 1 (.leaf 0x0) (.leaf 0x0))))) (.node 8 (.node 4 (.node 2 (.node 1 (.leaf 0x0) (.leaf 0x0)) (.node 1 (.leaf 0x0) (.leaf 0x0))) (.node 2 (.node 1 (.leaf 0x0) (.leaf 0x0)) (.node 1 (.leaf 0x0) (.leaf 0x0)))) (.node 4 (.node 2 (.node 1 (.leaf 0x0) (.leaf 0x0)) (.node 1 (.leaf 0x0) (.leaf 0x0))) (.node 2 (.node 1 (.leaf 0x0) (.leaf 0x0)) (.node 1 (.leaf 0x0) (.leaf 0x0))))))))))
def sfT : BT Nat := (.node 256 (.node 128 (.node 64 (.node 32 (.node 16 (.node 8 (.node 4 (.node 2 (.node 1 (.leaf 0x0) (.leaf 0x0)) (.node 1 (.leaf 0x0) (.leaf 0x0))) (.node 2 (.node 1 (.leaf 0x0) (.leaf 0x0)) (.node 1 (.leaf 0x0) (.leaf 0x0)))) (.node 4 (.node 2 (.node 1 (.leaf 0x0) (.leaf 0x0)) (.node 1 (.leaf 0x0) (.leaf 0x0))) (.node 2 (.node 1 (.leaf 0x0) (.leaf 0x0)) (.node 1 (.leaf 0x0) (.leaf 0x0))))) (.node 8 (.node 4 (.node 2 (.node 1 (.leaf 0x0) (.leaf 0x0)) (.node 1 (.leaf 0x0) (.leaf 0x0))) (.node 2 (.node 1 (.leaf 0x0) (.leaf 0x0)) (.node 1 (.leaf 0x0) (.leaf 0x0)))) (.node 4 (.node 2 (.node 1 (.leaf 0x0) (.leaf 0x0)) (.node 1 (.leaf 0x0) (.leaf 0x0))) (.node 2 (.node 1 (.leaf 0x0) (.leaf 0x0)) (.node 1 (.leaf 0x0) (.leaf 0x0)))))) (.node 16 (.node 8 (.node 4 (.node 2 (.node 1 (.leaf 0x0) (.leaf 0x0)) (.node 1 (.leaf 0x0) (.leaf 0x0))) (.node 2 (.node 1 (.leaf 0x0) (.leaf 0x0)) (.node 1 (.leaf 0x0) (.leaf 0x0)))) (.node 4 (.node 2 (.node 1 (.leaf 0x0) (.leaf 0x0)) (.node 1 (.leaf 0x0) (.leaf 0x0))) (.node 2 (.node 1 (.leaf 0x0) (.leaf 0x0)) (.node 1 (.leaf 0x0) (.leaf 0x0))))) (.node 8 (.node 4 (.node 2 (.node 1 (.leaf 0x0) (.leaf 0x0)) (.node 1 (.leaf 0x0) (.leaf 0x0))) (.node 2 (.node 1 (.leaf 0x0) (.leaf 0x0)) (.node 1 (.leaf 0x0) (.leaf 0x0)))) (.node 4 (.node 2 (.node 1 (.leaf 0x0) (.leaf 0x0)) (.node 1 (.leaf 0x0) (.leaf 0x0))) (.node 2 (.node 1 (.leaf 0x0) (.leaf 0x0)) (.node 1 (.leaf 0x0) (.leaf 0x0))))))) (.node 32 (.node 16 (.node 8 (.node 4 (.node 2 (.node 1 (.leaf 0x0) (.leaf 0x0)) (.node 1 (.leaf 0x0) (.leaf 0x0))) (.node 2 (.node 1 (.leaf 0x0) (.leaf 0x0)) (.node 1 (.leaf 0x0) (.leaf 0x0)))) (.node 4 (.node 2 (.node 1 (.leaf 0x0) (.leaf 0x0)) (.node 1 (.leaf 0x0) (.leaf 0x0))) (.node 2 (.node 1 (.leaf 0x0) (.leaf 0x0)) (.node 1 (.leaf 0x0) (.leaf 0x0))))) (.node 8 (.node 4 (.node 2 (.node 1 (.leaf 0x0) (.leaf 0x0)) (.node 1 (.leaf 0x0) (.leaf 0x0))) (.node 2 (.node 1 (.leaf 0x0) (.leaf 0x0)) (.node 1 (.leaf 0x0) (.leaf 0x0)))) (.node 4 (.node 2 (.node 1 (.leaf 0x0) (.leaf 0x0)) (.node 1 (.leaf 0x0) (.leaf 0x0))) (.node 2 (.node 1 (.leaf 0x0) (.leaf 0x0)) (.node 1 (.leaf 0x0) (.leaf 0x0)))))) (.node 16 (.node 8 (.node 4 (.node 2 (.node 1 (.leaf 0x0) (.leaf 0x0)) (.node 1 (.leaf 0x0) (.leaf 0x0))) (.node 2 (.node 1 (.leaf 0x0) (.leaf 0x0)) (.node 1 (.leaf 0x0) (.leaf 0x0)))) (.node 4 (.node 2 (.node 1 (.leaf 0x0) (.leaf 0x0)) (.node 1 (.leaf 0x0) (.leaf 0x0))) (.node 2 (.node 1 (.leaf 0x0) (.leaf 0x0)) (.node 1 (.leaf 0x0) (.leaf 0x0))))) (.node 8 (.node 4 (.node 2 (.node 1 (.leaf 0x0) (.leaf 0x0)) (.node 1 (.leaf 0x0) (.leaf 0x0))) (.node 2 (.node 1 (.leaf 0x0) (.leaf 0x0)) (.node 1 (.leaf 0x0) (.leaf 0x0)))) (.node 4 (.node 2 (.node 1 (.leaf 0x0) (.leaf 0x0)) (.node 1 (.leaf 0x0) (.leaf 0x0))) (.node 2 (.node 1 (.leaf 0x0) (.leaf 0x0)) (.node 1 (.leaf 0x0) (.leaf 0x0)))))))) (.node 64 (.node 32 (.node 16 (.node 8 (.node 4 (.node 2 (.node 1 (.leaf 0x0) (.leaf 0x0)) (.node 1 (.leaf 0x0) (.leaf 0x0))) (.node 2 (.node 1 (.leaf 0x0) (.leaf 0x0)) (.node 1 (.leaf 0x0) (.leaf 0x0)))) (.node 4 (.node 2 (.node 1 (.leaf 0x0) (.leaf 0x0)) (.node 1 (.leaf 0x0) (.leaf 0x0))) (.node 2 (.node 1 (.leaf 0x0) (.leaf 0x0)) (.node 1 (.leaf 0x0) (.leaf 0x0))))) (.node 8 (.node 4 (.node 2 (.node 1 (.leaf 0x0) (.leaf 0x0)) (.node 1 (.leaf 0x0) (.leaf 0x0))) (.node 2 (.node 1 (.leaf 0x0) (.leaf 0x0)) (.node 1 (.leaf 0x0) (.leaf 0x0)))) (.node 4 (.node 2 (.node 1 (.leaf 0x0) (.leaf 0x0)) (.node 1 (.leaf 0x0) (.leaf 0x0))) (.node 2 (.node 1 (.leaf 0x0) (.leaf 0x0)) (.node 1 (.leaf 0x0) (.leaf 0x0)))))) (.node 16 (.node 8 (.node 4 (.node 2 (.node 1 (.leaf 0x0) (.leaf 0x0)) (.node 1 (.leaf 0x0) (.leaf 0x0))) (.node 2 (.node 1 (.leaf 0x0) (.leaf 0x0)) (.node 1 (.leaf 0x0) (.leaf 0x0)))) (.node 4 (.node 2 (.node 1 (.leaf 0x0) (.leaf 0x0)) (.node 1 (.leaf 0x0) (.leaf 0x0))) (.node 2 (.node 1 (.leaf 0x0) (.leaf 0x0)) (.node 1 (.leaf 0x0) (.leaf 0x0))))) (.node 8 (.node 4 (.node 2 (.node 1 (.leaf 0x0) (.leaf 0x0)) (.node 1 (.leaf 0x0) (.leaf 0x0))) (.node 2 (.node 1 (.leaf 0x0) (.leaf 0x0)) (.node 1 (.leaf 0x0) (.leaf 0x0)))) (.node 4 (.node 2 (.node 1 (.leaf 0x0) (.leaf 0x0)) (.node 1 (.leaf 0x0) (.leaf 0x0))) (.node 2 (.node 1 (.leaf 0x0) (.leaf 0x0)) (.node 1 (.leaf 0x0) (.leaf 0x0))))))) (.node 32 (.node 16 (.node 8 (.node 4 (.node 2 (.node 1 (.leaf 0x0) (.leaf 0x0)) (.node 1 (.leaf 0x0) (.leaf 0x0))) (.node 2 (.node 1 (.leaf 0x0) (.leaf 0x0)) (.node 1 (.leaf 0x0) (.leaf 0x0)))) (.node 4 (.node 2 (.node 1 (.leaf 0x1) (.leaf 0x1)) (.node 1 (.leaf 0x1) (.leaf 0x1))) (.node 2 (.node 1 (.leaf 0x1) (.leaf 0x4000000000000000000000000000000000000000000000000)) (.node 1 (.leaf 0x4000000000000000000000000000000000000000000000000) (.leaf 0x1))))) (.node 8 (.node 4 (.node 2 (.node 1 (.leaf 0x1) (.leaf 0x1)) (.node 1 (.leaf 0x1) (.leaf 0x1))) (.node 2 (.node 1 (.leaf 0x1) (.leaf 0x4000000000000000000000000200000000000000000000000)) (.node 1 (.leaf 0x4000000000000000000000001) (.leaf 0x1)))) (.node 4 (.node 2 (.node 1 (.leaf 0x4000000000000000000000000000000000000000000000000) (.leaf 0x4000000000000000000000000000000000000000000000000)) (.node 1 (.leaf 0x1) (.leaf 0x1))) (.node 2 (.node 1 (.leaf 0x1) (.leaf 0x800000000000000000000000000000008)) (.node 1 (.leaf 0x4000000000000000000000000000000000000000000000000) (.leaf 0x4000000000000000000000000000000000000000000000000)))))) (.node 16 (.node 8 (.node 4 (.node 2 (.node 1 (.leaf 0x4000000000000000000000000000000000000000000000000) (.leaf 0x4000000000000000000000000000000000000000000000000)) (.node 1 (.leaf 0x4000000000000000000000000000000000000000000000000) (.leaf 0x4000000000000000000000000000000000000000000000000))) (.node 2 (.node 1 (.leaf 0x4000000000000000000000000000000000000000000000000) (.leaf 0x4000000000000000000000000000000000000000000000000)) (.node 1 (.leaf 0x4000000000000000000000000000000000000000000000000) (.leaf 0x4000000000000000000000000000000000000000000000000)))) (.node 4 (.node 2 (.node 1 (.leaf 0x4000000000000000000000000000000000000000000000000) (.leaf 0x1)) (.node 1 (.leaf 0x8) (.leaf 0x1))) (.node 2 (.node 1 (.leaf 0x1) (.leaf 0x1)) (.node 1 (.leaf 0x1) (.leaf 0x1))))) (.node 8 (.node 4 (.node 2 (.node 1 (.leaf 0x1) (.leaf 0x4000000000000000020000000000000000400000000000000)) (.node 1 (.leaf 0x1) (.leaf 0x1))) (.node 2 (.node 1 (.leaf 0x1) (.leaf 0x4000000000000000000000000000000000000000000000001)) (.node 1 (.leaf 0x4000000000000000000000000000000000000000000000001) (.leaf 0x4000000000000000000000000000000000000000000000001)))) (.node 4 (.node 2 (.node 1 (.leaf 0x4000000000000002000000000000000000400000000000001) (.leaf 0x4000000000000000000000000000000000000000000000001)) (.node 1 (.leaf 0x400000000000000) (.leaf 0x400000000000000))) (.node 2 (.node 1 (.leaf 0x400000000000000) (.leaf 0x4000000000000000000000000000000000000000000000001)) (.node 1 (.leaf 0x8) (.leaf 0x4000000000000000000000000000000000000000000000001))))))))) (.node 128 (.node 64 (.node 32 (.node 16 (.node 8 (.node 4 (.node 2 (.node 1 (.leaf 0x4000000000000000000000000000000000000000000000001) (.leaf 0x4000000000000000000000000000000000000000000000001)) (.node 1 (.leaf 0x4000000000000000000000000000000000000000000000001) (.leaf 0x4000000000000000000000000000000000000000000000001))) (.node 2 (.node 1 (.leaf 0x4000000000000000000000000000000000000000000000001) (.leaf 0x4000000000000000000000000000000000000000000000001)) (.node 1 (.leaf 0x4000000000000000000000000000000000000000000000001) (.leaf 0x4000000000000000000000000000000000000000000000001)))) (.node 4 (.node 2 (.node 1 (.leaf 0x4000000000000000000000000000000000000000000000001) (.leaf 0x4000000000000000000000000000000000000000000000001)) (.node 1 (.leaf 0x8) (.leaf 0x4000000000000000000000000000000000000000000000001))) (.node 2 (.node 1 (.leaf 0x5000000000000000000000000000000000000000000000001) (.leaf 0x4000000000000000000000000000000000000000000000000)) (.node 1 (.leaf 0x4000000000000000000000000000000000000000000000000) (.leaf 0x4000000000000000000000000000000000000000000000000))))) (.node 8 (.node 4 (.node 2 (.node 1 (.leaf 0x4000000000000000020000000000000000000000000000000) (.leaf 0x5000000000000000000000000000000000000000000000001)) (.node 1 (.leaf 0x5000000000000000820412000000000000000000000000001) (.leaf 0x5000000000000000820512000000000000000000000000001))) (.node 2 (.node 1 (.leaf 0x5000000000000000820512000000000000000000000000001) (.leaf 0x5000000000000000820512000000000000000000000000001)) (.node 1 (.leaf 0x5000000000000000820512000000000000000000000000001) (.leaf 0x5000000000000000820412000000000000000000000000001)))) (.node 4 (.node 2 (.node 1 (.leaf 0x5000000000000000820412000000000000000000000000001) (.leaf 0x5000000000000000820512000000000000000000000000001)) (.node 1 (.leaf 0x400000000000000000000000000000) (.leaf 0x5000000000000000820412000000000000000000000000001))) (.node 2 (.node 1 (.leaf 0x5000000000000000820512000000000000000000000000001) (.leaf 0x5000000000000000820512000000000000000000000000001)) (.node 1 (.leaf 0x5000000000000000820512000000000000000000000000001) (.leaf 0x4000000000000000000000000000000000000000000000000)))))) (.node 16 (.node 8 (.node 4 (.node 2 (.node 1 (.leaf 0x4000000000000000000000000000000000000000000000000) (.leaf 0x1000000000000000000000000000000000000000000)) (.node 1 (.leaf 0x4000000000000000000100000000000000000000000000000) (.leaf 0x5000000000000000820512000000000000000000000000001))) (.node 2 (.node 1 (.leaf 0x5000000000000000820512000000000000000000000000001) (.leaf 0x5000000000000000820512000400000000000000000000001)) (.node 1 (.leaf 0x5000000000000000820512000000000000000000000000001) (.leaf 0x5000000000000000820512000000000000000000000000001)))) (.node 4 (.node 2 (.node 1 (.leaf 0x5000000000000000820512000000000000000000000000001) (.leaf 0x5000000000000000820512000000000000000000000000001)) (.node 1 (.leaf 0x5000000000000000820412000000000000000000000000001) (.leaf 0x5000000000000000820512000000000000000000000000001))) (.node 2 (.node 1 (.leaf 0x5000000000000000820512000000000000000000000000001) (.leaf 0x5000000000000000820512000000000000000000000000001)) (.node 1 (.leaf 0x5000000000000000820512000000000000000000000000001) (.leaf 0x5000000000000000820512000000000000000000000000001))))) (.node 8 (.node 4 (.node 2 (.node 1 (.leaf 0x5000000000000000820512000000000000000000000000009) (.leaf 0x5000000000000000820512000000000000000000000000001)) (.node 1 (.leaf 0x5000000000000000820512000000000000000000000000001) (.leaf 0x5000000000000000820512000000000000000000000000001))) (.node 2 (.node 1 (.leaf 0x5000000000000000820512000000000000000000000000001) (.leaf 0x4000000000000000000000000000000000000000000000001)) (.node 1 (.leaf 0x4000000000000000800000000000000000000000000000001) (.leaf 0x4000000000000000800000000000000000000000000000001)))) (.node 4 (.node 2 (.node 1 (.leaf 0x20000000000000000000000000000000000000000000000000) (.leaf 0x4000000000000000800000000000000000000000000000001)) (.node 1 (.leaf 0x8000000000000000000000000000000) (.leaf 0x6000000000000000828000000480000000400000000000001))) (.node 2 (.node 1 (.leaf 0x800000000000000000000000000000000) (.leaf 0x4000000000000000800000000000000000000000000000001)) (.node 1 (.leaf 0x4000000000000000800000000000000000000000000000001) (.leaf 0x5000000000000000800000000000000000000000000000001))))))) (.node 32 (.node 16 (.node 8 (.node 4 (.node 2 (.node 1 (.leaf 0x5000000000000000000000000000000000000000000000001) (.leaf 0x4000000000000000000000000000000000000000000000001)) (.node 1 (.leaf 0x4000000000000000000000000000000000000000000000001) (.leaf 0x4000000000000000000000000000000000000000000000001))) (.node 2 (.node 1 (.leaf 0x4000000000000000000000000000000000000000000000001) (.leaf 0x4000000000000000000000000000000000000000000000001)) (.node 1 (.leaf 0x400000000000000) (.leaf 0x400000000000000)))) (.node 4 (.node 2 (.node 1 (.leaf 0x400000000000000) (.leaf 0x400000000000000)) (.node 1 (.leaf 0x4000000000000000800000000000000000000000000000001) (.leaf 0x8000000000000000000000000))) (.node 2 (.node 1 (.leaf 0x4000000000000000800000000000000000000000000000001) (.leaf 0x1)) (.node 1 (.leaf 0x4000000000000000000000000000000000000000000000001) (.leaf 0x0))))) (.node 8 (.node 4 (.node 2 (.node 1 (.leaf 0x0) (.leaf 0x0)) (.node 1 (.leaf 0x0) (.leaf 0x0))) (.node 2 (.node 1 (.leaf 0x0) (.leaf 0x0)) (.node 1 (.leaf 0x0) (.leaf 0x0)))) (.node 4 (.node 2 (.node 1 (.leaf 0x0) (.leaf 0x0)) (.node 1 (.leaf 0x0) (.leaf 0x0))) (.node 2 (.node 1 (.leaf 0x0) (.leaf 0x0)) (.node 1 (.leaf 0x0) (.leaf 0x0)))))) (.node 16 (.node 8 (.node 4 (.node 2 (.node 1 (.leaf 0x0) (.leaf 0x0)) (.node 1 (.leaf 0x0) (.leaf 0x0))) (.node 2 (.node 1 (.leaf 0x0) (.leaf 0x0)) (.node 1 (.leaf 0x0) (.leaf 0x0)))) (.node 4 (.node 2 (.node 1 (.leaf 0x0) (.leaf 0x0)) (.node 1 (.leaf 0x0) (.leaf 0x0))) (.node 2 (.node 1 (.leaf 0x0) (.leaf 0x0)) (.node 1 (.leaf 0x0) (.leaf 0x0))))) (.node 8 (.node 4 (.node 2 (.node 1 (.leaf 0x0) (.leaf 0x0)) (.node 1 (.leaf 0x0) (.leaf 0x0))) (.node 2 (.node 1 (.leaf 0x0) (.leaf 0x0)) (.node 1 (.leaf 0x0) (.leaf 0x0)))) (.node 4 (.node 2 (.node 1 (.leaf 0x0) (.leaf 0x0)) (.node 1 (.leaf 0x0) (.leaf 0x0))) (.node 2 (.node 1 (.leaf 0x0) (.leaf 0x0)) (.node 1 (.leaf 0x0) (.leaf 0x0)))))))) (.node 64 (.node 32 (.node 16 (.node 8 (.node 4 (.node 2 (.node 1 (.leaf 0x0) (.leaf 0x0)) (.node 1 (.leaf 0x0) (.leaf 0x0))) (.node 2 (.node 1 (.leaf 0x0) (.leaf 0x0)) (.node 1 (.leaf 0x0) (.leaf 0x0)))) (.node 4 (.node 2 (.node 1 (.leaf 0x0) (.leaf 0x0)) (.node 1 (.leaf 0x0) (.leaf 0x0))) (.node 2 (.node 1 (.leaf 0x0) (.leaf 0x0)) (.node 1 (.leaf 0x0) (.leaf 0x0))))) (.node 8 (.node 4 (.node 2 (.node 1 (.leaf 0x0) (.leaf 0x0)) (.node 1 (.leaf 0x0) (.leaf 0x0))) (.node 2 (.node 1 (.leaf 0x0) (.leaf 0x0)) (.node 1 (.leaf 0x0) (.leaf 0x0)))) (.node 4 (.node 2 (.node 1 (.leaf 0x0) (.leaf 0x0)) (.node 1 (.leaf 0x0) (.leaf 0x0))) (.node 2 (.node 1 (.leaf 0x0) (.leaf 0x0)) (.node 1 (.leaf 0x0) (.leaf 0x0)))))) (.node 16 (.node 8 (.node 4 (.node 2 (.node 1 (.leaf 0x0) (.leaf 0x0)) (.node 1 (.leaf 0x0) (.leaf 0x0))) (.node 2 (.node 1 (.leaf 0x0) (.leaf 0x0)) (.node 1 (.leaf 0x0) (.leaf 0x0)))) (.node 4 (.node 2 (.node 1 (.leaf 0x0) (.leaf 0x0)) (.node 1 (.leaf 0x0) (.leaf 0x0))) (.node 2 (.node 1 (.leaf 0x0) (.leaf 0x0)) (.node 1 (.leaf 0x0) (.leaf 0x0))))) (.node 8 (.node 4 (.node 2 (.node 1 (.leaf 0x0) (.leaf 0x0)) (.node 1 (.leaf 0x0) (.leaf 0x0))) (.node 2 (.node 1 (.leaf 0x0) (.leaf 0x0)) (.node 1 (.leaf 0x0) (.leaf 0x0)))) (.node 4 (.node 2 (.node 1 (.leaf 0x0) (.leaf 0x0)) (.node 1 (.leaf 0x0) (.leaf 0x0))) (.node 2 (.node 1 (.leaf 0x0) (.leaf 0x0)) (.node 1 (.leaf 0x0) (.leaf 0x0))))))) (.node 32 (.node 16 (.node 8 (.node 4 (.node 2 (.node 1 (.leaf 0x0) (.leaf 0x0)) (.node 1 (.leaf 0x0) (.leaf 0x0))) (.node 2 (.node 1 (.leaf 0x0) (.leaf 0x0)) (.node 1 (.leaf 0x0) (.leaf 0x0)))) (.node 4 (.node 2 (.node 1 (.leaf 0x0) (.leaf 0x0)) (.node 1 (.leaf 0x0) (.leaf 0x0))) (.node 2 (.node 1 (.leaf 0x0) (.leaf 0x0)) (.node 1 (.leaf 0x0) (.leaf 0x0))))) (.node 8 (.node 4 (.node 2 (.node 1 (.leaf 0x0) (.leaf 0x0)) (.node 1 (.leaf 0x0) (.leaf 0x0))) (.node 2 (.node 1 (.leaf 0x0) (.leaf 0x0)) (.node 1 (.leaf 0x0) (.leaf 0x0)))) (.node 4 (.node 2 (.node 1 (.leaf 0x0) (.leaf 0x0)) (.node 1 (.leaf 0x0) (.leaf 0x0))) (.node 2 (.node 1 (.leaf 0x0) (.leaf 0x0)) (.node 1 (.leaf 0x0) (.leaf 0x0)))))) (.node 16 (.node 8 (.node 4 (.node 2 (.node 1 (.leaf 0x0) (.leaf 0x0)) (.node 1 (.leaf 0x0) (.leaf 0x0))) (.node 2 (.node 1 (.leaf 0x0) (.leaf 0x0)) (.node 1 (.leaf 0x0) (.leaf 0x0)))) (.node 4 (.node 2 (.node 1 (.leaf 0x0) (.leaf 0x0)) (.node 1 (.leaf 0x0) (.leaf 0x0))) (.node 2 (.node 1 (.leaf 0x0) (.leaf 0x0)) (.node 1 (.leaf 0x0) (.leaf 0x0))))) (.node 8 (.node 4 (.node 2 (.node 1 (.leaf 0x0) (.leaf 0x0)) (.node 1 (.leaf 0x0) (.leaf 0x0))) (.node 2 (.node 1 (.leaf 0x0) (.leaf 0x0)) (.node 1 (.leaf 0x0) (.leaf 0x0)))) (.node 4 (.node 2 (.node 1 (.leaf 0x0) (.leaf 0x0)) (.node 1 (.leaf 0x0) (.leaf 0x0))) (.node 2 (.node 1 (.leaf 0x0) (.leaf 0x0)) (.node 1 (.leaf 0x0) (.leaf 0x0))))))))))
end Verif.LR
