import Verif.LR.TrieInt
/-! Generated by tools/genlm.py. For nonterminal `199 + i`: the symbols its sentential forms can begin with. Proof-internal. -/
namespace Verif.LR
def lmT : BT Nat := (.node 128 (.node 64 (.node 32 (.node 16 (.node 8 (.node 4 (.node 2 (.node 1 (.leaf 0x80000000000000000000000000000000000000000000000000) (.leaf 0xc000000000000000000025ca001c1a8f00000000003800000000020800088000024030032008408080)) (.node 1 (.leaf 0xc000000000000000000025ca001c1a8e00000000003800000000020800088000024030032008408080) (.leaf 0xc000000000000000000025ca001c1a8c00000000003800000000020800088000024030032008408080))) (.node 2 (.node 1 (.leaf 0xc000000000000000000025ca0010088800000000003800000000020000080000024020030000408080) (.leaf 0x1000000000000000000000020000000000000000000000000000)) (.node 1 (.leaf 0x6000000000000000000000000000000000000000000000000008) (.leaf 0x4000000000000000000000000000000000000000000000000008)))) (.node 4 (.node 2 (.node 1 (.leaf 0x8000000000003800000000000000000000000000000000000000) (.leaf 0x10000000000000400000000000000000000000000000000000000)) (.node 1 (.leaf 0x20000000000000000000000000000000000000000000008000000) (.leaf 0x40000000000000000000000000000000000000000000000000010))) (.node 2 (.node 1 (.leaf 0x80000000000000000000000000000000000000000000000400000) (.leaf 0x100000000000000000000000000000008000000010000000000000)) (.node 1 (.leaf 0x200000000000000000000000000000000000000000000000000008) (.leaf 0x400000000000000000000000000000000000000000000000000010))))) (.node 8 (.node 4 (.node 2 (.node 1 (.leaf 0x800002000000000000000000020000000000000000000000000000) (.leaf 0x3000000000000000000000000000100000000000002000001000008)) (.node 1 (.leaf 0x2000000000000000000000000000100000000000000000000000008) (.leaf 0x4000000000000000000000000000000008000000000000000000000))) (.node 2 (.node 1 (.leaf 0x8000000000000000000000000000800000000000000002000000000) (.leaf 0x10000000000000000000000000000000000000000000010000000000)) (.node 1 (.leaf 0x20000000000000000000000080000000000000000000000000000000) (.leaf 0x81c000000000000e000000000000000000000000000000000000000008)))) (.node 4 (.node 2 (.node 1 (.leaf 0x818000000000000e000000000000000000000000000000000000000008) (.leaf 0x100000000000000000000000000000000000000000000000000000008)) (.node 1 (.leaf 0x200000000000000000200000001005080034000100000080be2000800) (.leaf 0x400000002000000000000000000000000000000000000000000000000))) (.node 2 (.node 1 (.leaf 0x800000002000000000000000000000000000000000000000000000000) (.leaf 0x17000000000000026000000000002000100000000000000000000000000)) (.node 1 (.leaf 0x16000000000000026000000000002000100000000000000000000000000) (.leaf 0x4000000000000006000000000002000100000000000000000000000000)))))) (.node 16 (.node 8 (.node 4 (.node 2 (.node 1 (.leaf 0x800000000000000e000000000000000000000000000000000000000000) (.leaf 0x10000000000000020000000000000000000000000000000000000000000)) (.node 1 (.leaf 0x20000000000000000000000000000000000080000000000000000000080) (.leaf 0x40000000000000000000000000080000000000000000000000000000000))) (.node 2 (.node 1 (.leaf 0x80000000000000000000000000000000000000000020000000000000000) (.leaf 0x300000000000000000000000000000000000080000000000000000000000)) (.node 1 (.leaf 0x200000000000000000000000000000000000080000000000000000000000) (.leaf 0x400000000000000000000000000000000000000000000000020000000000)))) (.node 4 (.node 2 (.node 1 (.leaf 0x800000000000000000000000000000000000000000000000000000008000) (.leaf 0x1000000000000000000000000000000000000000000000020000000000000)) (.node 1 (.leaf 0x2000000000002000000000000000000000000000000000000000000000000) (.leaf 0x4000000000000000000000000000000000000000000004000000000000000))) (.node 2 (.node 1 (.leaf 0x18000000000000000000000000000000000000000000000000000000000008) (.leaf 0x10000000000000000000000000000000000000000000000000000000000008)) (.node 1 (.leaf 0xc000000000000000000020000000000000000000000000000000020000000000000000000000000000) (.leaf 0x21c0000000000002000000000000000000000000000000000400000000000000))))) (.node 8 (.node 4 (.node 2 (.node 1 (.leaf 0x2080000000000000000000000000000000000000000000000400000000000000) (.leaf 0x100000000000002000000000000000000000000000000000000000000000000)) (.node 1 (.leaf 0x2200000000000000000000000000000000000000000000000400000000000000) (.leaf 0xc00000000000000000000000000000000000000000200000000200000000200))) (.node 2 (.node 1 (.leaf 0x800000000000000000000000000000000000000000200000000200000000200) (.leaf 0x1000000000000000000000000000000000080000000000000000000000000000)) (.node 1 (.leaf 0x2000000000000000000000000000000000000000000000000400000000000000) (.leaf 0x4000000000000000000000000000000000000000000000000000000000001000)))) (.node 4 (.node 2 (.node 1 (.leaf 0x1fff183bfe100080000000000000420600000001c0008002000100012000000001c00000000078) (.leaf 0x30000000000000000000000000000000000000000400000000000000000000000)) (.node 1 (.leaf 0x20000000000000000000000000000000000000000400000000000000000000000) (.leaf 0x40000000000000000000000000000000000000000000800000000000000000000))) (.node 2 (.node 1 (.leaf 0x80000000000000000000000000000000000000000000000200000000000000000) (.leaf 0x100000000000000000000000000000000000000000000000000008000000000000)) (.node 1 (.leaf 0x200000000000000000000000000000000000000000000010000000000000000000) (.leaf 0x1fff183bfc00c000000000000000420600000001c0008002000100012000000001c00000000078))))))) (.node 32 (.node 16 (.node 8 (.node 4 (.node 2 (.node 1 (.leaf 0x1fff183bfc008000000000000000420600000001c0008002000100012000000001c00000000078) (.leaf 0x1000000000000000000000000000000000000200000040000000000000000000000)) (.node 1 (.leaf 0x2000000000000000000000000000000000000000000000000000000000000000008) (.leaf 0x4000000000000000000000000000000000010000000000000000000000000000000))) (.node 2 (.node 1 (.leaf 0x8000000000000000000000000000000000000000000000001000080000000000000) (.leaf 0x1fff183bfe100000000000000000420600000001c0008002000100012000000001c00000000078)) (.node 1 (.leaf 0x1ff0000001e00000000000000000400200000001c0000000000100010000000001000000000070) (.leaf 0x1ff0000001c00000000000000000400200000001c0000000000100010000000001000000000070)))) (.node 4 (.node 2 (.node 1 (.leaf 0x1ff0000001800000000000000000400200000001c0000000000100010000000001000000000070) (.leaf 0x1ff0000001000000000000000000400200000001c0000000000100010000000000000000000070)) (.node 1 (.leaf 0x1fff183bfe000000000000000000420600000001c0008002000100012000000001c00000000078) (.leaf 0x1fff183bfc000000000000000000420600000001c0008002000100012000000001c00000000078))) (.node 2 (.node 1 (.leaf 0x1ffb183278000000000000000000420600000001c0008002000100012000000001800000000078) (.leaf 0x1ff8000010000000000000000000400400000001c0000000000100010000000000000000000078)) (.node 1 (.leaf 0x1ffb183278000000000000000000420600000001c0008002000100012000000001800000000078) (.leaf 0x1ffb183278000000000000000000420600000001c0008002000100012000000001800000000078))))) (.node 8 (.node 4 (.node 2 (.node 1 (.leaf 0x1fff183bfc000000000000000000420600000001c0008002000100012000000001c00000000078) (.leaf 0x1ffb183378000000000000000000420600000001c0008002000100012000000001800000000078)) (.node 1 (.leaf 0x20000000000000000000000000000000000000000000000002000000000000000000000) (.leaf 0x40000000000000000000000000000000000000000010000000000000000000000000000))) (.node 2 (.node 1 (.leaf 0x80000000000000000000000000000000000000002000000000000000000400000000000) (.leaf 0x1ffb183278000000000000000000420600000001c0008002000100012000000001800000000078)) (.node 1 (.leaf 0x200000000000000000000000000000000000000000000000000000000000000000000008) (.leaf 0x400000000000000000000000000000000000000000000000000020000000000000000000)))) (.node 4 (.node 2 (.node 1 (.leaf 0x800000000000000000000000000000000000000000000200000000000000000000000000) (.leaf 0x30000000000000000000000000000001c0000000000000000000000000000000000000000)) (.node 1 (.leaf 0x20000000000000000000000000000001c0000000000000000000000000000000000000000) (.leaf 0x4000000000000000000000000000001200000000000000000000000000000000000000040))) (.node 2 (.node 1 (.leaf 0x8000000000000000000000000000000000000000000000000000000000000800000000000) (.leaf 0x10000000000000000000000000000000000000000000000000000000000001000000000000)) (.node 1 (.leaf 0x20000000000000000000000000000000000000fc0000000000000000000000000000000000) (.leaf 0x4000000000000000000000000000000000003f000000000000000000000000000000000000)))))) (.node 16 (.node 8 (.node 4 (.node 2 (.node 1 (.leaf 0xe000000000000000000000000000000000003ffc0000000000000000000000000000000000) (.leaf 0x100000000000000000000000000000000000000008000000000000000000000000000000000)) (.node 1 (.leaf 0x1ffb183278000000000000000000420600000001c0008002000100012000000001800000000078) (.leaf 0x1fff183278000000000000000000420600000001c0008002000100012000000001800000000078))) (.node 2 (.node 1 (.leaf 0x800000000000000000000000000040000000000000000000000000000000000000000000008) (.leaf 0x1ff0000000000000000000000000400000000001c0000000000100010000000000000000000070)) (.node 1 (.leaf 0x2000000000000000000000000000000000000000000000000000000000000000000000000010) (.leaf 0x4000000000000000000000000000000000000180000000000000000000000000000000000000)))) (.node 4 (.node 2 (.node 1 (.leaf 0x18000000000000000000000000000000000000000000000000000000000000000000000000060) (.leaf 0x10000000000000000000000000000000000000000000000000000000000000000000000000040)) (.node 1 (.leaf 0x20000000000000000000000000000000000000000000000000100000000000000000000000000) (.leaf 0x40000000000000000000000000000000000000000000000000000010000000000000000000000))) (.node 2 (.node 1 (.leaf 0x80000000000000000000000000000000000000040000000000000000000000000000000000040) (.leaf 0x100000000000000000000000000040000000000000000000000000000000000000000000000000)) (.node 1 (.leaf 0x4000be00000000000000000000000000002000000000000000000000000000000000000000000000008) (.leaf 0x4000ac00000000000000000000000000002000000000000000000000000000000000000000000000008))))) (.node 8 (.node 4 (.node 2 (.node 1 (.leaf 0xa800000000000000000000000000002000000000000000000000000000000000000000000000008) (.leaf 0x4000bc00000000000000000000000000002000000000000000000000000000000000000000000000008)) (.node 1 (.leaf 0xa000000000000000000000000000000000000000000000000000000000000000000000000000008) (.leaf 0xc000000000000000000000000000000000000000000000000000000000000000000000000000008))) (.node 2 (.node 1 (.leaf 0x8000000000000000000000000000000000000000000000000000000000000000000000000000008) (.leaf 0x10000000000000000000000000000000000000000000000000000000000000000000000000000008)) (.node 1 (.leaf 0xa0000000000000000000000000000000000000000000000020000000000000000000000000000008) (.leaf 0xe0000000000000000000000000000000000000000000000020000000000000000000000000000008)))) (.node 4 (.node 2 (.node 1 (.leaf 0x80000000000000000000000000000000000000000000000020000000000000000000000000000008) (.leaf 0x180000000000000000000000000000000000000000000000020000000000000000000000000000008)) (.node 1 (.leaf 0xe00000000000000000000000000000000000000000000000000800000000000000000000000000000) (.leaf 0xc00000000000000000000000000000000000000000000000000800000000000000000000000000000))) (.node 2 (.node 1 (.leaf 0x800000000000000000000000000000000000000000000000000800000000000000000000000000000) (.leaf 0x1000000000000000000000000000000000000010020000004000000000000000004000000000000000)) (.node 1 (.leaf 0x200000000000000000000000000000000000000000c000000000000000000000000000000000000000) (.leaf 0xc000000000000000000000000000000000000000000000000000020000000000000000000000000000)))))))) (.node 64 (.node 32 (.node 16 (.node 8 (.node 4 (.node 2 (.node 1 (.leaf 0x8000000000000000000000000000000000000000000000000000020000000000000000000000000000) (.leaf 0x30000000000000000000000000000000000000000000000000000000000000000000000000000000008)) (.node 1 (.leaf 0x20000000000000000000000000000000000000000000000000000000000000000000000000000000008) (.leaf 0x4000ac00000000000000000000000000002000000000000000000000000000000000000000000000008))) (.node 2 (.node 1 (.leaf 0x800000000000000000000000000000000000000000000000000000000108000c0840000000000000000) (.leaf 0x1000001fff183bfc000000000000000000420600000001c0008002000100012000000001c00000000078)) (.node 1 (.leaf 0x200000000000000000000000000000000010000000000000000000000000000000000000000000000000) (.leaf 0x400000000000000000000000000000000000000000000000000000000000000000000000000000000008)))) (.node 4 (.node 2 (.node 1 (.leaf 0x0) (.leaf 0x0)) (.node 1 (.leaf 0x0) (.leaf 0x0))) (.node 2 (.node 1 (.leaf 0x0) (.leaf 0x0)) (.node 1 (.leaf 0x0) (.leaf 0x0))))) (.node 8 (.node 4 (.node 2 (.node 1 (.leaf 0x0) (.leaf 0x0)) (.node 1 (.leaf 0x0) (.leaf 0x0))) (.node 2 (.node 1 (.leaf 0x0) (.leaf 0x0)) (.node 1 (.leaf 0x0) (.leaf 0x0)))) (.node 4 (.node 2 (.node 1 (.leaf 0x0) (.leaf 0x0)) (.node 1 (.leaf 0x0) (.leaf 0x0))) (.node 2 (.node 1 (.leaf 0x0) (.leaf 0x0)) (.node 1 (.leaf 0x0) (.leaf 0x0)))))) (.node 16 (.node 8 (.node 4 (.node 2 (.node 1 (.leaf 0x0) (.leaf 0x0)) (.node 1 (.leaf 0x0) (.leaf 0x0))) (.node 2 (.node 1 (.leaf 0x0) (.leaf 0x0)) (.node 1 (.leaf 0x0) (.leaf 0x0)))) (.node 4 (.node 2 (.node 1 (.leaf 0x0) (.leaf 0x0)) (.node 1 (.leaf 0x0) (.leaf 0x0))) (.node 2 (.node 1 (.leaf 0x0) (.leaf 0x0)) (.node 1 (.leaf 0x0) (.leaf 0x0))))) (.node 8 (.node 4 (.node 2 (.node 1 (.leaf 0x0) (.leaf 0x0)) (.node 1 (.leaf 0x0) (.leaf 0x0))) (.node 2 (.node 1 (.leaf 0x0) (.leaf 0x0)) (.node 1 (.leaf 0x0) (.leaf 0x0)))) (.node 4 (.node 2 (.node 1 (.leaf 0x0) (.leaf 0x0)) (.node 1 (.leaf 0x0) (.leaf 0x0))) (.node 2 (.node 1 (.leaf 0x0) (.leaf 0x0)) (.node 1 (.leaf 0x0) (.leaf 0x0))))))) (.node 32 (.node 16 (.node 8 (.node 4 (.node 2 (.node 1 (.leaf 0x0) (.leaf 0x0)) (.node 1 (.leaf 0x0) (.leaf 0x0))) (.node 2 (.node 1 (.leaf 0x0) (.leaf 0x0)) (.node 1 (.leaf 0x0) (.leaf 0x0)))) (.node 4 (.node 2 (.node 1 (.leaf 0x0) (.leaf 0x0)) (.node 1 (.leaf 0x0) (.leaf 0x0))) (.node 2 (.node 1 (.leaf 0x0) (.leaf 0x0)) (.node 1 (.leaf 0x0) (.leaf 0x0))))) (.node 8 (.node 4 (.node 2 (.node 1 (.leaf 0x0) (.leaf 0x0)) (.node 1 (.leaf 0x0) (.leaf 0x0))) (.node 2 (.node 1 (.leaf 0x0) (.leaf 0x0)) (.node 1 (.leaf 0x0) (.leaf 0x0)))) (.node 4 (.node 2 (.node 1 (.leaf 0x0) (.leaf 0x0)) (.node 1 (.leaf 0x0) (.leaf 0x0))) (.node 2 (.node 1 (.leaf 0x0) (.leaf 0x0)) (.node 1 (.leaf 0x0) (.leaf 0x0)))))) (.node 16 (.node 8 (.node 4 (.node 2 (.node 1 (.leaf 0x0) (.leaf 0x0)) (.node 1 (.leaf 0x0) (.leaf 0x0))) (.node 2 (.node 1 (.leaf 0x0) (.leaf 0x0)) (.node 1 (.leaf 0x0) (.leaf 0x0)))) (.node 4 (.node 2 (.node 1 (.leaf 0x0) (.leaf 0x0)) (.node 1 (.leaf 0x0) (.leaf 0x0))) (.node 2 (.node 1 (.leaf 0x0) (.leaf 0x0)) (.node 1 (.leaf 0x0) (.leaf 0x0))))) (.node 8 (.node 4 (.node 2 (.node 1 (.leaf 0x0) (.leaf 0x0)) (.node 1 (.leaf 0x0) (.leaf 0x0))) (.node 2 (.node 1 (.leaf 0x0) (.leaf 0x0)) (.node 1 (.leaf 0x0) (.leaf 0x0)))) (.node 4 (.node 2 (.node 1 (.leaf 0x0) (.leaf 0x0)) (.node 1 (.leaf 0x0) (.leaf 0x0))) (.node 2 (.node 1 (.leaf 0x0) (.leaf 0x0)) (.node 1 (.leaf 0x0) (.leaf 0x0)))))))))
end Verif.LR
