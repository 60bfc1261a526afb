import Verif.Lex.CertDefs
/-! GENERATED by tools/gengap.py. How far the scanner reads beyond its last accepting state (proof-internal certificate). -/
set_option maxRecDepth 200000
set_option linter.all false
namespace Verif.Lex

/-- 0: accepting, or a start state; 1: only blanks since the last accepting state; k + 1: blanks, then at most k bytes; 100: inside a quoted identifier. -/
def gapT : Trie := (.node 1024 (.node 512 (.node 256 (.leaf 0x2000000640000000000000000000000000000000000000000000000000000000000000000000000000000000000000000000000000000000000000000000000000000000000000000000000000000000000000000000000000000000000000000000000000000000000000000000000000000000000000000000000000000000000000000000000000000000000000000000000000000000000000000000000000000000000000000000000000000000000000000) (.leaf 0x300000000000000000000000000000000000000000000000000000000000000000000000000000000000000000000000000000000000000000000000000000000)) (.node 256 (.leaf 0x40000000000000000000000000000000000000000000000000000000000000000000000000000000000000000000000000000000000000000000000000000) (.leaf 0x60000000000000000000000000000000000000000000000000000000000000000000000000000000000000000000000000000000000000000000000000000000000000000000000000000000000000000000000000000000000000000000000000000000000000000000000000000000000000000000000000000000000000000000000000000000000000000000000000000000000000000000000000000000000000000000000000000000000000000000000000000000000000000000000000000000000000000000000000000000000000000000000000000000000000000000000000000000000000000000000000000000000000000000000000000000000000000000000000000000000000000000000000000000000000000000000000000000000000000000000000000000000000000000000000000000000000000000000000000000000000000000000000000000000000000000000000000000000000000000000000000000000000000000000000000000000000000000000000000000000000000000000050000000000000000000000000000000000000000000000000000000000000000000000000000000000000000000000000000000000000000000000000000))) (.node 512 (.node 256 (.leaf 0x10000000800000000000000000000000000000000000000000000000000000000000000000000000000000000000000000000000000000000000000000000000000000000000000000000000000000000000000000000000000000000000000000000000000000000000000000000000000000000000000000000000000000000000000000000000000000000000000000000000000000000000000000000000000000000000000000000000000000000000000000000000000000007000000000000000000000000000000000000000000000000000000000000000000000000000000000000000000000000000000000000000000000000000000000000000000000000000000000000000000000000000000000000000000000000000000000000000000000000000000000000000000000000000000000000000000000000000000000000000000000000000000000000000000000000000000000000000000000000000000000000000000000000000000000000000000000000000000000000000000000000000000000000000000000000000000000000000000000000000000000000000000000000000000000000) (.leaf 0x130000001200000000000000110000000000070010000000000006000f000000000005000e000000000004000d000000000003000c0000000000000000000000000002000b0000000000000000000000000000000000000000000000030001000a00000000000000000000000000000000000000000000000000000000000000000000000000000000000000000000000000000002000000090000000000000000000000000000)) (.leaf 0)))

/-- One move. Blanks are the classes 2 and 3. -/
noncomputable def gapCell (s c : Nat) : Bool :=
  (fun t => (fun g h =>
    Bool.rec
      (Bool.rec
        (Bool.rec
          (Bool.rec
            (Bool.rec false (Bool.rec false (Nat.blt h 20) (Nat.blt g h)) (Nat.blt 7 s))
            (Bool.rec (Bool.rec false (Nat.beq (yy_acceptT.get s) 188) (Nat.beq g 0)) true (Nat.beq g 100))
            (Nat.beq h 100))
          (Bool.rec false (Bool.rec false (Bool.rec false (Nat.ble c 3) (Nat.ble 2 c)) (Nat.ble g 1)) (Nat.blt 7 s))
          (Nat.beq h 1))
        (Nat.blt 0 (yy_acceptT.get t))
        (Nat.beq h 0))
      true (Nat.beq t 1367)) (gapT.get s) (gapT.get t)) (fastNext 8 s c)

noncomputable def gapRow (s : Nat) : Bool := Bool.rec true (Bool.rec false (allFrom 1 76 (gapCell s)) (Bool.rec (Nat.beq (gapT.get s) 0) true (Nat.beq (yy_acceptT.get s) 0))) (okState s)

theorem gapRows_0 : allFrom 0 57 gapRow = true := by decide +kernel
theorem gapRows_57 : allFrom 57 57 gapRow = true := by decide +kernel
theorem gapRows_114 : allFrom 114 57 gapRow = true := by decide +kernel
theorem gapRows_171 : allFrom 171 57 gapRow = true := by decide +kernel
theorem gapRows_228 : allFrom 228 57 gapRow = true := by decide +kernel
theorem gapRows_285 : allFrom 285 57 gapRow = true := by decide +kernel
theorem gapRows_342 : allFrom 342 57 gapRow = true := by decide +kernel
theorem gapRows_399 : allFrom 399 57 gapRow = true := by decide +kernel
theorem gapRows_456 : allFrom 456 57 gapRow = true := by decide +kernel
theorem gapRows_513 : allFrom 513 57 gapRow = true := by decide +kernel
theorem gapRows_570 : allFrom 570 57 gapRow = true := by decide +kernel
theorem gapRows_627 : allFrom 627 57 gapRow = true := by decide +kernel
theorem gapRows_684 : allFrom 684 57 gapRow = true := by decide +kernel
theorem gapRows_741 : allFrom 741 57 gapRow = true := by decide +kernel
theorem gapRows_798 : allFrom 798 57 gapRow = true := by decide +kernel
theorem gapRows_855 : allFrom 855 57 gapRow = true := by decide +kernel
theorem gapRows_912 : allFrom 912 57 gapRow = true := by decide +kernel
theorem gapRows_969 : allFrom 969 57 gapRow = true := by decide +kernel
theorem gapRows_1026 : allFrom 1026 57 gapRow = true := by decide +kernel
theorem gapRows_1083 : allFrom 1083 57 gapRow = true := by decide +kernel
theorem gapRows_1140 : allFrom 1140 57 gapRow = true := by decide +kernel
theorem gapRows_1197 : allFrom 1197 57 gapRow = true := by decide +kernel
theorem gapRows_1254 : allFrom 1254 57 gapRow = true := by decide +kernel
theorem gapRows_1311 : allFrom 1311 56 gapRow = true := by decide +kernel
theorem gapRow_all (s : Nat) (h : s < 1367) : gapRow s = true := by
  by_cases g0 : s < 57
  · exact allFrom_spec gapRows_0 s (by omega) g0
  by_cases g57 : s < 114
  · exact allFrom_spec gapRows_57 s (by omega) g57
  by_cases g114 : s < 171
  · exact allFrom_spec gapRows_114 s (by omega) g114
  by_cases g171 : s < 228
  · exact allFrom_spec gapRows_171 s (by omega) g171
  by_cases g228 : s < 285
  · exact allFrom_spec gapRows_228 s (by omega) g228
  by_cases g285 : s < 342
  · exact allFrom_spec gapRows_285 s (by omega) g285
  by_cases g342 : s < 399
  · exact allFrom_spec gapRows_342 s (by omega) g342
  by_cases g399 : s < 456
  · exact allFrom_spec gapRows_399 s (by omega) g399
  by_cases g456 : s < 513
  · exact allFrom_spec gapRows_456 s (by omega) g456
  by_cases g513 : s < 570
  · exact allFrom_spec gapRows_513 s (by omega) g513
  by_cases g570 : s < 627
  · exact allFrom_spec gapRows_570 s (by omega) g570
  by_cases g627 : s < 684
  · exact allFrom_spec gapRows_627 s (by omega) g627
  by_cases g684 : s < 741
  · exact allFrom_spec gapRows_684 s (by omega) g684
  by_cases g741 : s < 798
  · exact allFrom_spec gapRows_741 s (by omega) g741
  by_cases g798 : s < 855
  · exact allFrom_spec gapRows_798 s (by omega) g798
  by_cases g855 : s < 912
  · exact allFrom_spec gapRows_855 s (by omega) g855
  by_cases g912 : s < 969
  · exact allFrom_spec gapRows_912 s (by omega) g912
  by_cases g969 : s < 1026
  · exact allFrom_spec gapRows_969 s (by omega) g969
  by_cases g1026 : s < 1083
  · exact allFrom_spec gapRows_1026 s (by omega) g1026
  by_cases g1083 : s < 1140
  · exact allFrom_spec gapRows_1083 s (by omega) g1083
  by_cases g1140 : s < 1197
  · exact allFrom_spec gapRows_1140 s (by omega) g1140
  by_cases g1197 : s < 1254
  · exact allFrom_spec gapRows_1197 s (by omega) g1197
  by_cases g1254 : s < 1311
  · exact allFrom_spec gapRows_1254 s (by omega) g1254
  by_cases g1311 : s < 1367
  · exact allFrom_spec gapRows_1311 s (by omega) g1311
  omega


/-- A class 2 or 3 is that of a blank. -/
noncomputable def gapByte (b : Nat) : Bool := Bool.rec true (Bool.rec (Nat.beq b 32) (Nat.ble b 10) (Bool.rec false (Nat.ble b 10) (Nat.ble 9 b))) (Bool.rec false (Nat.ble (yy_ecT.get b) 3) (Nat.ble 2 (yy_ecT.get b)))
theorem gapBytes : allFrom 1 255 gapByte = true := by decide +kernel

end Verif.Lex
