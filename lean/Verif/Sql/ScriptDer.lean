import Verif.Sql.StmtDer
/-! Scripts are derived from the grammar. Proof-internal. -/
namespace Verif.Sql
open Verif.Lex Verif.LR Verif.Sem

theorem Item.v_obj (i : Item) : ∃ c fs, ∀ len, i.v len = .obj 0 c (len :: fs) := by cases i <;> exact ⟨_, _, fun _ => rfl⟩

theorem ev3 (i : Item) (n : Nat) : evRule 3 [i.v .undef] ⟨n, false⟩ = some (.vec 0 [i.v (.pos 0)], ⟨n, false⟩) := by
  obtain ⟨c, fs, h⟩ := i.v_obj
  rw [h, h]
  exact ev_of rfl rfl
theorem ev4 (l : List V) (i : Item) (n : Nat) : evRule 4 [.vec 0 l, .undef, i.v .undef] ⟨n, false⟩ = some (.vec 0 (l ++ [i.v (.pos 0)]), ⟨n, false⟩) := by
  obtain ⟨c, fs, h⟩ := i.v_obj
  rw [h, h]
  exact ev_of rfl rfl

theorem Script.der : ∀ s : Script, D N.statement_list s.words (.vec 0 (s.items.map (Item.v (.pos 0))))
  | .one i => Der.any_node 3 rfl rfl (DL.last i.der) (ev3 i)
  | .snoc l i => by
    refine Der.any_node 4 rfl rfl (DL.ck l.der (DL.kw (DL.last i.der))) ?_
    simp only [Script.items, List.map_append, List.map_cons, List.map_nil]
    exact ev4 _ i

theorem semi_der (b : Bool) : D N.opt_semicolon (if b then Sql.kw T.SEMI else []) .undef := by
  cases b
  · exact DT.d (Der.eps 355 rfl rfl ev).any
  · exact Der.any_node 354 rfl rfl DL.kw1 ev

theorem semi_saf (b : Bool) : Saf (if b then Sql.kw T.SEMI else []) := by cases b <;> first | exact saf_nil | exact saf_kw rfl

theorem Script.derives (s : Script) (b : Bool) {ts : List Tok} (hs : Spelled (s.text b) ts) (hn : Numbered 0 (s.text b)) :
    ∃ t, Derives ts t ∧ denInput t = some (fillL (s.items.map (Item.v (.pos 0)))) := by
  have hw : s.text b = s.words ++ (if b then Sql.kw T.SEMI else []) := by
    cases b
    · simp [Script.text]
    · rfl
  rw [hw] at hs hn
  obtain ⟨cs, f1, f2, f3, f4, f5, f6, f7⟩ := DL.cons s.der (DL.last (semi_der b)) (semi_saf b) ts 0 hs hn
  refine ⟨.node 2 cs, ⟨⟨by omega, by rw [rules_len]; omega, by rw [f2]; rfl, f1⟩, rfl, by rw [Tree.yield, f3], ?_⟩, ?_⟩
  · refine ⟨?_, ?_, f4 _ rfl⟩
    · unfold forbidReduce; rw [not_contested (by omega) (by decide), Bool.false_and]
    · intro c Y a _ _ _ _; unfold forbidShift; rw [not_contested (by omega) (by decide), Bool.false_and]
  · rw [denInput, f7]

end Verif.Sql
