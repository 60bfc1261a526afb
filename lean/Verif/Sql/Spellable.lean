import Verif.Sql.RenderOk
import Verif.LR.Sound
/-! Every terminal of the grammar can be written, so every sequence of terminals that occurs in a derivation is that of some text. Proof-internal. -/
namespace Verif.Sql
open Verif.Lex Verif.LR

/-- A word for the terminal. -/
def anyWord (a : Nat) : Word :=
  if a = T.IDENTIFIER then .id b!"a" else if a = T.STRING then .str b!"a" else if a = T.FLOATVAL then .flt b!"1.5" else
  if a = T.INTVAL then .int 1 else if a = T.QMARK then .par 0 else .kw a

/-- The terminal can be written. -/
def spellB (a : Nat) : Bool := a == T.IDENTIFIER || a == T.STRING || a == T.FLOATVAL || a == T.INTVAL || a == T.QMARK || spellings.any fun e => e.1 == a

theorem rules_spell : (rules.drop 2).all (fun r => r.2.all fun a => Nat.ble 199 a || spellB a) = true := by decide +kernel

theorem rhs_spell {r a : Nat} (h2 : 2 ≤ r) (hr : r < rules.length) (ha : a ∈ rhs r) (hlt : a < 199) : spellB a = true := by
  have hm : rules[r] ∈ rules.drop 2 := by
    rw [List.mem_drop_iff_getElem]
    exact ⟨r - 2, by omega, by congr 1; omega⟩
  have := List.all_eq_true.1 rules_spell _ hm
  have e : rhs r = rules[r].2 := by
    unfold rhs
    rw [List.getD_eq_getElem?_getD, List.getElem?_eq_getElem hr]
    rfl
  rw [e] at ha
  have := List.all_eq_true.1 this a ha
  rw [Bool.or_eq_true] at this
  rcases this with h | h
  · have := Nat.le_of_ble_eq_true h; omega
  · exact h

mutual
theorem wf_spell : ∀ (t : Tree), t.WF → spellB t.sym = true ∨ 199 ≤ t.sym → ∀ x ∈ t.yield, spellB (tsym x) = true
  | .leaf t, _, h, x, hx => by
    simp only [Tree.yield, List.mem_singleton] at hx
    subst hx
    rcases h with h | h
    · exact h
    · have := tsym_lt x; simp only [Tree.sym] at h; omega
  | .node r cs, h, _, x, hx => by
    obtain ⟨h1, h2, h3, h4⟩ := h
    refine wfl_spell cs h4 ?_ x hx
    intro c hc
    have : c.sym ∈ rhs r := by rw [← h3]; exact List.mem_map_of_mem hc
    by_cases hl : c.sym < 199
    · exact .inl (rhs_spell h1 h2 this hl)
    · exact .inr (by omega)
theorem wfl_spell : ∀ (cs : List Tree), WFL cs → (∀ c ∈ cs, spellB c.sym = true ∨ 199 ≤ c.sym) → ∀ x ∈ yieldL cs, spellB (tsym x) = true
  | [], _, _, x, hx => by simp [yieldL] at hx
  | c :: cs, h, hs, x, hx => by
    simp only [yieldL, List.mem_append] at hx
    rcases hx with hx | hx
    · exact wf_spell c h.1 (hs c (by simp)) x hx
    · exact wfl_spell cs h.2 (fun d hd => hs d (by simp [hd])) x hx
end

theorem derives_spell {ts : List Tok} {T : Tree} (h : Derives ts T) : ∀ x ∈ ts, spellB (tsym x) = true := by
  obtain ⟨h1, h2, h3, _⟩ := h
  rw [← h3]
  exact wf_spell T h1 (.inr (by rw [h2]; decide))

theorem anyWord_spec {a : Nat} (h : spellB a = true) : (anyWord a).sym = a ∧ (anyWord a).Ok ∧ ∀ b, anyWord a = .kw b → Known b := by
  unfold anyWord
  split
  · subst a; exact ⟨rfl, ⟨by decide, by decide⟩, nofun⟩
  split
  · subst a; exact ⟨rfl, by simp only [Word.Ok]; decide, nofun⟩
  split
  · subst a; exact ⟨rfl, ⟨b!"1", b!"5", rfl, by decide, by decide⟩, nofun⟩
  split
  · subst a; exact ⟨rfl, ⟨by decide, by decide⟩, nofun⟩
  split
  · subst a; exact ⟨rfl, trivial, nofun⟩
  · rename_i h1 h2 h3 h4 h5
    refine ⟨rfl, trivial, ?_⟩
    intro b hb
    cases hb
    unfold spellB at h
    simp only [beq_eq_false_iff_ne.2 h1, beq_eq_false_iff_ne.2 h2, beq_eq_false_iff_ne.2 h3, beq_eq_false_iff_ne.2 h4, beq_eq_false_iff_ne.2 h5, Bool.false_or] at h
    exact h

theorem spell_heads : spellings.all (fun e => match e.2 with | [] => false | b :: _ => !(b == 32 || b == 9 || b == 10)) = true := by decide +kernel

theorem anyWord_head {a : Nat} (h : spellB a = true) : ∃ b x, (anyWord a).text = b :: x ∧ ¬ (b = 32 ∨ b = 9 ∨ b = 10) := by
  have hk := (anyWord_spec h).2.2
  unfold anyWord at hk ⊢
  split
  · exact ⟨_, _, rfl, by decide⟩
  split
  · exact ⟨_, _, rfl, by decide⟩
  split
  · exact ⟨_, _, rfl, by decide⟩
  split
  · exact ⟨49, [], by simp [Word.text, digits], by decide⟩
  split
  · exact ⟨_, _, rfl, by decide⟩
  · rename_i h1 h2 h3 h4 h5
    rw [if_neg h1, if_neg h2, if_neg h3, if_neg h4, if_neg h5] at hk
    obtain ⟨e, he, _, e3⟩ := spelling_mem (hk a rfl)
    have := List.all_eq_true.1 spell_heads e he
    simp only [Word.text, e3]
    split at this
    · cases this
    · rename_i b x hb
      exact ⟨b, x, hb, by simpa [and_assoc] using this⟩

/-- A sequence of such terminals is that of a text, which does not begin with a blank. -/
theorem write_all {as : List Nat} (h : ∀ a ∈ as, spellB a = true) :
    ∃ ws : List Word, ws.map Word.sym = as ∧ (∀ w ∈ ws, w.Ok) ∧ K ws ∧ ∀ x, (render ws).head? = some x → ¬ (x = 32 ∨ x = 9 ∨ x = 10) := by
  refine ⟨as.map anyWord, ?_, ?_, ?_, ?_⟩
  · rw [List.map_map]
    conv => rhs; rw [← List.map_id as]
    exact List.map_congr_left fun a ha => (anyWord_spec (h a ha)).1
  · intro w hw
    obtain ⟨a, ha, rfl⟩ := List.mem_map.1 hw
    exact (anyWord_spec (h a ha)).2.1
  · intro b hb
    obtain ⟨a, ha, e⟩ := List.mem_map.1 hb
    exact (anyWord_spec (h a ha)).2.2 b e
  · cases as with
    | nil => intro x hx; simp [render] at hx
    | cons a as =>
      obtain ⟨b, x, e, hb⟩ := anyWord_head (h a (by simp))
      intro y hy
      simp only [List.map_cons, render, e, List.cons_append, List.head?_cons, Option.some.injEq] at hy
      rw [← hy]; exact hb

end Verif.Sql
