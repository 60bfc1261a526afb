import Verif.Sem.Rules
import Verif.LR.Stos
/-! The values of the tokens. Proof-internal. -/
namespace Verif.Sem
open Verif.LR Verif.Lex

/-- The value of a token fits its symbol. -/
def TokShape (t : Tok) : Prop :=
  match t.val with
  | .none => tsym t ≠ T.IDENTIFIER ∧ tsym t ≠ T.STRING ∧ tsym t ≠ T.FLOATVAL ∧ tsym t ≠ T.INTVAL
  | .ival _ => tsym t = T.INTVAL ∨ tsym t = T.eof ∨ tsym t = 2
  | .fval _ => tsym t = T.FLOATVAL
  | .sval _ => tsym t = T.IDENTIFIER ∨ tsym t = T.STRING

/-- What `fprintf` returns for an out-of-range integer: the number of characters written, which is 64, or a negative number. -/
def FprOK (fpr : Int) : Prop := fpr = 64 ∨ fpr < 0

def noVal (c : Int) : Bool := !([3, 4, 5, 6].contains (tokSym c))

theorem kw_noVal : (keywords.all fun k => noVal k.2) = true := by decide +kernel
theorem chars_noVal : ((List.range 256).all fun c => noVal (Int.ofNat c)) = true := by decide +kernel

theorem noVal_spec {c : Int} (h : noVal c = true) (ps : List Bytes) : TokShape ⟨c, .none, ps⟩ := by
  have key : ∀ x : Nat, (!([3, 4, 5, 6].contains x)) = true → x ≠ 3 ∧ x ≠ 4 ∧ x ≠ 5 ∧ x ≠ 6 := by
    intro x hx
    refine ⟨?_, ?_, ?_, ?_⟩ <;> (rintro rfl; simp at hx)
  exact key (tokSym c) h

theorem lexAction_shape {fpr : Int} (hf : FprOK fpr) {sc sc' : SC} {buf buf' text : Bytes} (hb : ∀ b ∈ text, b < 256) {r : Nat} {c : Int} {v : TokVal} (h : lexAction fpr sc buf r text = some (.ret sc' buf' c v))
    (ps : List Bytes) : TokShape ⟨c, v, ps⟩ := by
  unfold lexAction at h
  by_cases hc0 : r = 1
  · rw [if_pos hc0] at h
    cases h
  rw [if_neg hc0] at h
  by_cases hc1 : r = 2
  · rw [if_pos hc1] at h
    cases h
  rw [if_neg hc1] at h
  by_cases hc2 : r = 3
  · rw [if_pos hc2] at h
    cases h
  rw [if_neg hc2] at h
  by_cases hc3 : r = 4
  · rw [if_pos hc3] at h
    cases h
  rw [if_neg hc3] at h
  by_cases hc4 : r ≤ 168
  · rw [if_pos hc4] at h
    cases hk : keywords[r - 5]? with
    | none => rw [hk] at h; cases h
    | some k =>
      rw [hk] at h
      cases h
      exact noVal_spec (List.all_eq_true.1 kw_noVal k (List.mem_of_getElem? hk)) ps
  rw [if_neg hc4] at h
  by_cases hc5 : r = 169
  · rw [if_pos hc5] at h
    cases h; exact noVal_spec (by decide +kernel) ps
  rw [if_neg hc5] at h
  by_cases hc6 : r = 170
  · rw [if_pos hc6] at h
    cases h; exact noVal_spec (by decide +kernel) ps
  rw [if_neg hc6] at h
  by_cases hc7 : r = 171
  · rw [if_pos hc7] at h
    cases h; exact noVal_spec (by decide +kernel) ps
  rw [if_neg hc7] at h
  by_cases hc8 : r = 172
  · rw [if_pos hc8] at h
    cases h; exact noVal_spec (by decide +kernel) ps
  rw [if_neg hc8] at h
  by_cases hc9 : r = 173
  · rw [if_pos hc9] at h
    cases h; exact noVal_spec (by decide +kernel) ps
  rw [if_neg hc9] at h
  by_cases hc10 : r = 174
  · rw [if_pos hc10] at h
    cases h; exact noVal_spec (by decide +kernel) ps
  rw [if_neg hc10] at h
  by_cases hc11 : r = 175
  · rw [if_pos hc11] at h
    cases h; exact noVal_spec (by decide +kernel) ps
  rw [if_neg hc11] at h
  by_cases hc12 : r = 176
  · rw [if_pos hc12] at h
    cases h; exact noVal_spec (by decide +kernel) ps
  rw [if_neg hc12] at h
  by_cases hc13 : r = 177
  · rw [if_pos hc13] at h
    cases ht : text.head? with
    | none => rw [ht] at h; cases h
    | some x =>
      rw [ht] at h
      cases h
      have := hb x (List.mem_of_mem_head? ht)
      exact noVal_spec (List.all_eq_true.1 chars_noVal x (by simpa using this)) ps
  have e260 : tokSym 260 = T.FLOATVAL := by decide +kernel
  have e261 : tokSym 261 = T.INTVAL := by decide +kernel
  have e258 : tokSym 258 = T.IDENTIFIER := by decide +kernel
  have e259 : tokSym 259 = T.STRING := by decide +kernel
  rw [if_neg hc13] at h
  by_cases hc14 : r = 178
  · rw [if_pos hc14] at h
    cases h; exact e260
  rw [if_neg hc14] at h
  by_cases hc15 : r = 179
  · rw [if_pos hc15] at h
    cases h; exact e260
  rw [if_neg hc15] at h
  by_cases hc16 : r = 180
  · rw [if_pos hc16] at h
    cases h; exact .inl e261
  rw [if_neg hc16] at h
  by_cases hc17 : r = 181
  · rw [if_pos hc17] at h
    split at h
    · cases h; exact .inl e261
    · cases h
      rcases hf with rfl | hf
      · right; right; show tokSym 64 = 2; decide +kernel
      · right; left; show tokSym fpr = 0; unfold tokSym; rw [if_pos (by omega)]
  rw [if_neg hc17] at h
  by_cases hc18 : r = 182
  · rw [if_pos hc18] at h
    cases h; exact .inl e258
  rw [if_neg hc18] at h
  by_cases hc19 : r = 183
  · rw [if_pos hc19] at h
    cases h; exact .inl e258
  rw [if_neg hc19] at h
  by_cases hc20 : r = 184
  · rw [if_pos hc20] at h
    cases h
  rw [if_neg hc20] at h
  by_cases hc21 : r = 185
  · rw [if_pos hc21] at h
    cases h
  rw [if_neg hc21] at h
  by_cases hc22 : r = 186
  · rw [if_pos hc22] at h
    cases h
  rw [if_neg hc22] at h
  by_cases hc23 : r = 187
  · rw [if_pos hc23] at h
    cases h; exact .inr e259
  rw [if_neg hc23] at h
  by_cases hc24 : r = 188
  · rw [if_pos hc24] at h
    cases h; exact noVal_spec (by decide +kernel) ps
  rw [if_neg hc24] at h
  cases h

theorem yylex_shape {fpr : Int} (hf : FprOK fpr) : ∀ (n : Nat) (st : LexSt) (acc : List Bytes) (t : Tok) (st' : LexSt), (∀ b ∈ st.rest, b < 256) →
    yylexFuel fpr n st acc = some (t, st') → TokShape t ∧ ∀ b ∈ st'.rest, b < 256
  | 0, _, _, _, _, _, h => by cases h
  | n + 1, st, acc, t, st', hb, h => by
    unfold yylexFuel at h
    have htk : ∀ k, ∀ b ∈ st.rest.take k, b < 256 := fun k b hm => hb b (List.mem_of_mem_take hm)
    have hdr : ∀ k, ∀ b ∈ st.rest.drop k, b < 256 := fun k b hm => hb b (List.mem_of_mem_drop hm)
    split at h
    · cases h
    · cases h; exact ⟨noVal_spec (by decide +kernel) _, hb⟩
    · split at h
      · cases h
      · exact yylex_shape hf n _ _ t st' (hdr _) h
      · rename_i ha
        cases h
        exact ⟨lexAction_shape hf (htk _) ha _, hdr _⟩

theorem lexFuel_shape {fpr : Int} (hf : FprOK fpr) : ∀ (n : Nat) (st : LexSt) (ts : List Tok) (st' : LexSt), (∀ b ∈ st.rest, b < 256) →
    lexFuel fpr n st = some (ts, st') → (∀ t ∈ ts, TokShape t) ∧ ∃ t ∈ ts, t.code = 0
  | 0, _, _, _, _, h => by cases h
  | n + 1, st, ts, st', hb, h => by
    unfold lexFuel at h
    split at h
    · cases h
    · rename_i t st1 hy
      obtain ⟨h1, h2⟩ := yylex_shape hf _ _ _ _ _ hb hy
      split at h
      · rename_i h0; cases h; exact ⟨by simpa using h1, t, by simp, h0⟩
      · split at h
        · cases h
        · rename_i ts' st'' hl
          cases h
          obtain ⟨h3, u, hu, h4⟩ := lexFuel_shape hf n _ _ _ h2 hl
          exact ⟨by simpa using ⟨h1, h3⟩, u, by simp [hu], h4⟩

/-- The tokens of a text fit their symbols, and end with the end of input. -/
theorem lexAll_shape {fpr : Int} (hf : FprOK fpr) {buf : Bytes} {sql : List UInt8} {ts : List Tok} {st' : LexSt}
    (h : lexAll fpr (lexInit buf (cText sql)) = some (ts, st')) : (∀ t ∈ ts, TokShape t) ∧ ∃ t ∈ ts, tsym t = 0 := by
  obtain ⟨h1, t, ht, h0⟩ := lexFuel_shape hf _ _ _ _ (by
    intro b hb
    simp only [lexInit, cText, List.mem_map] at hb
    obtain ⟨x, _, rfl⟩ := hb
    exact x.toNat_lt) h
  exact ⟨h1, t, ht, by unfold tsym; rw [h0]; decide⟩

theorem tokValue_sat {ok : Bytes → Prop} {good : List V → Prop} (A : Alloc) (k : Nat) {t : Tok} (h : TokShape t) (hok : ∀ b, t.val = .sval b → ok b) :
    Sat ok good (symTy (tsym t)) (tokValue A k t.val) := by
  unfold TokShape at h
  have hlt := tsym_lt t
  cases hv : t.val with
  | none =>
    rw [hv] at h
    simp only [ne_eq] at h
    unfold symTy
    rw [if_neg h.1, if_neg h.2.1, if_neg h.2.2.1, if_neg h.2.2.2]
    split
    · exact .ref (p := .undef) (by simp [alts]) .undef
    split
    · exact .ref (p := .undef) (by simp [alts]) .undef
    first
    | exact .undef
    | (rw [if_pos hlt]; exact .undef)
  | ival n =>
    rw [hv] at h
    rcases h with h | h | h <;> rw [h]
    · exact .num n
    · exact .ref (p := .num) (by simp [alts]) (.num n)
    · exact .ref (p := .num) (by simp [alts]) (.num n)
  | fval b =>
    rw [hv] at h
    simp only at h
    rw [h]
    exact .raw b
  | sval b =>
    rw [hv] at h
    rcases h with h | h <;> rw [h]
    · exact .str _ (hok b hv)
    · exact .str _ (hok b hv)

end Verif.Sem
