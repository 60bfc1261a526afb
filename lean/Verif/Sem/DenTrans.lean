import Verif.Sem.DenMap
/-! Inputs with the same tokens up to a map of the token values. Proof-internal. -/
namespace Verif.Sem
open Verif.Lex Verif.LR

mutual
theorem fill_comm (f : Hm) (hk : f.k = 0) : ∀ (v : V), (v.h f).fill = v.fill.h f
  | .obj b c fs => by
    simp only [V.h, V.fill, isPar_h, parKey_h f hk, fillL_comm f hk fs]
    split
    · rw [newIval_h]
    · rfl
  | .vec b vs => by simp only [V.h, V.fill, fillL_comm f hk vs]
  | .tup fs => by simp only [V.h, V.fill, fillL_comm f hk fs]
  | .undef => rfl
  | .null => rfl
  | .int _ => rfl
  | .pos _ => rfl
  | .idx _ => rfl
  | .raw _ => rfl
  | .str _ _ => rfl
theorem fillL_comm (f : Hm) (hk : f.k = 0) : ∀ (vs : List V), fillL (hL f vs) = hL f (fillL vs)
  | [] => rfl
  | v :: vs => by simp only [hL, fillL, fill_comm f hk v, fillL_comm f hk vs]
end

theorem denInput_map {f : Hm} (hf : StrHom f) (hk : f.k = 0) {g : Tok → Tok} (hg : ∀ t, tokValue Z 0 (g t).val = (tokValue Z 0 t.val).h f)
    {t : Tree} (hw : t.WF) : denInput (t.mapTok g) = (denInput t).map (hL f) := by
  cases t with
  | leaf t => rfl
  | node r cs =>
    have h := denL_map hf hg cs hw.2.2.2 ⟨0, false⟩
    rw [show (⟨(0 : Nat) + f.k, false⟩ : PS) = ⟨0, false⟩ from by rw [hk]] at h
    rw [Tree.mapTok, denInput, denInput, h]
    cases denL cs ⟨0, false⟩ with
    | none => rfl
    | some x =>
      obtain ⟨vs, s⟩ := x
      cases vs with
      | nil => rfl
      | cons v vs =>
        cases v <;> simp only [Option.map_some, hL, V.h, Option.map_none]
        rw [fillL_comm f hk]

/-- Tokens equal up to `g`. -/
theorem derives_map {f : Hm} (hf : StrHom f) (hk : f.k = 0) {g : Tok → Tok} (hg : ∀ t, tokValue Z 0 (g t).val = (tokValue Z 0 t.val).h f)
    (hs : ∀ t, tsym (g t) = tsym t) {ts us : List Tok} (he : ts.map g = us.map g) {t : Tree} (ht : Derives ts t) :
    ∃ t', Derives us t' ∧ t.need = t'.need ∧ (denInput t').map (hL f) = (denInput t).map (hL f) := by
  have e : us.map tsym = ts.map tsym := by
    have := congrArg (List.map tsym) he
    simp only [List.map_map] at this
    have h2 : tsym ∘ g = tsym := funext hs
    rw [h2] at this
    exact this.symm
  obtain ⟨t', h1, h2⟩ := ht.same e
  refine ⟨t', h1, h2.need, ?_⟩
  rw [← denInput_map hf hk hg h1.1, ← denInput_map hf hk hg ht.1, same_mapTok h2 (by rw [ht.2.2.1, h1.2.2.1, he])]

theorem takeWhile_map {g : Tok → Tok} (hs : ∀ t, tsym (g t) = tsym t) : ∀ (l : List Tok), (l.map g).takeWhile (fun t => tsym t != 0) = (l.takeWhile fun t => tsym t != 0).map g
  | [] => rfl
  | t :: l => by
    rw [List.map_cons, List.takeWhile_cons, List.takeWhile_cons, hs]
    cases tsym t != 0
    · rfl
    · simp [takeWhile_map hs l]

/-- The token without its text. -/
def cvTok (t : Tok) : Tok := ⟨t.code, t.val, []⟩
theorem cvTok_val (t : Tok) : tokValue Z 0 (cvTok t).val = (tokValue Z 0 t.val).h ⟨id, 0⟩ := tokValue_shift 0 t.val

theorem map_of_cv {g : Tok → Tok} {p : TokVal → TokVal} (hg : ∀ t, g t = ⟨t.code, p t.val, []⟩) : ∀ {T U : List Tok}, T.map Tok.code = U.map Tok.code → T.map (fun x => p x.val) = U.map (fun x => p x.val) → T.map g = U.map g
  | [], [], _, _ => rfl
  | [], _ :: _, h, _ => by simp at h
  | _ :: _, [], h, _ => by simp at h
  | t :: T, u :: U, h1, h2 => by
    simp only [List.map_cons, List.cons.injEq] at h1 h2
    simp only [List.map_cons, map_of_cv hg h1.2 h2.2, hg, h1.1, h2.1]

mutual
theorem h_E0_h (f : Hm) : ∀ (v : V), (v.h E0).h f = v.h f
  | .obj b c fs => by simp only [V.h, hL_E0_h f fs]
  | .vec b vs => by simp only [V.h, hL_E0_h f vs]
  | .tup fs => by simp only [V.h, hL_E0_h f fs]
  | .undef => rfl
  | .null => rfl
  | .int _ => rfl
  | .pos _ => rfl
  | .idx _ => rfl
  | .raw _ => rfl
  | .str _ _ => rfl
theorem hL_E0_h (f : Hm) : ∀ (vs : List V), hL f (hL E0 vs) = hL f vs
  | [] => rfl
  | v :: vs => by simp only [hL, h_E0_h f v, hL_E0_h f vs]
end

end Verif.Sem
