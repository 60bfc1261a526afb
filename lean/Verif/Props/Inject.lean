import Verif.Props.Compose
import Verif.Props.ResultEx
import Verif.Sem.Bisim
import Verif.Lex.Quote
/-!
# String constants cannot change the statement around them (C53)
-/
namespace Verif.Props
open Verif.Lex Verif.LR Verif.Sem Verif.Api

/-- The SQL text of a string constant: every quote doubled, in quotes. -/
def quoteSql (s : List UInt8) : List UInt8 := [39] ++ s.flatMap (fun b => if b = 39 then [39, 39] else [b]) ++ [39]

/-- Replace the bytes of the string with address `a` by `s`. -/
def setString (a : Nat) (s : List UInt8) : Nat → Bytes → Bytes := fun x b => if x = a then s.map UInt8.toNat else b

theorem cText_append {a b : List UInt8} (h : (0 : UInt8) ∉ a) : cText (a ++ b) = a.map UInt8.toNat ++ cText b := by
  unfold cText
  rw [List.takeWhile_append_of_pos (by intro x hx; simp; rintro rfl; exact h hx), List.map_append]

theorem cText_all {a : List UInt8} (h : (0 : UInt8) ∉ a) : cText a = a.map UInt8.toNat := by
  have := cText_append (b := []) h
  simpa [cText] using this

theorem quoteSql_ne {s : List UInt8} (h : (0 : UInt8) ∉ s) : (0 : UInt8) ∉ quoteSql s := by
  unfold quoteSql
  simp only [List.mem_append, List.mem_cons, List.not_mem_nil, or_false, List.mem_flatMap, not_or, not_exists, not_and]
  refine ⟨⟨by decide, ?_⟩, by decide⟩
  intro b hb
  split
  · simp
  · simp; rintro rfl; exact h hb

theorem quoteSql_map (s : List UInt8) : (quoteSql s).map UInt8.toNat = 39 :: (escQuote (s.map UInt8.toNat) ++ [39]) := by
  unfold quoteSql
  rw [escQuote_flatMap]
  simp only [List.map_append, List.map_cons, List.map_nil, List.flatMap_map, List.map_flatMap, List.cons_append, List.nil_append]
  rw [show (UInt8.toNat 39) = 39 from rfl]
  congr 3
  funext b
  by_cases h : b = 39
  · subst h; rfl
  · have : b.toNat ≠ 39 := by
      intro h'
      exact h (UInt8.toNat_inj.1 h')
    rw [if_neg h, if_neg this]
    rfl

/-- The tokens of a text with a string constant in it. -/
theorem quoted_tokens {fpr : Int} {a s v : List UInt8} {ts : List Tok} (h : ScannedTo fpr a ts) (h0 : (0 : UInt8) ∉ a) (hq : a.getLast? ≠ some 39)
    (hs : (0 : UInt8) ∉ s) (hv : v.head? ≠ some 39) :
    ∃ pcs, tokensOf fpr (a ++ quoteSql s ++ v) = ts ++ ⟨259, .sval (s.map UInt8.toNat), pcs⟩ :: tokensOf fpr v := by
  obtain ⟨buf, acc, hr⟩ := scanned_run h
  have hv' : (cText v).head? ≠ some 39 := by
    unfold cText
    cases v with
    | nil => simp
    | cons b v =>
      simp only [List.takeWhile_cons]
      split
      · simp only [List.map_cons, List.head?_cons, ne_eq, Option.some.injEq]
        intro h'
        exact hv (by simp only [List.head?_cons, Option.some.injEq]; exact UInt8.toNat_inj.1 h')
      · simp
  have hq' : (cText a).getLast? ≠ some 39 := by
    rw [cText_all h0, List.getLast?_map]
    cases hx : a.getLast? with
    | none => simp
    | some b =>
      simp only [Option.map_some, ne_eq, Option.some.injEq]
      intro h'
      exact hq (by rw [hx]; congr 1; exact UInt8.toNat_inj.1 h')
  obtain ⟨pcs, h2⟩ := string_run fpr hv' (s.map UInt8.toNat) buf acc
  have hr2 := hr.quote (v := escQuote (s.map UInt8.toNat) ++ 39 :: cText v) (cText_clean a) hq' rfl
  have hr3 := hr2.trans h2
  have e1 : cText (a ++ quoteSql s ++ v) = cText a ++ 39 :: (escQuote (s.map UInt8.toNat) ++ 39 :: cText v) := by
    rw [List.append_assoc, cText_append h0, cText_append (quoteSql_ne hs), quoteSql_map, cText_all h0]
    simp
  refine ⟨pcs, ?_⟩
  have hcl := cText_clean (a ++ quoteSql s ++ v)
  rw [e1] at hcl
  rw [tokensOf_H, e1]
  have := (hr3.lexH hcl).1
  have e : lexInit [] (cText a ++ 39 :: (escQuote (s.map UInt8.toNat) ++ 39 :: cText v)) =
    ⟨(lexInit [] (cText a)).sc, (lexInit [] (cText a)).buf, (lexInit [] (cText a)).rest ++ 39 :: (escQuote (s.map UInt8.toNat) ++ 39 :: cText v)⟩ := rfl
  rw [e, this]
  simp only [List.append_assoc, List.singleton_append]
  congr 2
  have hcb := cText_clean v
  obtain ⟨ts', s1, s2, g1, g2, _⟩ := C21_tokens_independent_of_buffer fpr (s.map UInt8.toNat) [] v
  rw [lexAll_eq fpr _ hcb] at g1 g2
  simp only [Option.some.injEq] at g1 g2
  rw [tokensOf_H, g2]
  have : lexH fpr ⟨.initial, s.map UInt8.toNat, cText v⟩ [] = (ts', s1) := g1
  rw [this]

mutual
theorem er_congr {g g' : Nat → Bytes → Bytes} : ∀ (v : V), (∀ a ∈ v.addrs, ∀ b, g a b = g' a b) → v.er g = v.er g'
  | .undef, _ => rfl
  | .null, _ => rfl
  | .int _, _ => rfl
  | .pos _, _ => rfl
  | .idx _, _ => rfl
  | .raw _, _ => rfl
  | .str a b, h => by simp only [V.er]; rw [h a (by simp [V.addrs])]
  | .vec a vs, h => by simp only [V.er]; rw [erL_congr vs fun x hx => h x (by simp [V.addrs, hx])]
  | .obj a c fs, h => by simp only [V.er]; rw [erL_congr fs fun x hx => h x (by simp [V.addrs, hx])]
  | .tup fs, h => by simp only [V.er]; rw [erL_congr fs fun x hx => h x (by simp [V.addrs, hx])]
theorem erL_congr {g g' : Nat → Bytes → Bytes} : ∀ (vs : List V), (∀ a ∈ addrsL vs, ∀ b, g a b = g' a b) → erL g vs = erL g' vs
  | [], _ => rfl
  | v :: vs, h => by
    simp only [erL]
    rw [er_congr v fun x hx => h x (by simp [addrsL, hx]), erL_congr vs fun x hx => h x (by simp [addrsL, hx])]
end

theorem tokRel_refl {A : Alloc} {g : Nat → Bytes → Bytes} : ∀ (k : Nat) (ts : List Tok), (∀ i, k ≤ i → ∀ b, g (A.tok i) b = b) → TokRel A g k ts ts
  | _, [], _ => .nil _
  | k, t :: ts, h => by
    refine .cons rfl ?_ (tokRel_refl (k + 1) ts fun i hi => h i (by omega))
    cases t.val <;> simp only [tokValue, V.er]
    rw [h k (Nat.le_refl _)]; rfl

theorem tokRel_append {A : Alloc} {g : Nat → Bytes → Bytes} : ∀ (k : Nat) (ts : List Tok) (us us' : List Tok), (∀ i, k ≤ i → i < k + ts.length → ∀ b, g (A.tok i) b = b) →
    TokRel A g (k + ts.length) us us' → TokRel A g k (ts ++ us) (ts ++ us')
  | _, [], _, _, _, h => h
  | k, t :: ts, us, us', h, hu => by
    refine .cons rfl ?_ (tokRel_append (k + 1) ts us us' (fun i h1 h2 => h i (by omega) (by simp only [List.length_cons]; omega)) ?_)
    · cases t.val <;> simp only [tokValue, V.er]
      rw [h k (Nat.le_refl _) (by simp)]; rfl
    · rw [show k + 1 + ts.length = k + (t :: ts).length by simp only [List.length_cons]; omega]; exact hu

section
variable {A : Alloc} {fpr : Int} (hf : FprOK fpr) (buf : Bytes) (a s s' v : List UInt8) (r : Res) (hA : AllocOK A r)
  (ts : List Tok) (hT : ScannedTo fpr a ts) (h0 : (0 : UInt8) ∉ a) (hq : a.getLast? ≠ some 39)
  (hd : ∀ t, ts.getLast? = some t → tsym t ≠ T.DATE ∧ tsym t ≠ T.INTERVAL)
  (hs : (0 : UInt8) ∉ s) (hs' : (0 : UInt8) ∉ s') (hv : v.head? ≠ some 39)
include hf hA hT h0 hq hd hs hs' hv

/-- C53. In a text `a 's' v`, where the scanner reads all of `a`, which does not end in a quote nor in `DATE` or `INTERVAL`, and `v` does not begin
with a quote: putting any other constant in the place of `'s'` changes nothing in what `parse` does but the bytes of this one string, and
positions in the text. The same outcome, the same message, the same statements with the same other strings, the same blocks freed and leaked. -/
theorem C53_string_contents_are_opaque :
    (parse A fpr buf (a ++ quoteSql s ++ v) r).map (ParseOut.er (setString (A.tok ts.length) s')) =
      (parse A fpr buf (a ++ quoteSql s' ++ v) r).map (ParseOut.er keep) := by
  obtain ⟨p1, e1⟩ := quoted_tokens hT h0 hq hs hv
  obtain ⟨p2, e2⟩ := quoted_tokens hT h0 hq hs' hv
  have hg : ∀ i, i ≠ ts.length → ∀ b, setString (A.tok ts.length) s' (A.tok i) b = b := by
    intro i hi b
    unfold setString
    rw [if_neg]
    intro h
    exact hi (hA.tok i ts.length h)
  have hsym : ∀ b p, tsym (⟨259, .sval b, p⟩ : Tok) = T.STRING := by
    intro b p; show tsym (⟨259, .none, []⟩ : Tok) = _; decide +kernel
  have hrel : TokRel A (setString (A.tok ts.length) s') 0 (tokensOf fpr (a ++ quoteSql s ++ v)) (tokensOf fpr (a ++ quoteSql s' ++ v)) := by
    rw [e1, e2]
    refine tokRel_append 0 ts _ _ (fun i _ h2 => hg i (by omega)) (.cons ?_ ?_ (tokRel_refl _ _ fun i hi => hg i (by omega)))
    · rw [hsym, hsym]
    · rw [Nat.zero_add]
      simp only [tokValue, V.er, setString, if_pos, keep]
  have hfix : TokFix A (setString (A.tok ts.length) s') (tokensOf fpr (a ++ quoteSql s ++ v)) := by
    intro pre t post h
    by_cases hp : pre.length = ts.length
    · rw [e1] at h
      obtain ⟨h1, h2⟩ := List.append_inj h hp.symm
      cases h2
      subst h1
      exact .inr (.inl ⟨hsym _ _, hd⟩)
    · left
      intro x b hx
      cases htv : t.val <;> rw [htv] at hx <;> simp only [tokValue, reduceCtorEq, V.str.injEq] at hx
      rw [← hx.1]
      exact hg _ hp b
  obtain ⟨e, junk, hin⟩ := input_of (tokensOf_shape hf (a ++ quoteSql s ++ v)).2
  have hr : r.er (setString (A.tok ts.length) s') = r.er keep := by
    unfold Res.er
    have : r.stmts.map (V.er (setString (A.tok ts.length) s')) = r.stmts.map (V.er keep) := by
      rw [← erL_map, ← erL_map]
      refine erL_congr _ fun x hx b => ?_
      unfold setString keep
      rw [if_neg]
      rintro rfl
      exact hA.tokOld ts.length (List.mem_append_right _ hx)
    rw [this]
  have key := hsqlParse_rel (A := A) hfix hin hrel hr
  rw [parse_eq, parse_eq]
  generalize hsqlParse A (tokensOf fpr (a ++ quoteSql s ++ v)) r = x at key
  generalize hsqlParse A (tokensOf fpr (a ++ quoteSql s' ++ v)) r = y at key
  cases x with
  | none => cases y with
    | none => rfl
    | some y => cases key
  | some x => cases y with
    | none => cases key
    | some y =>
      obtain ⟨k, st⟩ := x
      obtain ⟨k', st'⟩ := y
      simp only [Option.map_some, Option.some.injEq, eRet, Prod.mk.injEq] at key
      obtain ⟨rfl, key⟩ := key
      have q1 := congrArg St.res key
      have q2 := congrArg St.freed key
      have q3 := congrArg St.leaked key
      simp only [Option.map_some, ParseOut.er, Option.some.injEq, ParseOut.mk.injEq]
      refine ⟨?_, q2, q3⟩
      show { st.res.er _ with isValid := decide (k = 0) } = { st'.res.er _ with isValid := decide (k = 0) }
      rw [show st.res.er (setString (A.tok ts.length) s') = st'.res.er keep from q1]

/-- C53, what can be seen of it at once: it is defined or not, valid or not for all contents alike, with the same message, the same number of statements and the
same parameters. -/
theorem C53_same_verdict :
    (parse A fpr buf (a ++ quoteSql s ++ v) r).map (fun o => (o.res.isValid, o.res.errMsg, o.res.stmts.length, o.res.params, o.freed, o.leaked)) =
      (parse A fpr buf (a ++ quoteSql s' ++ v) r).map (fun o => (o.res.isValid, o.res.errMsg, o.res.stmts.length, o.res.params, o.freed, o.leaked)) := by
  have key := C53_string_contents_are_opaque hf buf a s s' v r hA ts hT h0 hq hd hs hs' hv
  have h := congrArg (Option.map fun (o : ParseOut) => (o.res.isValid, o.res.errMsg, o.res.stmts.length, o.res.params, o.freed, o.leaked)) key
  rw [Option.map_map, Option.map_map] at h
  simpa only [Function.comp_def, ParseOut.er, Res.er, List.length_map] using h

end

/-- E.g. before the constant: -/
example : ScannedTo 64 (txt b!"SELECT * FROM t WHERE a =") [⟨313, .none, [b!"SELECT"]⟩, ⟨42, .none, [b!" ", b!"*"]⟩, ⟨349, .none, [b!" ", b!"FROM"]⟩,
    ⟨258, .sval b!"t", [b!" ", b!"t"]⟩, ⟨338, .none, [b!" ", b!"WHERE"]⟩, ⟨258, .sval b!"a", [b!" ", b!"a"]⟩, ⟨61, .none, [b!" ", b!"="]⟩] :=
  ⟨⟨7, [], [], by decide +kernel, by decide⟩, by decide +kernel⟩
/-- The constant: -/
example : quoteSql (txt b!"'; DROP TABLE t; --") = txt b!"'''; DROP TABLE t; --'" := by decide
/-- One valid statement, as for any other constant. -/
example : (run0 b!"SELECT * FROM t WHERE a ='''; DROP TABLE t; --'").map (fun o => (o.res.isValid, o.res.stmts.length)) = some (true, 1) :=
  parse_of_eval (f := 60) (q := Option.map fun (o : ParseOut) => (o.res.isValid, o.res.stmts.length)) (by decide +kernel)
/-- After `DATE` this is false: the action looks at the string. -/
example : (run0 b!"SELECT DATE '2000-01-01'").map (fun o => o.res.isValid) = some true ∧ (run0 b!"SELECT DATE 'x'").map (fun o => o.res.isValid) = some false :=
  ⟨parse_of_eval (f := 40) (q := Option.map fun (o : ParseOut) => o.res.isValid) (by decide +kernel),
   parse_of_eval (f := 40) (q := Option.map fun (o : ParseOut) => o.res.isValid) (by decide +kernel)⟩

end Verif.Props
