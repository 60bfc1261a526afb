import Verif.Sem.Err
/-! Positions. Proof-internal, except for `lineOf`, `colOf` and `scanned`. -/
namespace Verif.Sem
open Verif.LR Verif.Lex

/-- The line (from 0) reached after the text `p`: the number of its line feeds. -/
def lineOf (p : Bytes) : Int := (p.count 10 : Nat)
/-- The column (from 0) reached after the text `p`: the number of its bytes after the last line feed. -/
def colOf (p : Bytes) : Int := ((p.reverse.takeWhile fun b => b ≠ 10).length : Nat)
/-- The text consumed for the tokens `toks`. -/
def scanned (toks : List Tok) : Bytes := (toks.flatMap Tok.pieces).flatten

theorem lineOf_snoc (p : Bytes) (b : Nat) : lineOf (p ++ [b]) = if b = 10 then lineOf p + 1 else lineOf p := by
  unfold lineOf
  rw [List.count_append]
  by_cases h : b = 10
  · subst h; simp
  · rw [if_neg h, show List.count 10 [b] = 0 from List.count_eq_zero.2 (by simp; exact fun h' => h h'.symm)]; rfl
theorem colOf_snoc (p : Bytes) (b : Nat) : colOf (p ++ [b]) = if b = 10 then 0 else colOf p + 1 := by
  unfold colOf
  rw [List.reverse_append, List.reverse_singleton, List.singleton_append, List.takeWhile_cons]
  by_cases h : b = 10
  · subst h; simp
  · simp [h]

/-- The end of `y` is the position after `p`. -/
structure EndsAt (y : YYLoc) (p : Bytes) : Prop where
  ll : y.loc.ll = lineOf p
  lc : y.loc.lc = colOf p
  total : y.total = p.length

theorem advance_fold (text : Bytes) : ∀ (y : YYLoc) (p : Bytes), EndsAt y p →
    let y' := text.foldl (fun (y : YYLoc) b =>
      { loc := if b = 10 then { y.loc with ll := y.loc.ll + 1, lc := 0 } else { y.loc with lc := y.loc.lc + 1 }
        total := y.total + 1
        len := y.len + 1 : YYLoc }) y
    EndsAt y' (p ++ text) ∧ y'.loc.fl = y.loc.fl ∧ y'.loc.fc = y.loc.fc ∧ y'.len = y.len + text.length := by
  induction text with
  | nil => intro y p h; simp only [List.foldl_nil, List.append_nil]; exact ⟨h, by simp⟩
  | cons b text ih =>
    intro y p h
    simp only [List.foldl_cons]
    have h1 : EndsAt ({ loc := if b = 10 then { y.loc with ll := y.loc.ll + 1, lc := 0 } else { y.loc with lc := y.loc.lc + 1 }, total := y.total + 1, len := y.len + 1 } : YYLoc) (p ++ [b]) := by
      refine ⟨?_, ?_, ?_⟩
      · rw [lineOf_snoc]; simp only []; split <;> simp [h.ll]
      · rw [colOf_snoc]; simp only []; split <;> simp [h.lc]
      · simp [h.total]
    have := ih _ _ h1
    rw [List.append_assoc, List.singleton_append] at this
    refine ⟨this.1, ?_, ?_, ?_⟩
    · rw [this.2.1]; simp only []; split <;> rfl
    · rw [this.2.2.1]; simp only []; split <;> rfl
    · rw [this.2.2.2]; simp only [List.length_cons]; omega

theorem advance_pos {y : YYLoc} {p : Bytes} (h : EndsAt y p) (text : Bytes) :
    EndsAt (advance y text) (p ++ text) ∧ (advance y text).loc.fl = lineOf p ∧ (advance y text).loc.fc = colOf p ∧ (advance y text).len = y.len + text.length := by
  have := advance_fold text { y with loc := { y.loc with fl := y.loc.ll, fc := y.loc.lc } } p ⟨h.ll, h.lc, h.total⟩
  simp only [] at this
  unfold advance
  refine ⟨this.1, ?_, ?_, this.2.2.2⟩
  · rw [this.2.1]; exact h.ll
  · rw [this.2.2.1]; exact h.lc

/-- `yylloc` after the pieces `ps`. -/
structure YAt (y : YYLoc) (ps : List Bytes) : Prop where
  e : EndsAt y ps.flatten
  fl : y.loc.fl = lineOf ps.dropLast.flatten
  fc : y.loc.fc = colOf ps.dropLast.flatten

theorem advances_pos : ∀ (qs : List Bytes) {y : YYLoc} {ps : List Bytes}, YAt y ps → YAt (qs.foldl advance y) (ps ++ qs) ∧ (qs.foldl advance y).len = y.len + qs.flatten.length
  | [], y, ps, h => by simp only [List.foldl_nil, List.append_nil]; exact ⟨h, by simp⟩
  | q :: qs, y, ps, h => by
    obtain ⟨h1, h2, h3, h4⟩ := advance_pos h.e q
    have := advances_pos qs (y := advance y q) (ps := ps ++ [q]) ⟨by simpa using h1, by simpa using h2, by simpa using h3⟩
    rw [List.append_assoc, List.singleton_append] at this
    refine ⟨this.1, ?_⟩
    rw [List.foldl_cons, this.2, h4, List.flatten_cons, List.length_append]; omega

theorem yat0 : YAt ⟨⟨0, 0, 0, 0⟩, 0, 0⟩ [] := ⟨⟨rfl, rfl, rfl⟩, rfl, rfl⟩

/-- The position is one inside the text `T`. -/
def Inside (T : Bytes) (l c : Int) : Prop := ∃ p, p <+: T ∧ l = lineOf p ∧ c = colOf p

theorem Inside.mono {T T' : Bytes} {l c : Int} (h : Inside T l c) (ht : T <+: T') : Inside T' l c := by
  obtain ⟨p, h1, h2⟩ := h
  exact ⟨p, h1.trans ht, h2⟩
theorem Inside.zero (T : Bytes) : Inside T 0 0 := ⟨[], List.nil_prefix, rfl, rfl⟩

def LocIn (T : Bytes) (l : Loc) : Prop := Inside T l.fl l.fc ∧ Inside T l.ll l.lc
theorem LocIn.mono {T T' : Bytes} {l : Loc} (h : LocIn T l) (ht : T <+: T') : LocIn T' l := ⟨h.1.mono ht, h.2.mono ht⟩

theorem flatten_prefix_of_dropLast (ps : List Bytes) : ps.dropLast.flatten <+: ps.flatten := by
  rcases List.eq_nil_or_concat ps with rfl | ⟨qs, q, rfl⟩
  · simp
  · simp

theorem YAt.locIn {y : YYLoc} {ps : List Bytes} (h : YAt y ps) : LocIn ps.flatten y.loc :=
  ⟨⟨_, flatten_prefix_of_dropLast ps, h.fl, h.fc⟩, ⟨_, List.prefix_rfl, h.e.ll, h.e.lc⟩⟩

theorem ruleLoc_in {T : Bytes} {vs : List SV} {below : Option SV} (h1 : ∀ v ∈ vs, LocIn T v.2) (h2 : ∀ v, below = some v → LocIn T v.2) : LocIn T (ruleLoc vs below) := by
  unfold ruleLoc
  split
  · rename_i f l hf hl
    exact ⟨(h1 f (List.mem_of_mem_head? hf)).1, (h1 l (List.mem_of_mem_getLast? hl)).2⟩
  · split
    · rename_i b
      exact ⟨(h2 b rfl).2, (h2 b rfl).2⟩
    · exact ⟨.zero T, .zero T⟩

/-- The positions in a configuration: `rd` are the tokens read. -/
structure PosI (A : Alloc) (r0 : Res) (toks : List Tok) (c : Cfg St SV) (rd : List Tok) : Prop where
  all : rd ++ c.toks = toks
  ntok : c.st.ntok = rd.length
  y : YAt c.st.yylloc (rd.flatMap Tok.pieces)
  stk : ∀ x ∈ c.stk, LocIn (scanned rd) x.2.2
  la : ∀ t v, c.la = some (t, v) → v.2 = c.st.yylloc.loc ∧ rd.getLast? = some t
  err : r0.errMsg = none → c.st.res.errMsg.isSome = true → Inside (scanned rd) c.st.res.errLine c.st.res.errCol

theorem redLoc_in {T : Bytes} {stk : List (Nat × SV)} (h : ∀ x ∈ stk, LocIn T x.2.2) (n : Nat) : LocIn T (redLoc stk n) := by
  refine ruleLoc_in ?_ ?_
  · intro v hv
    simp only [List.mem_reverse, List.mem_map] at hv
    obtain ⟨x, hx, rfl⟩ := hv
    exact h x (List.mem_of_mem_take hx)
  · intro v hv
    simp only [Option.map_eq_some_iff] at hv
    obtain ⟨x, hx, rfl⟩ := hv
    exact h x (List.mem_of_mem_drop (List.mem_of_mem_head? hx))

theorem rr_y {loc : Loc} {k : Prog} {r : Res} {y : YYLoc} {b : Bool} {r' : Res} {y' : YYLoc} (h : RR loc k r y b r' y') :
    y'.loc = y.loc ∧ y'.total = y.total := by
  induction h with
  | ret => exact ⟨rfl, rfl⟩
  | fail => exact ⟨rfl, rfl⟩
  | _ => assumption

/-- What a successful action leaves alone. -/
theorem act_frame {A : Alloc} {loc : Loc} {r : Nat} (h1 : 2 ≤ r) (h2 : r < 358) {vs : List V} {st st' : St} {v : V} (hl : vs.length = (rhs r).length)
    (h : run A loc (act r) (mkEnv vs) st = .ok v st') : st'.ntok = st.ntok ∧ st'.yylloc.loc = st.yylloc.loc ∧ st'.yylloc.total = st.yylloc.total := by
  by_cases h3 : r = 2
  · subst h3; have := run2 h; exact ⟨this.2.2.1, by rw [this.2.2.2.2.1], by rw [this.2.2.2.2.1]⟩
  · have hy := rr_y (act_ok_rr h1 h2 h3 h)
    refine ⟨?_, hy⟩
    by_cases h4 : r = 298
    · subst h4
      have e : rhs 298 = [T.QMARK] := by decide +kernel
      rw [e] at hl
      match vs, hl with
      | [v1], _ => rw [run298] at h; cases h; rfl
    · exact (run_frame A loc (act r) (mkEnv vs) st st' (rule_chk h1 h2 h3 h4).2 (by rw [h]; rfl)).ntok

theorem addParams_pos : ∀ (l : List Nat) (n : Nat) (r r' : Res), addParams l n r = some r' → r'.errMsg = r.errMsg ∧ r'.errLine = r.errLine ∧ r'.errCol = r.errCol ∧ r'.isValid = r.isValid
  | [], n, r, r', h => by simp only [addParams] at h; cases h; exact ⟨rfl, rfl, rfl, rfl⟩
  | a :: l, n, r, r', h => by
    simp only [addParams] at h
    split at h
    · cases h
    · split at h
      · split at h
        · rename_i r1 h1
          have := addParams_pos l (n + 1) r1 r' h
          rw [this.1, this.2.1, this.2.2.1, this.2.2.2]
          unfold Res.addParameter at h1
          split at h1
          · cases h1; exact ⟨rfl, rfl, rfl, rfl⟩
          · cases h1
        · cases h
      · cases h

theorem run2_pos {A : Alloc} {loc : Loc} {env : List V} {st st' : St} {v : V} (h : run A loc (act 2) env st = .ok v st') :
    st'.res.errMsg = st.res.errMsg ∧ st'.res.errLine = st.res.errLine ∧ st'.res.errCol = st.res.errCol ∧ st'.res.isValid = st.res.isValid := by
  have e : act 2 = .finish := rfl
  rw [e] at h
  simp only [run] at h
  split at h
  · split at h
    · split at h
      · cases h
        rename_i hadd
        have := addParams_pos _ _ _ _ hadd
        exact this
      · cases h
    · cases h
  · cases h

theorem pos_rc {A : Alloc} {toks : List Tok} {r0 : Res} {c : Cfg St SV} {stk : TStk} (h : RC (sem A) toks (startSt r0) c stk) : ∃ rd, PosI A r0 toks c rd := by
  refine RC.ind (I := fun c stk => ∃ rd, PosI A r0 toks c rd) ?_ ?_ ?_ ?_ h
  · refine ⟨[], rfl, rfl, yat0, ?_, ?_, ?_⟩
    · intro x hx; cases hx
    · intro t v h; cases h
    · intro h0 h1
      rw [show (initCfg toks (startSt r0) : Cfg St SV).st.res.errMsg = r0.errMsg from rfl, h0] at h1; cases h1
  · rintro c stk t ts ⟨rd, ih⟩ hla htk
    have hp : scanned rd <+: scanned (rd ++ [t]) := by unfold scanned; simp
    refine ⟨rd ++ [t], ?_, ?_, ?_, ?_, ?_, ?_⟩
    · rw [← ih.all, htk]; simp
    · show c.st.ntok + 1 = _; rw [ih.ntok]; simp
    · have := (advances_pos t.pieces ih.y).1
      rw [List.flatMap_append]
      simp only [List.flatMap_cons, List.flatMap_nil, List.append_nil]
      exact this
    · intro x hx; exact (ih.stk x hx).mono hp
    · intro t' v' h; cases h; exact ⟨rfl, by simp⟩
    · intro h0 h1; exact (ih.err h0 h1).mono hp
  · rintro c stk t v s ⟨rd, ih⟩ hla h69 ha
    refine ⟨rd, ih.all, ih.ntok, ih.y, ?_, ?_, ih.err⟩
    · intro x hx
      rcases List.mem_cons.1 hx with rfl | hx
      · rw [(ih.la t v hla).1]; exact ih.y.locIn
      · exact ih.stk x hx
    · intro t' v' h; cases h
  · rintro c stk r s v st ⟨rd, ih⟩ hat hred
    obtain ⟨e1, e2⟩ := reduce_ok hat.r1 hat.r2 hred
    have hf := act_frame hat.r1 hat.r2 (rhsVals_len hat) e2
    have hl := redLoc_in ih.stk (rhs r).length
    refine ⟨rd, ih.all, ?_, ?_, ?_, ?_, ?_⟩
    · rw [← ih.ntok]; exact hf.1
    · obtain ⟨⟨y1, y2, y3⟩, y4, y5⟩ := ih.y
      exact ⟨⟨by rw [hf.2.1]; exact y1, by rw [hf.2.1]; exact y2, by rw [hf.2.2]; exact y3⟩, by rw [hf.2.1]; exact y4, by rw [hf.2.1]; exact y5⟩
    · intro x hx
      rcases List.mem_cons.1 hx with rfl | hx
      · simp only; rw [e1]; exact hl
      · exact ih.stk x (List.mem_of_mem_drop hx)
    · intro t' v' h; rw [show st.yylloc.loc = c.st.yylloc.loc from hf.2.1]; exact ih.la t' v' h
    · intro h0 h1
      by_cases h2 : r = 2
      · subst h2
        obtain ⟨g1, g2, g3, _⟩ := run2_pos e2
        show Inside _ st.res.errLine st.res.errCol
        rw [g2, g3]
        refine ih.err h0 ?_
        rw [← g1]; exact h1
      · exact rr_pos (P := Inside (scanned rd)) hl.1 (act_ok_rr hat.r1 hat.r2 h2 e2) (ih.err h0) h1

end Verif.Sem
