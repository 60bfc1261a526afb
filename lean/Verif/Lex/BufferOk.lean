import Verif.Lex.Buffer
import Verif.Lex.LexFacts
/-! The scanner on its buffer does what the scanner on lists does. Proof-internal. -/
namespace Verif.Lex

theorem bMatch_ok : ∀ (rest : Bytes) (f : Nat) (g : Guts) (bp cp s n : Nat) (last : Option (Nat × Nat)) (s' n' : Nat),
    g.mem.drop cp = rest → cp = bp + n → rest.length < f →
    (∀ p q, last = some (p, q) → g.lastState = p ∧ g.lastPos = some (bp + q)) →
    matchLoop rest s n last = some (s', n') →
    bMatch f g cp s = some { g with lastState := s', lastPos := some (bp + n') } := by
  intro rest
  induction rest with
  | nil => intro f g bp cp s n last s' n' _ _ _ _ h; simp [matchLoop] at h
  | cons b rest ih =>
    intro f g bp cp s n last s' n' hd hcp hf hl h
    cases f with
    | zero => simp at hf
    | succ f =>
      have hb : g.mem[cp]? = some b := by
        have := congrArg (fun l => l[0]?) hd
        simpa using this
      have hd' : g.mem.drop (cp + 1) = rest := by
        have := congrArg List.tail hd
        simpa [List.tail_drop] using this
      simp only [matchLoop, Option.bind_eq_bind, Option.bind_eq_some_iff] at h
      obtain ⟨c, hc, acc, hacc, t, ht, h⟩ := h
      simp only [bMatch, hb, hc, hacc, ht, bind, Option.bind]
      have hl' : ∀ p q, (if acc ≠ 0 then some (s, n) else last) = some (p, q) →
          (if acc ≠ 0 then { g with lastState := s, lastPos := some cp } else g).lastState = p ∧
          (if acc ≠ 0 then { g with lastState := s, lastPos := some cp } else g).lastPos = some (bp + q) := by
        intro p q
        by_cases e : acc = 0
        · simpa [e] using hl p q
        · simp only [ne_eq, e, not_false_eq_true, if_true]
          intro hh; cases hh; simp [hcp]
      by_cases e : t = 1367
      · rw [if_pos e] at h ⊢
        obtain ⟨h1, h2⟩ := hl' _ _ h
        rw [← h1, ← h2]
        by_cases e' : acc = 0
        · simp [e']
        · simp [e']
      · rw [if_neg e] at h ⊢
        have hx : (if acc ≠ 0 then { g with lastState := s, lastPos := some cp } else g).mem = g.mem := by
          by_cases e' : acc = 0 <;> simp [e']
        rw [ih f _ bp (cp + 1) t (n + 1) _ s' n' (by rw [hx]; exact hd') (by omega) (by simp at hf; omega) hl' h]
        by_cases e' : acc = 0 <;> simp [e']

theorem bPrev_ok : ∀ (k : Nat) (rest : Bytes) (g : Guts) (bp cp s n : Nat) (last : Option (Nat × Nat)) (s' : Nat) (last' : Option (Nat × Nat)),
    (g.mem.drop cp).take k = rest → cp + k ≤ g.mem.length → cp = bp + n →
    (∀ p q, last = some (p, q) → g.lastState = p ∧ g.lastPos = some (bp + q)) →
    prevState rest s n last = some (s', last') →
    ∃ ls lp, bPrev k g cp s = some ({ g with lastState := ls, lastPos := lp }, s') ∧
      ∀ p q, last' = some (p, q) → ls = p ∧ lp = some (bp + q) := by
  intro k
  induction k with
  | zero =>
    intro rest g bp cp s n last s' last' hr _ _ hl h
    simp at hr; subst hr
    simp only [prevState, Option.some.injEq, Prod.mk.injEq] at h
    obtain ⟨rfl, rfl⟩ := h
    exact ⟨g.lastState, g.lastPos, rfl, hl⟩
  | succ k ih =>
    intro rest g bp cp s n last s' last' hr hlen hcp hl h
    have hlt : cp < g.mem.length := by omega
    have hdc : g.mem.drop cp = g.mem[cp] :: g.mem.drop (cp + 1) := List.drop_eq_getElem_cons hlt
    rw [hdc, List.take_succ_cons] at hr
    subst hr
    have hb : g.mem[cp]? = some g.mem[cp] := List.getElem?_eq_getElem hlt
    have hex : ∃ c acc t, (if g.mem[cp] ≠ 0 then yy_ec[g.mem[cp]]? else some 1) = some c ∧ yy_accept[s]? = some acc ∧ yyNext s c = some t ∧
        prevState ((g.mem.drop (cp + 1)).take k) t (n + 1) (if acc ≠ 0 then some (s, n) else last) = some (s', last') := by
      generalize g.mem[cp] = b at h ⊢
      cases b with
      | zero =>
        simp only [prevState, ne_eq, not_true_eq_false, if_false, bind, Option.bind] at h
        cases hacc : yy_accept[s]? with
        | none => rw [hacc] at h; cases h
        | some acc =>
          rw [hacc] at h; simp only [] at h
          cases ht : yyNext s 1 with
          | none => rw [ht] at h; cases h
          | some t => rw [ht] at h; exact ⟨1, acc, t, by simp, rfl, ht, h⟩
      | succ b =>
        simp only [prevState, ne_eq, Nat.succ_ne_zero, not_false_eq_true, if_true, bind, Option.bind] at h
        cases hc : yy_ec[b + 1]? with
        | none => rw [hc] at h; cases h
        | some c =>
          rw [hc] at h; simp only [] at h
          cases hacc : yy_accept[s]? with
          | none => rw [hacc] at h; cases h
          | some acc =>
            rw [hacc] at h; simp only [] at h
            cases ht : yyNext s c with
            | none => rw [ht] at h; cases h
            | some t => rw [ht] at h; exact ⟨c, acc, t, by simp [hc], rfl, ht, h⟩
    obtain ⟨c, acc, t, hc, hacc, ht, h⟩ := hex
    have hunf : bPrev (k + 1) g cp s = bPrev k (if acc ≠ 0 then { g with lastState := s, lastPos := some cp } else g) (cp + 1) t := by
      by_cases hb0 : g.mem[cp] = 0
      · simp only [hb0, ne_eq, not_true_eq_false, if_false, Option.some.injEq] at hc
        subst hc
        rw [hb0] at hb
        rw [bPrev]
        simp only [hb, ne_eq, not_true_eq_false, if_false, hacc, ht, bind, Option.bind]
      · simp only [hb0, ne_eq, not_false_eq_true, if_true] at hc
        simp only [bPrev, hb, hb0, ne_eq, not_false_eq_true, if_true, hc, hacc, ht, bind, Option.bind]
    rw [hunf]
    have hl' : ∀ p q, (if acc ≠ 0 then some (s, n) else last) = some (p, q) →
        (if acc ≠ 0 then { g with lastState := s, lastPos := some cp } else g).lastState = p ∧
        (if acc ≠ 0 then { g with lastState := s, lastPos := some cp } else g).lastPos = some (bp + q) := by
      intro p q
      by_cases e : acc = 0
      · simpa [e] using hl p q
      · simp only [ne_eq, e, not_false_eq_true, if_true]
        intro hh; cases hh; simp [hcp]
    have hx : (if acc ≠ 0 then { g with lastState := s, lastPos := some cp } else g).mem = g.mem := by
      by_cases e' : acc = 0 <;> simp [e']
    obtain ⟨ls, lp, h1, h2⟩ := ih _ (if acc ≠ 0 then { g with lastState := s, lastPos := some cp } else g) bp (cp + 1) t (n + 1) _ s' last'
      (by rw [hx]) (by rw [hx]; omega) (by omega) hl' h
    refine ⟨ls, lp, ?_, h2⟩
    rw [h1]
    by_cases e' : acc = 0 <;> simp [e']

/-- The two ways a match is found. -/
theorem scan_cases (sc : SC) (text : Bytes) (hc : Clean text) (hne : text ≠ []) :
    (∃ s r n, matchLoop (text ++ [0, 0]) (startState sc) 0 none = some (s, n) ∧ yy_accept[s]? = some r ∧ 0 < r ∧ r ≤ 188 ∧
      n ≤ text.length ∧ scan sc text = some (.rule r n)) ∨
    (∃ s' last' a, matchLoop (text ++ [0, 0]) (startState sc) 0 none = some (7, text.length + 1) ∧
      prevState text (startState sc) 0 none = some (s', last') ∧ yy_accept[s']? = some a ∧
      ((a ≠ 0 ∧ a ≤ 188 ∧ scan sc text = some (.rule a text.length)) ∨
       (a = 0 ∧ ∃ s r n, last' = some (s, n) ∧ yy_accept[s]? = some r ∧ 0 < r ∧ r ≤ 188 ∧ n ≤ text.length ∧ scan sc text = some (.rule r n)))) := by
  have hm0 : ∀ q, (stateMasks.get (startState sc)).testBit q = true ↔ Reach sc (text.take 0) q := by
    intro q; simpa using start_reach sc q
  have hl0 : LastOk sc text 0 none := fun k hk => by omega
  have rpos : ∀ {r w}, RuleMatches sc r w → 0 < r := by
    intro r w h; obtain ⟨_, _, h, _⟩ := h; omega
  rcases matchLoop_spec sc text text (startState sc) 0 none hc (start_live sc) (by simp) (by simp) hm0 hl0 with h | h
  · obtain ⟨s, n, e, hn, ha, hle, hlm⟩ := longest_some hc hne h
    refine .inl ⟨s, yy_acceptT.get s, n, e, ha, rpos hlm.isMatch, hle, hlm.le, ?_⟩
    have h190 : yy_acceptT.get s ≠ 190 := by omega
    simp only [scan, e, ha, bind, Option.bind, if_neg h190]
  · obtain ⟨s', last', hp, hlive, hm, hl⟩ :=
      prevState_spec sc text text (startState sc) 0 none hc (start_live sc) (by simp) (by simp) hm0 hl0 h
    have hacc := accept_get (s := s') (by have := hlive.1; omega)
    have hlen : text.length ≠ 0 := by simpa using hne
    have hlong : Longest sc text (if yy_acceptT.get s' ≠ 0 then some (s', text.length) else last') :=
      lastOk_step hlive (Nat.le_refl _) (by simpa using hm) hl
    obtain ⟨s, n, e, hn, ha, hle, hlm⟩ := longest_some hc hne hlong
    have c1 : ¬ text.length + 1 ≤ text.length := by omega
    have c2 : ¬ text.length + 1 = 1 := by omega
    refine .inr ⟨s', last', _, h, hp, hacc, ?_⟩
    by_cases e0 : yy_acceptT.get s' = 0
    · rw [if_neg (by simpa using e0)] at e
      refine .inr ⟨e0, s, _, n, e, ha, rpos hlm.isMatch, hle, hlm.le, ?_⟩
      simp only [scan, h, acc7, bind, Option.bind, if_true, if_neg c1, if_neg c2, hp, hacc, e0, e, ha, ne_eq, not_true_eq_false, if_false]
    · rw [if_pos e0] at e
      cases e
      refine .inl ⟨e0, hle, ?_⟩
      simp only [scan, h, acc7, bind, Option.bind, if_true, if_neg c1, if_neg c2, hp, hacc, if_pos e0]

theorem eob_nil (sc : SC) : matchLoop [0, 0] (startState sc) 0 none = some (7, 1) := by
  cases sc <;> decide +kernel

/-- The scanner on its buffer stands at the rest of the text `T`. -/
structure Rep (T : Bytes) (g : Guts) (st : LexSt) : Prop where
  len : g.mem.length = T.length + 2
  mem : g.mem.set g.cbuf g.hold = T ++ [0, 0]
  pos : g.cbuf ≤ T.length
  rest : st.rest = T.drop g.cbuf
  start : g.start = startState st.sc
  bufChars : g.bufChars = T.length
  nChars : g.nChars = T.length
  inited : g.inited = true

theorem write_ok {mem : Bytes} {i v : Nat} (h : i < mem.length) : write mem i v = some (mem.set i v) := by
  simp [write, h]

/-- `YY_DO_BEFORE_ACTION` on the intact buffer. -/
theorem bBefore_ok {g : Guts} {bp cp : Nat} (hcp : cp < g.mem.length) (hbp : bp ≤ cp) :
    bBefore g bp cp = some { g with text := bp, leng := cp - bp, hold := g.mem[cp], mem := g.mem.set cp 0, cbuf := cp } := by
  have h1 : ¬ cp < bp := by omega
  simp only [bBefore, List.getElem?_eq_getElem hcp, write_ok hcp, bind, Option.bind, if_neg h1]

theorem set_back {mem : Bytes} {i v : Nat} (h : i < mem.length) : (mem.set i v).set i mem[i] = mem := by
  rw [List.set_set, List.set_getElem_self]

theorem bNew_ok {x : Guts} {n : Nat} (hx1 : x.bufChars = n) (hx2 : x.nChars = n) : bNew x = { x with nChars := n, isNew := false } := by
  unfold bNew
  by_cases e : x.isNew = true
  · rw [if_pos e, hx1]
  · rw [if_neg e]
    have : x.isNew = false := by simpa using e
    obtain ⟨_, _, _, _, _, _, _, _, _, _, _, _, _⟩ := x
    simp_all

/-- The action of rule `r` has been reached, with the text of the token terminated in place. -/
structure AtRule (T : Bytes) (pos n r : Nat) (st0 : Nat) (g' : Guts) (a : BAct) : Prop where
  act : a = .rule r
  len : g'.mem.length = T.length + 2
  mem : g'.mem = (T ++ [0, 0]).set (pos + n) 0
  hold : g'.mem.set g'.cbuf g'.hold = T ++ [0, 0]
  cbuf : g'.cbuf = pos + n
  text : g'.text = pos
  leng : g'.leng = n
  start : g'.start = st0
  bufChars : g'.bufChars = T.length
  nChars : g'.nChars = T.length
  inited : g'.inited = true

theorem find_rule {T : Bytes} {g : Guts} {f pos n s r : Nat} (hm : g.mem = T ++ [0, 0]) (hn : pos + n ≤ T.length) (ha : yy_accept[s]? = some r)
    (h0 : 0 < r) (h1 : r ≤ 188) (hb : g.bufChars = T.length) (hk : g.nChars = T.length) (hi : g.inited = true) :
    ∃ g' a, bFind (f + 1) g pos (pos + n) s = some (g', a) ∧ AtRule T pos n r g.start g' a := by
  have hlt : pos + n < g.mem.length := by rw [hm]; simp; omega
  refine ⟨{ g with text := pos, leng := pos + n - pos, hold := g.mem[pos + n], mem := g.mem.set (pos + n) 0, cbuf := pos + n }, .rule r, ?_, ?_⟩
  · simp only [bFind, ha, bind, Option.bind, bBefore_ok hlt (by omega : pos ≤ pos + n), if_neg (by omega : ¬ r = 0), if_neg (by omega : ¬ r = 190)]
  · refine ⟨rfl, by simp [hm], by simp [hm], ?_, rfl, rfl, by simp, rfl, hb, hk, hi⟩
    show (g.mem.set (pos + n) 0).set (pos + n) g.mem[pos + n] = _
    rw [set_back hlt, hm]

/-- One round of the scanner loop in front of some text. -/
theorem bScan_rule {T : Bytes} {g : Guts} {st : LexSt} (hT : Clean T) (h : Rep T g st) (hne : st.rest ≠ []) :
    ∃ r n g' a, scan st.sc st.rest = some (.rule r n) ∧ bScan g = some (g', a) ∧ AtRule T g.cbuf n r g.start g' a ∧ g.cbuf + n ≤ T.length := by
  have hcl : Clean st.rest := by rw [h.rest]; exact fun b hb => hT b (List.mem_of_mem_drop hb)
  have hlen : st.rest.length = T.length - g.cbuf := by rw [h.rest]; simp
  have hpos := h.pos
  have hw : write g.mem g.cbuf g.hold = some (T ++ [0, 0]) := by rw [write_ok (by rw [h.len]; omega), h.mem]
  have hdrop : (T ++ [0, 0]).drop g.cbuf = st.rest ++ [0, 0] := by
    rw [h.rest, List.drop_append_of_le_length hpos]
  have hml : (st.rest ++ [0, 0]).length < (T ++ [0, 0]).length + 1 := by simp; omega
  rcases scan_cases st.sc st.rest hcl hne with ⟨s, r, n, e1, e2, e3, e4, e5, e6⟩ | ⟨s', last', a, e1, e2, e3, e4⟩
  · obtain ⟨g', act, f1, f2⟩ := find_rule (T := T) (g := { g with mem := T ++ [0, 0], lastState := s, lastPos := some (g.cbuf + n) }) (f := 3) (pos := g.cbuf) (n := n)
      (s := s) (r := r) rfl (by omega) e2 e3 e4 h.bufChars h.nChars h.inited
    refine ⟨r, n, g', act, e6, ?_, f2, by omega⟩
    have hM := bMatch_ok _ ((T ++ [0, 0]).length + 1) { g with mem := T ++ [0, 0] } g.cbuf g.cbuf g.start 0 none s n hdrop rfl hml (by simp) (by rw [h.start]; exact e1)
    simp only [bScan, hw, bind, Option.bind, hM]
    exact f1
  · have hM := bMatch_ok _ ((T ++ [0, 0]).length + 1) { g with mem := T ++ [0, 0] } g.cbuf g.cbuf g.start 0 none 7 (st.rest.length + 1) hdrop rfl hml (by simp) (by rw [h.start]; exact e1)
    revert e4
    have hl0 : st.rest.length ≠ 0 := by simpa using hne
    have hcp : g.cbuf + (st.rest.length + 1) = T.length + 1 := by omega
    have hpv := bPrev_ok (T.length - g.cbuf) st.rest { g with mem := T ++ [0, 0], lastState := 7, lastPos := some (T.length + 1), text := g.cbuf, leng := T.length + 1 - g.cbuf, hold := 0, cbuf := T.length, nChars := T.length, isNew := false } g.cbuf g.cbuf g.start 0 none s' last'
      (by
        show ((T ++ [0, 0]).drop g.cbuf).take _ = _
        rw [hdrop, ← hlen]; simp)
      (by simp; omega) rfl (by simp) (by rw [h.start]; exact e2)
    obtain ⟨ls, lp, p1, p2⟩ := hpv
    have hlt : T.length + 1 < (T ++ [0, 0]).length := by simp
    have hget : (T ++ [0, 0])[T.length + 1] = 0 := by simp
    -- the first visit: the end of the buffer
    have key : ∀ f, bFind (f + 1) { g with mem := T ++ [0, 0], lastState := 7, lastPos := some (T.length + 1) } g.cbuf (T.length + 1) 7 =
        bFind f { g with mem := T ++ [0, 0], lastState := ls, lastPos := lp, text := g.cbuf, leng := T.length + 1 - g.cbuf, hold := 0, cbuf := T.length, nChars := T.length, isNew := false } g.cbuf T.length s' := by
      intro f
      have hB := bBefore_ok (g := { g with mem := T ++ [0, 0], lastState := 7, lastPos := some (T.length + 1) }) (bp := g.cbuf) (cp := T.length + 1) hlt (by omega)
      rw [bFind]
      simp only [acc7, bind, Option.bind, hB, if_neg (by decide : ¬ (190 = 0)), if_true]
      rw [if_neg (by omega : ¬ T.length + 1 < g.cbuf + 1)]
      simp only [hget]
      rw [write_ok (by simp)]
      simp only []
      have hs0 : ((T ++ [0, 0]).set (T.length + 1) 0).set (T.length + 1) 0 = T ++ [0, 0] := by
        have := set_back (v := 0) hlt
        rwa [hget] at this
      rw [hs0]
      rw [bNew_ok (n := T.length)]
      · simp only []
        rw [if_neg (by omega : ¬ T.length + 1 ≤ T.length), if_neg (by omega : ¬ T.length + 1 > T.length + 1), if_neg (by omega : ¬ T.length + 1 - g.cbuf = 1)]
        simp only [p1]
      · exact h.bufChars
      · exact h.nChars
    have start0 : bScan g = bFind 3 { g with mem := T ++ [0, 0], lastState := ls, lastPos := lp, text := g.cbuf, leng := T.length + 1 - g.cbuf, hold := 0, cbuf := T.length, nChars := T.length, isNew := false } g.cbuf T.length s' := by
      simp only [bScan, hw, bind, Option.bind, hM]
      rw [hcp]
      exact key 3
    intro e4
    rcases e4 with ⟨a0, a1, a2⟩ | ⟨a0, s, r, n, b1, b2, b3, b4, b5, b6⟩
    · obtain ⟨g', act, f1, f2⟩ := find_rule (T := T) (g := { g with mem := T ++ [0, 0], lastState := ls, lastPos := lp, text := g.cbuf, leng := T.length + 1 - g.cbuf, hold := 0, cbuf := T.length, nChars := T.length, isNew := false })
        (f := 2) (pos := g.cbuf) (n := st.rest.length) (s := s') (r := a) rfl (by omega) e3 (by omega) a1 h.bufChars rfl h.inited
      refine ⟨a, st.rest.length, g', act, a2, ?_, f2, by omega⟩
      rw [start0, ← f1]
      congr 1; omega
    · obtain ⟨q1, q2⟩ := p2 _ _ b1
      subst a0
      have hlt' : T.length < (T ++ [0, 0]).length := by simp
      have hget' : (T ++ [0, 0])[T.length] = 0 := by simp
      obtain ⟨g', act, f1, f2⟩ := find_rule (T := T) (g := { g with mem := T ++ [0, 0], lastState := ls, lastPos := lp, text := g.cbuf, leng := T.length - g.cbuf, hold := 0, cbuf := T.length, nChars := T.length, isNew := false })
        (f := 1) (pos := g.cbuf) (n := n) (s := s) (r := r) rfl (by omega) b2 b3 b4 h.bufChars rfl h.inited
      refine ⟨r, n, g', act, b6, ?_, f2, by omega⟩
      rw [start0, ← f1, bFind]
      have hB := bBefore_ok (g := { g with mem := T ++ [0, 0], lastState := ls, lastPos := lp, text := g.cbuf, leng := T.length + 1 - g.cbuf, hold := 0, cbuf := T.length, nChars := T.length, isNew := false }) (bp := g.cbuf) (cp := T.length) hlt' (by omega)
      simp only [e3, bind, Option.bind, hB, if_true, hget']
      rw [write_ok (by simp)]
      have hs0 : ((T ++ [0, 0]).set T.length 0).set T.length 0 = T ++ [0, 0] := by
        have := set_back (v := 0) hlt'
        rwa [hget'] at this
      simp only [hs0, q1, q2]

/-- One round of the scanner loop at the end of the text. -/
theorem bScan_eof {T : Bytes} {g : Guts} {st : LexSt} (h : Rep T g st) (hne : st.rest = []) :
    ∃ g', bScan g = some (g', .eof) ∧ Rep T g' st := by
  have hpos := h.pos
  have hlen : g.cbuf = T.length := by
    have := congrArg List.length h.rest
    rw [hne] at this; simp at this; omega
  have hw : write g.mem g.cbuf g.hold = some (T ++ [0, 0]) := by rw [write_ok (by rw [h.len]; omega), h.mem]
  have hdrop : (T ++ [0, 0]).drop g.cbuf = [0, 0] := by rw [hlen]; simp
  have hM := bMatch_ok _ ((T ++ [0, 0]).length + 1) { g with mem := T ++ [0, 0] } g.cbuf g.cbuf g.start 0 none 7 1 hdrop rfl (by simp) (by simp) (by rw [h.start]; exact eob_nil st.sc)
  have hlt : g.cbuf + 1 < (T ++ [0, 0]).length := by simp; omega
  have hget : (T ++ [0, 0])[g.cbuf + 1] = 0 := by simp [hlen]
  have hB := bBefore_ok (g := { g with mem := T ++ [0, 0], lastState := 7, lastPos := some (g.cbuf + 1) }) (bp := g.cbuf) (cp := g.cbuf + 1) hlt (by omega)
  have hs0 : ((T ++ [0, 0]).set (g.cbuf + 1) 0).set (g.cbuf + 1) 0 = T ++ [0, 0] := by
    have := set_back (v := 0) hlt
    rwa [hget] at this
  refine ⟨{ g with mem := T ++ [0, 0], lastState := 7, lastPos := some (g.cbuf + 1), text := g.cbuf, leng := g.cbuf + 1 - g.cbuf, hold := 0, cbuf := g.cbuf, nChars := T.length, isNew := false }, ?_, ?_⟩
  · simp only [bScan, hw, bind, Option.bind, hM]
    rw [bFind]
    simp only [acc7, bind, Option.bind, hB, if_neg (by decide : ¬ (190 = 0)), if_true]
    rw [if_neg (by omega : ¬ g.cbuf + 1 < g.cbuf + 1)]
    simp only [hget]
    rw [write_ok (by simp; omega)]
    simp only []
    rw [hs0, bNew_ok (n := T.length)]
    · simp only []
      rw [if_neg (by omega : ¬ g.cbuf + 1 ≤ T.length), if_neg (by omega : ¬ g.cbuf + 1 > T.length + 1), if_pos (by omega : g.cbuf + 1 - g.cbuf = 1)]
    · exact h.bufChars
    · exact h.nChars
  · refine ⟨by simp, ?_, hpos, h.rest, h.start, h.bufChars, rfl, h.inited⟩
    show (T ++ [0, 0]).set g.cbuf 0 = _
    rw [hlen]; simp

theorem scOf_start (sc : SC) : scOf (startState sc) = some sc := by cases sc <;> rfl

/-- The text of the token, read back from the buffer. -/
theorem cstr_ok {T : Bytes} (hT : Clean T) {pos n : Nat} (h : pos + n ≤ T.length) :
    cstr ((T ++ [0, 0]).set (pos + n) 0) pos = some ((T.drop pos).take n) := by
  have h1 : ((T ++ [0, 0]).set (pos + n) 0).drop pos = (T.drop pos).take n ++ 0 :: ((T ++ [0, 0]).drop (pos + n + 1)) := by
    have hlt : pos + n < (T ++ [0, 0]).length := by simp; omega
    rw [List.set_eq_take_append_cons_drop, if_pos hlt, List.drop_append_of_le_length (by simp; omega), List.take_append_of_le_length h]
    congr 1
    rw [List.drop_take]; congr 1; omega
  rw [cstr, h1, if_pos (by simp)]
  congr 1
  have hc : ∀ x ∈ (T.drop pos).take n, decide (x ≠ 0) = true := by
    intro x hx
    have := hT x (List.mem_of_mem_drop (List.mem_of_mem_take hx))
    simp; omega
  rw [List.takeWhile_append_of_pos hc]
  simp

theorem bLexFuel_ok (fpr : Int) {T : Bytes} (hT : Clean T) : ∀ (f : Nat) (g : Guts) (st : LexSt) (acc : List Bytes) (t : Tok) (st' : LexSt),
    Rep T g st → yylexFuel fpr f st acc = some (t, st') →
    ∃ g', bLexFuel fpr f g st.buf acc = some (t, g', st'.buf) ∧ Rep T g' st' := by
  intro f
  induction f with
  | zero => intro g st acc t st' _ h; cases h
  | succ f ih =>
    intro g st acc t st' hr h
    by_cases hne : st.rest = []
    · obtain ⟨g', h1, h2⟩ := bScan_eof hr hne
      rw [yylexFuel, hne, scan_nil] at h
      simp only [Option.some.injEq, Prod.mk.injEq] at h
      obtain ⟨rfl, rfl⟩ := h
      refine ⟨g', ?_, h2⟩
      rw [bLexFuel]
      simp only [h1, bind, Option.bind, h2.start, scOf_start]
    · obtain ⟨r, n, g', a, h1, h2, h3, h4⟩ := bScan_rule hT hr hne
      rw [yylexFuel, h1] at h
      simp only [] at h
      have htx : cstr g'.mem g'.text = some (st.rest.take n) := by
        rw [h3.mem, h3.text, cstr_ok hT h4, hr.rest]
      have hstep : ∀ sc' buf', Rep T { g' with start := startState sc' } ⟨sc', buf', st.rest.drop n⟩ := by
        intro sc' buf'
        refine ⟨h3.len, h3.hold, ?_, ?_, rfl, h3.bufChars, h3.nChars, h3.inited⟩
        · show g'.cbuf ≤ _; rw [h3.cbuf]; exact h4
        · show st.rest.drop n = T.drop g'.cbuf
          rw [h3.cbuf, hr.rest, List.drop_drop]
      rw [bLexFuel]
      simp only [h2, bind, Option.bind, h3.start, hr.start, scOf_start, h3.act, htx]
      cases ha : lexAction fpr st.sc st.buf r (st.rest.take n) with
      | none => rw [ha] at h; cases h
      | some act =>
        rw [ha] at h
        cases act with
        | skip sc' buf' => exact ih _ _ _ _ _ (hstep sc' buf') h
        | ret sc' buf' c v =>
          simp only [Option.some.injEq, Prod.mk.injEq] at h
          obtain ⟨rfl, rfl⟩ := h
          exact ⟨_, rfl, hstep _ _⟩

/-- More fuel than needed does no harm. -/
theorem yylexFuel_more (fpr : Int) : ∀ (f : Nat) (st : LexSt) (acc : List Bytes) (x : Tok × LexSt) (k : Nat),
    yylexFuel fpr f st acc = some x → yylexFuel fpr (f + k) st acc = some x := by
  intro f
  induction f with
  | zero => intro st acc x k h; cases h
  | succ f ih =>
    intro st acc x k h
    rw [show f + 1 + k = (f + k) + 1 by omega]
    rw [yylexFuel] at h ⊢
    cases hs : scan st.sc st.rest with
    | none => rw [hs] at h; cases h
    | some res =>
      rw [hs] at h
      cases res with
      | eof => exact h
      | rule r n =>
        simp only [] at h ⊢
        cases ha : lexAction fpr st.sc st.buf r (st.rest.take n) with
        | none => rw [ha] at h; cases h
        | some act =>
          rw [ha] at h
          cases act with
          | skip sc' buf' => exact ih _ _ _ _ h
          | ret sc' buf' c v => exact h

theorem bLex_ok (fpr : Int) {T : Bytes} (hT : Clean T) {g : Guts} {st : LexSt} (hr : Rep T g st) :
    ∃ t st' g', yylex fpr st = some (t, st') ∧ bLex fpr g st.buf = some (t, g', st'.buf) ∧ Rep T g' st' := by
  have hcl : Clean st.rest := by rw [hr.rest]; exact fun b hb => hT b (List.mem_of_mem_drop hb)
  obtain ⟨t, st', h, _⟩ := yylexFuel_eq fpr (st.rest.length + 1) st [] hcl (by omega)
  have h' := yylexFuel_more fpr _ st [] _ (T.length + 2 - st.rest.length) h
  have hl : st.rest.length ≤ T.length := by rw [hr.rest]; simp
  rw [show st.rest.length + 1 + (T.length + 2 - st.rest.length) = T.length + 2 + 1 by omega] at h'
  obtain ⟨g', h1, h2⟩ := bLexFuel_ok fpr hT _ g st [] t st' hr h'
  refine ⟨t, st', g', h, ?_, h2⟩
  simp only [bLex, hr.inited, if_true, bind, Option.bind, hr.len]
  exact h1

/-- Before the first call. -/
structure Fresh (T : Bytes) (g : Guts) : Prop where
  mem : g.mem = T ++ [0, 0]
  bufPos : g.bufPos = 0
  bufChars : g.bufChars = T.length
  inited : g.inited = false
  start : g.start = 0

theorem bLex_first (fpr : Int) {T : Bytes} (hT : Clean T) {g : Guts} (hg : Fresh T g) (buf : Bytes) :
    ∃ t st' g', yylex fpr (lexInit buf T) = some (t, st') ∧ bLex fpr g buf = some (t, g', st'.buf) ∧ Rep T g' st' := by
  have hlt : 0 < g.mem.length := by rw [hg.mem]; simp
  have hload : loadBuffer { g with inited := true, start := if g.start = 0 then 1 else g.start } =
      some { g with inited := true, start := 1, nChars := T.length, text := 0, cbuf := 0, hold := g.mem[0] } := by
    simp only [loadBuffer, hg.bufPos, List.getElem?_eq_getElem hlt, bind, Option.bind, hg.bufChars, hg.start, if_true]
  have hR : Rep T { g with inited := true, start := 1, nChars := T.length, text := 0, cbuf := 0, hold := g.mem[0] } (lexInit buf T) := by
    refine ⟨by simp [hg.mem], ?_, by simp, by simp [lexInit], rfl, hg.bufChars, rfl, rfl⟩
    show g.mem.set 0 g.mem[0] = _
    rw [List.set_getElem_self, hg.mem]
  obtain ⟨t, st', g', h1, h2, h3⟩ := bLex_ok fpr hT hR
  refine ⟨t, st', g', h1, ?_, h3⟩
  rw [← h2]
  simp only [bLex, hg.inited, hload, if_true, bind, Option.bind]
  rfl

end Verif.Lex
