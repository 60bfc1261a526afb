import Verif.Sem.Erase
import Verif.Sem.Own
import Verif.LR.Induct
/-!
# What the actions look at, II

The only strings the semantic actions look at are identifiers, and string constants directly after `DATE` or `INTERVAL`.
Proof-internal.
-/
namespace Verif.Sem
open Verif.Lex Verif.LR

/-- The identifiers on the right-hand side of rule `r` that its action looks at (places, from 0): the file types, the CSV options, the names of columns
(for a message), `NULLS FIRST`/`NULLS LAST`. -/
def lookedId (r : Nat) : List Nat :=
  if r = 37 then [0] else if r = 48 then [0] else if r = 55 then [5] else if r = 66 then [0] else if r = 162 then [0, 1] else []

/-- The values on the right-hand side of rule `r` that its action may look at. -/
def looked (r : Nat) : List Path :=
  (List.range (rhs r).length).filterMap fun i =>
    if i ∈ lookedId r ∨ ((rhs r)[i]? = some T.STRING ∧ 0 < i ∧ ((rhs r)[i - 1]? = some T.DATE ∨ (rhs r)[i - 1]? = some T.INTERVAL)) then some ⟨i + 1, []⟩ else none

def isFin : Prog → Bool
  | .finish => true
  | _ => false

theorem looked_sees0 : (actions.zipIdx.all fun x => isFin x.1 || x.1.sees (looked (x.2 + 2))) = true := by decide +kernel

theorem looked_sees {r : Nat} {p : Prog} (h1 : 2 ≤ r) (h : actions[r - 2]? = some p) : p = .finish ∨ p.sees (looked r) = true := by
  have hm : (p, r - 2) ∈ actions.zipIdx := by
    rw [List.mem_zipIdx_iff_getElem?]; exact h
  have := List.all_eq_true.1 looked_sees0 _ hm
  simp only [Bool.or_eq_true, show r - 2 + 2 = r by omega] at this
  rcases this with h | h
  · left
    cases p <;> first | rfl | cases h
  · exact .inr h

section
variable {A : Alloc} {g : Nat → Bytes → Bytes} {toks : List Tok} {r0 : Res} {c : Cfg St SV} {stk : TStk}

/-- The first words of the column types. -/
def typeWords : List Nat := [T.BIGINT, T.BOOLEAN, T.CHAR, T.CHARACTER_VARYING, T.DATE, T.DATETIME, T.DECIMAL, T.DOUBLE, T.FLOAT, T.INT, T.INTEGER, T.LONG, T.REAL,
  T.SMALLINT, T.TEXT, T.TIME, T.TIMESTAMP, T.VARCHAR]

/-- The string of the token `t`, between the tokens `pre` and `post`, means nothing to the parser: a string constant that does not follow `DATE` or `INTERVAL`, or an
identifier that is not next to another identifier (`NULLS FIRST`), is not the name of a column in front of its type, not a file type (after `FORMAT` or
`IMPORT FROM`, before `FILE`), and no CSV option (before a string). -/
def Opaque (pre : List Tok) (t : Tok) (post : List Tok) : Prop :=
  (tsym t = T.STRING ∧ ∀ u, pre.getLast? = some u → tsym u ≠ T.DATE ∧ tsym u ≠ T.INTERVAL) ∨
  (tsym t = T.IDENTIFIER ∧ (∀ u, pre.getLast? = some u → tsym u ≠ T.IDENTIFIER ∧ tsym u ≠ T.FORMAT) ∧
    (∀ q u w, pre = q ++ [u, w] → ¬ (tsym u = T.IMPORT ∧ tsym w = T.FROM)) ∧
    ∀ u, post.head? = some u → tsym u ≠ T.IDENTIFIER ∧ tsym u ≠ T.STRING ∧ tsym u ≠ T.FILE ∧ tsym u ∉ typeWords)

/-- The tokens `g` changes are opaque. -/
def TokFix (A : Alloc) (g : Nat → Bytes → Bytes) (toks : List Tok) : Prop :=
  ∀ pre t post, toks = pre ++ t :: post → (tokValue A pre.length t.val).Fix g ∨ Opaque pre t post

structure OInv (A : Alloc) (toks : List Tok) (c : Cfg St SV) (stk : TStk) : Prop where
  len : c.stk.length = stk.length
  lf : ∀ p ∈ stk, p.2.sym < 199 → ∃ t, p.2 = .leaf t
  all : stkYield stk ++ (c.la.map Prod.fst).toList ++ c.toks = toks
  ntok : c.st.ntok = (stkYield stk ++ (c.la.map Prod.fst).toList).length
  la : ∀ t v, c.la = some (t, v) → v.1 = tokValue A (stkYield stk).length t.val
  leafv : ∀ (j : Nat) v s m, c.stk[j]? = some v → stk[j]? = some (s, .leaf m) → v.2.1 = tokValue A (stkYield (stk.drop (j + 1))).length m.val

theorem stkYield_pop (n : Nat) (stk : TStk) (hn : n ≤ stk.length) : stkYield (stk.drop n) ++ yieldL (popTrees n stk) = stkYield stk := by
  induction n generalizing stk with
  | zero => simp [popTrees, yieldL]
  | succ n ih =>
    cases stk with
    | nil => simp at hn
    | cons x stk =>
      obtain ⟨s, t⟩ := x
      rw [popTrees_cons, stkYield_cons, yieldL_append, yieldL_single, ← List.append_assoc]
      rw [← ih stk (by simpa using hn)]
      rfl

theorem colTypes : ((List.range 358).all fun r => lhs r != N.column_type || match rhs r with | a :: _ => typeWords.contains a && decide (a < 199) | [] => false) = true := by decide +kernel

/-- A column type begins with one of the words. -/
theorem colType_first {t : Tree} (hw : t.WF) (hs : t.sym = N.column_type) : ∃ u l, t.yield = u :: l ∧ tsym u ∈ typeWords := by
  cases t with
  | leaf u =>
    exfalso
    have := tsym_lt u
    have h : tsym u = N.column_type := hs
    rw [h] at this
    exact absurd this (by decide)
  | node r cs =>
    obtain ⟨h1, h2, h3, h4⟩ := hw
    rw [rules_len] at h2
    have := List.all_eq_true.1 colTypes r (by simpa using h2)
    have hl : lhs r = N.column_type := hs
    rw [hl] at this
    simp only [bne_self_eq_false, Bool.false_or] at this
    cases hr : rhs r with
    | nil => rw [hr] at this; cases this
    | cons a q =>
      rw [hr] at this
      simp only [Bool.and_eq_true, decide_eq_true_eq, List.contains_iff_mem] at this
      cases cs with
      | nil => rw [hr] at h3; cases h3
      | cons c cs =>
        rw [hr] at h3
        simp only [List.map_cons, List.cons.injEq] at h3
        cases c with
        | leaf u => exact ⟨u, yieldL cs, rfl, by rw [show tsym u = a from h3.1]; exact this.1⟩
        | node r' cs' =>
          have := sym_node h4.1
          rw [h3.1] at this
          omega

theorem fileTypePreds : allFrom 0 656 (fun s => bor (Nat.beq ((stF s).pred.find 213) 0) (bor (Nat.ble 1 ((stF s).kern.find 35 2)) (bor (Nat.ble 1 ((stF s).kern.find 42 3)) (Nat.ble 1 ((stF s).kern.find 43 1))))) = true := by
  decide +kernel
theorem file0 : bor (Nat.ble 1 ((stF 0).kern.find 35 1)) (bor (Nat.ble 1 ((stF 0).kern.find 35 2)) (bor (Nat.ble 1 ((stF 0).kern.find 42 3)) (Nat.ble 1 ((stF 0).kern.find 43 1)))) = false := by
  decide +kernel

theorem leaf_yield {t : Tree} {m : Tok} (h : t = .leaf m) : t.yield = [m] := by rw [h]; rfl

/-- Before a file type there is `FORMAT` or `IMPORT FROM`. -/
theorem fileType_before {lim : Nat} {stk : TStk} {f : List Tok} (hok : StkOK lim stk f) (hlf : ∀ p ∈ stk, p.2.sym < 199 → ∃ t, p.2 = .leaf t) (hpm : PM (topState stk) N.file_type) :
    (∃ u, (stkYield stk).getLast? = some u ∧ tsym u = T.FORMAT) ∨ ∃ q u w, stkYield stk = q ++ [u, w] ∧ tsym u = T.IMPORT ∧ tsym w = T.FROM := by
  have hz := file0
  have h1 := allFrom_spec fileTypePreds (topState stk) (by omega) (by have := topState_lt hok; omega)
  simp only [bor_iff, beq_iff, ble_iff] at h1
  have hz1 : ¬ 1 ≤ (stF 0).kern.find 35 1 := by
    intro h; have : bor (Nat.ble 1 ((stF 0).kern.find 35 1)) (bor (Nat.ble 1 ((stF 0).kern.find 35 2)) (bor (Nat.ble 1 ((stF 0).kern.find 42 3)) (Nat.ble 1 ((stF 0).kern.find 43 1)))) = true := by
      simp only [bor_iff, ble_iff]; exact .inl h
    rw [this] at hz; cases hz
  have hz2 : ¬ (1 ≤ (stF 0).kern.find 35 2 ∨ 1 ≤ (stF 0).kern.find 42 3 ∨ 1 ≤ (stF 0).kern.find 43 1) := by
    intro h; have : bor (Nat.ble 1 ((stF 0).kern.find 35 1)) (bor (Nat.ble 1 ((stF 0).kern.find 35 2)) (bor (Nat.ble 1 ((stF 0).kern.find 42 3)) (Nat.ble 1 ((stF 0).kern.find 43 1)))) = true := by
      simp only [bor_iff, ble_iff]; exact .inr h
    rw [this] at hz; cases hz
  have h1 := h1.resolve_left hpm
  cases stk with
  | nil => exact absurd h1 hz2
  | cons x rest =>
    obtain ⟨p, tr⟩ := x
    obtain ⟨ok1, e1, lt1, n1, _⟩ := hok
    obtain ⟨_, _, _, g⟩ := edge_spec lt1 n1 e1
    rw [stkYield_cons]
    rcases h1 with h | h | h
    · obtain ⟨_, g2, g3⟩ := g 35 2 (by show _ ≠ 0; exact Nat.pos_iff_ne_zero.1 h)
      have g2 : some T.FROM = some tr.sym := g2
      have hs : tr.sym = T.FROM := by simpa using g2.symm
      obtain ⟨w, hw⟩ := hlf (p, tr) (by simp) (by rw [hs]; decide)
      have g3 : KM (topState rest) 35 1 := by
        rcases g3 with h | h
        · exact h
        · exact absurd h.1 (by decide)
      cases rest with
      | nil => exact absurd (Nat.pos_iff_ne_zero.2 g3) hz1
      | cons y rest =>
        obtain ⟨p2, tr2⟩ := y
        obtain ⟨ok2, e2, lt2, n2, _⟩ := ok1
        obtain ⟨_, _, _, g'⟩ := edge_spec lt2 n2 e2
        obtain ⟨_, k2, _⟩ := g' 35 1 g3
        have k2 : some T.IMPORT = some tr2.sym := k2
        have hs2 : tr2.sym = T.IMPORT := by simpa using k2.symm
        obtain ⟨u, hu⟩ := hlf (p2, tr2) (by simp) (by rw [hs2]; decide)
        simp only [] at hu hw
        subst hu; subst hw
        exact .inr ⟨stkYield rest, u, w, by rw [stkYield_cons]; simp [Tree.yield], hs2, hs⟩
    · obtain ⟨_, g2, _⟩ := g 42 3 (by show _ ≠ 0; exact Nat.pos_iff_ne_zero.1 h)
      have g2 : some T.FORMAT = some tr.sym := g2
      have hs : tr.sym = T.FORMAT := by simpa using g2.symm
      obtain ⟨w, hw⟩ := hlf (p, tr) (by simp) (by rw [hs]; decide)
      simp only [] at hw
      subst hw
      exact .inl ⟨w, by simp [Tree.yield], hs⟩
    · obtain ⟨_, g2, _⟩ := g 43 1 (by show _ ≠ 0; exact Nat.pos_iff_ne_zero.1 h)
      have g2 : some T.FORMAT = some tr.sym := g2
      have hs : tr.sym = T.FORMAT := by simpa using g2.symm
      obtain ⟨w, hw⟩ := hlf (p, tr) (by simp) (by rw [hs]; decide)
      simp only [] at hw
      subst hw
      exact .inl ⟨w, by simp [Tree.yield], hs⟩

theorem StkOK.drop {lim : Nat} : ∀ (n : Nat) {stk : TStk} {f : List Tok}, StkOK lim stk f → ∃ f', StkOK lim (stk.drop n) f'
  | 0, _, f, h => ⟨f, h⟩
  | n + 1, [], f, _ => ⟨f, trivial⟩
  | n + 1, (_, _) :: stk, _, h => StkOK.drop n h.1

theorem popTrees_succ {stk : TStk} {j s : Nat} {t : Tree} (h : stk[j]? = some (s, t)) : popTrees (j + 1) stk = t :: popTrees j stk := by
  unfold popTrees
  rw [List.take_add_one, h]
  simp

theorem lookedRules : (rhs 37 = [T.IDENTIFIER] ∧ lhs 37 = N.file_type) ∧ rhs 48 = [T.IDENTIFIER, T.STRING] ∧
    rhs 55 = [T.CREATE, T.TABLE, N.opt_not_exists, N.table_name, T.FROM, T.IDENTIFIER, T.FILE, N.file_path] ∧
    rhs 66 = [T.IDENTIFIER, N.column_type, N.opt_column_constraints] ∧ rhs 162 = [T.IDENTIFIER, T.IDENTIFIER] := by decide +kernel

/-- The values a reduction may look at are fixed. -/
theorem red_fixed (hf : TokFix A g toks) {lim : Nat} {f : List Tok} (hok : StkOK lim stk f) (hi : OInv A toks c stk) {r : Nat} (hat : RedAt c stk r) :
    Fixed g (mkEnv (rhsVals c.stk (rhs r).length)) (looked r) := by
  intro p hp v hv
  obtain ⟨i, hi1, hi2⟩ := List.mem_filterMap.1 hp
  have hlen := hat.len
  have hl2 := hi.len
  have hi1 : i < (rhs r).length := by simpa using hi1
  split at hi2
  case isFalse => cases hi2
  rename_i hc
  cases hi2
  have hsy : ∀ k, k < (rhs r).length → ∃ t, stk[(rhs r).length - 1 - k]? = some t ∧ (rhs r)[k]? = some t.2.sym := by
    intro k hk
    have hb : (rhs r).length - 1 - k < stk.length := by omega
    refine ⟨stk[(rhs r).length - 1 - k], List.getElem?_eq_getElem hb, ?_⟩
    have e : ((popTrees (rhs r).length stk).map Tree.sym)[k]? = (rhs r)[k]? := by rw [hat.syms]
    rw [← e]
    unfold popTrees
    rw [List.getElem?_map, List.getElem?_reverse (by simp; omega)]
    simp only [List.length_map, List.length_take, List.getElem?_map, List.getElem?_take]
    rw [show min (rhs r).length stk.length = (rhs r).length by omega, if_pos (by omega), List.getElem?_eq_getElem hb]
    rfl
  have hvv : ∃ w, c.stk[(rhs r).length - 1 - i]? = some w ∧ w.2.1 = v := by
    have hb : (rhs r).length - 1 - i < c.stk.length := by omega
    refine ⟨c.stk[(rhs r).length - 1 - i], List.getElem?_eq_getElem hb, ?_⟩
    have hvl := rhsVals_len hat
    unfold getP mkEnv at hv
    simp only [List.cons_append, List.getElem?_cons_succ] at hv
    rw [List.getElem?_append_left (by omega)] at hv
    have e : (rhsVals c.stk (rhs r).length)[i]? = some (c.stk[(rhs r).length - 1 - i].2.1) := by
      unfold rhsVals vals
      rw [List.getElem?_reverse (by simp; omega)]
      simp only [List.length_map, List.length_take, List.getElem?_map, List.getElem?_take]
      rw [show min (rhs r).length c.stk.length = (rhs r).length by omega, if_pos (by omega), List.getElem?_eq_getElem hb]
      rfl
    rw [e] at hv
    simpa [V.get] using hv
  obtain ⟨w, hw, rfl⟩ := hvv
  obtain ⟨t, ht, hts⟩ := hsy i hi1
  have hrules := lookedRules
  -- the token
  have hterm : (rhs r)[i]? = some T.STRING ∨ (rhs r)[i]? = some T.IDENTIFIER := by
    rcases hc with hc | hc
    · right
      unfold lookedId at hc
      split at hc
      · rename_i h; subst h; simp only [List.mem_singleton] at hc; subst hc; rw [hrules.1.1]; rfl
      · split at hc
        · rename_i h; subst h; simp only [List.mem_singleton] at hc; subst hc; rw [hrules.2.1]; rfl
        · split at hc
          · rename_i h; subst h; simp only [List.mem_singleton] at hc; subst hc; rw [hrules.2.2.1]; rfl
          · split at hc
            · rename_i h; subst h; simp only [List.mem_singleton] at hc; subst hc; rw [hrules.2.2.2.1]; rfl
            · split at hc
              · rename_i h; subst h; simp only [List.mem_cons, List.not_mem_nil, or_false] at hc
                rw [hrules.2.2.2.2]
                rcases hc with rfl | rfl <;> rfl
              · cases hc
    · exact .inl hc.1
  obtain ⟨st, tt⟩ := t
  simp only [] at hts
  have hlt : tt.sym < 199 := by
    rw [hts] at hterm
    simp only [Option.some.injEq] at hterm
    rcases hterm with h | h <;> rw [h] <;> decide
  obtain ⟨m, hm⟩ := hi.lf (st, tt) (List.mem_of_getElem? ht) hlt
  simp only [] at hm
  subst hm
  have hval := hi.leafv _ w st m hw ht
  have hj : (rhs r).length - 1 - i + 1 ≤ stk.length := by omega
  have hy := stkYield_pop _ stk hj
  rw [popTrees_succ ht] at hy
  simp only [yieldL, Tree.yield, List.singleton_append] at hy
  have htoks := hi.all
  rw [← hy, List.append_assoc, List.append_assoc, List.cons_append] at htoks
  have hft := hf _ m _ htoks.symm
  rw [← hval] at hft
  rcases hft with hft | hop
  · exact hft
  exfalso
  -- the trees of the rule
  have hms : Tree.sym (.leaf m) = tsym m := rfl
  rw [hms] at hts
  -- what comes next
  have hnext : ∀ X, (rhs r)[i + 1]? = some X → X < 199 → ∀ l, ∃ u, (yieldL (popTrees ((rhs r).length - 1 - i) stk) ++ l).head? = some u ∧ tsym u = X := by
    intro X hX hX1 l
    have hi2 : i + 1 < (rhs r).length := (List.getElem?_eq_some_iff.1 hX).1
    obtain ⟨t, ht, hs⟩ := hsy (i + 1) hi2
    rw [hX] at hs
    obtain ⟨s2, t2⟩ := t
    simp only [Option.some.injEq] at hs
    obtain ⟨u, hu⟩ := hi.lf (s2, t2) (List.mem_of_getElem? ht) (by rw [← hs]; exact hX1)
    simp only [] at hu
    subst hu
    rw [show (rhs r).length - 1 - i = (rhs r).length - 1 - (i + 1) + 1 by omega, popTrees_succ ht]
    exact ⟨u, by simp [yieldL, Tree.yield], hs.symm⟩
  have hprev : ∀ X, 0 < i → (rhs r)[i - 1]? = some X → X < 199 → ∃ u, (stkYield (stk.drop ((rhs r).length - 1 - i + 1))).getLast? = some u ∧ tsym u = X := by
    intro X h0 hX hX1
    obtain ⟨t, ht, hs⟩ := hsy (i - 1) (by omega)
    rw [hX] at hs
    obtain ⟨s2, t2⟩ := t
    simp only [Option.some.injEq] at hs
    obtain ⟨u, hu⟩ := hi.lf (s2, t2) (List.mem_of_getElem? ht) (by rw [← hs]; exact hX1)
    simp only [] at hu
    subst hu
    rw [show (rhs r).length - 1 - (i - 1) = (rhs r).length - 1 - i + 1 by omega] at ht
    have hd : stk.drop ((rhs r).length - 1 - i + 1) = (s2, .leaf u) :: stk.drop ((rhs r).length - 1 - i + 1 + 1) := by
      obtain ⟨hb, he⟩ := List.getElem?_eq_some_iff.1 ht
      rw [List.drop_eq_getElem_cons hb, he]
    rw [hd, stkYield_cons]
    exact ⟨u, by simp [Tree.yield], hs.symm⟩
  rcases hc with hc | ⟨hc, h0, hd⟩
  · -- an identifier
    have hid : tsym m = T.IDENTIFIER := by
      rcases hterm with h | h
      · exfalso
        unfold lookedId at hc
        split at hc
        · rename_i e; subst e; simp only [List.mem_singleton] at hc; subst hc; rw [hrules.1.1] at h; exact absurd h (by decide)
        · split at hc
          · rename_i e; subst e; simp only [List.mem_singleton] at hc; subst hc; rw [hrules.2.1] at h; exact absurd h (by decide)
          · split at hc
            · rename_i e; subst e; simp only [List.mem_singleton] at hc; subst hc; rw [hrules.2.2.1] at h; exact absurd h (by decide)
            · split at hc
              · rename_i e; subst e; simp only [List.mem_singleton] at hc; subst hc; rw [hrules.2.2.2.1] at h; exact absurd h (by decide)
              · split at hc
                · rename_i e; subst e; simp only [List.mem_cons, List.not_mem_nil, or_false] at hc
                  rw [hrules.2.2.2.2] at h
                  rcases hc with rfl | rfl <;> exact absurd h (by decide)
                · cases hc
      · rw [h] at hts; simpa using hts.symm
    rcases hop with ⟨h, _⟩ | ⟨_, o1, o2, o3⟩
    · rw [hid] at h; exact absurd h (by decide)
    unfold lookedId at hc
    split at hc
    · rename_i e; subst e
      simp only [List.mem_singleton] at hc; subst hc
      have hpm := hat.pm
      rw [hrules.1.2] at hpm
      rw [hrules.1.1] at hpm o1 o2
      obtain ⟨f', hok'⟩ := StkOK.drop 1 hok
      rcases fileType_before hok' (fun p hp => hi.lf p (List.mem_of_mem_drop hp)) hpm with ⟨u, h1, h2⟩ | ⟨q, u, x, h1, h2, h3⟩
      · exact (o1 u h1).2 h2
      · exact o2 q u x h1 ⟨h2, h3⟩
    · split at hc
      · rename_i e; subst e
        simp only [List.mem_singleton] at hc; subst hc
        obtain ⟨u, h1, h2⟩ := hnext T.STRING (by rw [hrules.2.1]; rfl) (by decide) _
        exact (o3 u h1).2.1 h2
      · split at hc
        · rename_i e; subst e
          simp only [List.mem_singleton] at hc; subst hc
          obtain ⟨u, h1, h2⟩ := hnext T.FILE (by rw [hrules.2.2.1]; rfl) (by decide) _
          exact (o3 u h1).2.2.1 h2
        · split at hc
          · rename_i e; subst e
            simp only [List.mem_singleton] at hc; subst hc
            have hr := hrules.2.2.2.1
            obtain ⟨t, ht', hs⟩ := hsy 1 (by rw [hr]; decide)
            obtain ⟨s2, t2⟩ := t
            rw [hr] at hs ht'
            have ht' : stk[1]? = some (s2, t2) := ht'
            have hs : some N.column_type = some t2.sym := hs
            simp only [Option.some.injEq] at hs
            have hwf : t2.WF := by
              have hall := hat.wf.2.2.2
              have e : popTrees 3 stk = Tree.leaf m :: popTrees 2 stk := popTrees_succ (by rw [hr] at ht; exact ht)
              rw [hr] at hall
              have hall : WFL (popTrees 3 stk) := hall
              rw [e, popTrees_succ ht'] at hall
              exact hall.2.1
            obtain ⟨u, l, hu, hu2⟩ := colType_first hwf hs.symm
            refine (o3 u ?_).2.2.2 hu2
            rw [hr]
            show (yieldL (popTrees 2 stk) ++ _).head? = _
            rw [popTrees_succ ht']
            simp [yieldL, hu]
          · split at hc
            · rename_i e; subst e
              simp only [List.mem_cons, List.not_mem_nil, or_false] at hc
              rcases hc with rfl | rfl
              · obtain ⟨u, h1, h2⟩ := hnext T.IDENTIFIER (by rw [hrules.2.2.2.2]; rfl) (by decide) _
                exact (o3 u h1).1 h2
              · obtain ⟨u, h1, h2⟩ := hprev T.IDENTIFIER (by decide) (by rw [hrules.2.2.2.2]; rfl) (by decide)
                exact (o1 u h1).1 h2
            · cases hc
  · have hst : tsym m = T.STRING := by rw [hc] at hts; simpa using hts.symm
    rcases hop with ⟨_, ho⟩ | ⟨h, _⟩
    · rcases hd with hd | hd
      · obtain ⟨u, h1, h2⟩ := hprev T.DATE h0 hd (by decide)
        exact (ho u h1).1 h2
      · obtain ⟨u, h1, h2⟩ := hprev T.INTERVAL h0 hd (by decide)
        exact (ho u h1).2 h2
    · rw [hst] at h; exact absurd h (by decide)

theorem oinv_rc (h : RC (sem A) toks (startSt r0) c stk) : OInv A toks c stk := by
  refine RC.ind (I := fun c stk => OInv A toks c stk) ?_ ?_ ?_ ?_ h
  · exact ⟨rfl, by simp, rfl, rfl, (by intro t v h; cases h), (by intro j v s m h; simp [initCfg] at h)⟩
  · intro c stk t ts ih hla htk
    have hn := ih.ntok
    have ha := ih.all
    rw [hla] at hn ha
    refine ⟨ih.len, ih.lf, ?_, ?_, ?_, ih.leafv⟩
    · rw [← ha, htk]; simp
    · show c.st.ntok + 1 = _
      rw [hn]; simp
    · intro t' v hv
      cases hv
      show tokValue A c.st.ntok t.val = _
      rw [hn]; simp
  · intro c stk t v s ih hla h69 ha
    have hn := ih.ntok
    have hal := ih.all
    rw [hla] at hn hal
    have e0 : stkYield ((s, Tree.leaf t) :: stk) = stkYield stk ++ [t] := by rw [stkYield_cons]; rfl
    have hv := ih.la t v hla
    refine ⟨by simp [ih.len], ?_, ?_, ?_, ?_, ?_⟩
    · intro p hp hs
      rcases List.mem_cons.1 hp with rfl | hp
      · exact ⟨t, rfl⟩
      · exact ih.lf p hp hs
    · rw [e0, ← hal]; simp
    · show c.st.ntok = _
      rw [e0, hn]; simp
    · intro t' v' h; cases h
    · intro j w s' m h1 h2
      cases j with
      | zero =>
        simp only [List.getElem?_cons_zero, Option.some.injEq, Prod.mk.injEq, Tree.leaf.injEq] at h1 h2
        rw [← h1, ← h2.2]
        exact hv
      | succ j =>
        simp only [List.getElem?_cons_succ] at h1 h2
        exact ih.leafv j w s' m h1 h2
  · intro c stk r s v st ih hat hred
    obtain ⟨e1, e2⟩ := reduce_ok hat.r1 hat.r2 hred
    have hy : stkYield ((s, Tree.node r (popTrees (rhs r).length stk)) :: stk.drop (rhs r).length) = stkYield stk := by
      rw [stkYield_cons]
      exact stkYield_pop _ stk (by rw [← ih.len]; exact hat.len)
    have hs := sym_node hat.wf
    refine ⟨by simp [ih.len], ?_, by rw [hy]; exact ih.all, ?_, ?_, ?_⟩
    · intro p hp hs'
      rcases List.mem_cons.1 hp with rfl | hp
      · exact absurd hs' (by simp only []; omega)
      · exact ih.lf p (List.mem_of_mem_drop hp) hs'
    · rw [hy]
      show st.ntok = _
      rw [← ih.ntok]; exact run_ntok hat.r1 hat.r2 (rhsVals_len hat) e2
    · intro t' v' hl
      rw [hy]; exact ih.la t' v' hl
    · intro j w s' m h1 h2
      cases j with
      | zero => simp at h2
      | succ j =>
        simp only [List.getElem?_cons_succ, List.getElem?_drop] at h1 h2
        have := ih.leafv _ w s' m h1 h2
        rw [this, List.drop_succ_cons, List.drop_drop, show (rhs r).length + (j + 1) = (rhs r).length + j + 1 by omega]

end
end Verif.Sem
