import Verif.Props.Result
import Verif.Props.ResultEx
/-!
# Client programs over `SQLParserResult` (C31)

A client program is a list of operations `Op`; `World.execs` runs it on a set of result objects, with `none` for undefined
behaviour. The world records which heap blocks are owned by results, owned by the client (statements taken out by
`releaseStatements`), freed, or lost.
-/
namespace Verif.Props
open Verif.Lex Verif.LR Verif.Sem Verif.Api

/-- The parameters of the result point to parameter expressions in its statements. Only `parse` looks at this, and it holds in a
new result and is kept by `parse`; see `C31_stale_parameters_violation` for what happens otherwise. -/
def ParamsLive (r : Res) : Prop := ∀ a ∈ r.params, ∃ n : Int, ivalAtL a r.stmts = some (.int n)

/-- The operation is a legal one for the client, as far as `SQLParserResult` documents it: the objects exist, a result is not moved to itself, the allocator
used by `parse` returns each address once and none that was handed out before, `parse` gets a result whose parameters are not stale,
and no string literal of the text begins with a number that does not fit an `int` (see C33). -/
def Legal (w : World) : Op → Prop
  | .new _ _ => True
  | .parse i A fpr _ sql => ∃ r, w.results[i]? = some r ∧ ParamsLive r ∧ Distinct A ∧ (∀ n, A.tok n ∉ w.known) ∧ (∀ n, A.new n ∉ w.known) ∧ FprOK fpr ∧
      ∀ t ∈ tokensOf fpr sql, ∀ b, t.val = .sval b → ¬ Overflow b
  | .reset i => i < w.results.length
  | .release i => i < w.results.length
  | .move i j => i ≠ j ∧ i < w.results.length ∧ j < w.results.length
  | .moveNew _ _ j => j < w.results.length
  | .newWith _ _ k => k < w.released.length
  | .add i k => i < w.results.length ∧ k < w.released.length
  | .destroy i => i < w.results.length
  | .delete k => k < w.released.length

/-- All operations of the program are legal. -/
def LegalAll : World → List Op → Prop
  | _, [] => True
  | w, o :: os => Legal w o ∧ ∀ w', w.exec o = some w' → LegalAll w' os

/-- What holds of the heap at all times: no block is in two places: freed twice, freed and still owned, owned twice, lost and
still owned, ...; and all statements are well-formed. -/
structure Sane (w : World) : Prop where
  nodup : w.known.Nodup
  results : ∀ r ∈ w.results, ∀ v ∈ r.stmts, Sat (fun _ => True) (fun _ => True) (.ref .stmt) v
  released : ∀ v ∈ w.released, Sat (fun _ => True) (fun _ => True) (.ref .stmt) v

theorem World.known_count (w : World) (a : Nat) :
    w.known.count a = w.freed.count a + w.leaked.count a + acL a w.released + (w.results.flatMap owned).count a := by
  unfold World.known World.live acL
  simp only [List.count_append]; omega

theorem owned_count (r : Res) (a : Nat) : (owned r).count a = r.errAddr.count a + acL a r.stmts := by
  unfold owned acL; rw [List.count_append]

theorem count_set {rs : List Res} : ∀ {i : Nat} {r r' : Res} (a : Nat), rs[i]? = some r →
    ((rs.set i r').flatMap owned).count a + (owned r).count a = (rs.flatMap owned).count a + (owned r').count a := by
  induction rs with
  | nil => intro i r r' a h; simp at h
  | cons x rs ih =>
    intro i r r' a h
    cases i with
    | zero =>
      simp only [List.getElem?_cons_zero, Option.some.injEq] at h
      subst h
      simp only [List.set_cons_zero, List.flatMap_cons, List.count_append]; omega
    | succ i =>
      simp only [List.getElem?_cons_succ] at h
      have := ih (r' := r') a h
      simp only [List.set_cons_succ, List.flatMap_cons, List.count_append]; omega

theorem count_erase {rs : List Res} : ∀ {i : Nat} {r : Res} (a : Nat), rs[i]? = some r →
    ((rs.eraseIdx i).flatMap owned).count a + (owned r).count a = (rs.flatMap owned).count a := by
  induction rs with
  | nil => intro i r a h; simp at h
  | cons x rs ih =>
    intro i r a h
    cases i with
    | zero =>
      simp only [List.getElem?_cons_zero, Option.some.injEq] at h
      subst h
      simp only [List.eraseIdx_cons_zero, List.flatMap_cons, List.count_append]; omega
    | succ i =>
      simp only [List.getElem?_cons_succ] at h
      have := ih a h
      simp only [List.eraseIdx_cons_succ, List.flatMap_cons, List.count_append]; omega

theorem acL_erase {vs : List V} : ∀ {i : Nat} {v : V} (a : Nat), vs[i]? = some v → acL a (vs.eraseIdx i) + ac a v = acL a vs := by
  induction vs with
  | nil => intro i r a h; simp at h
  | cons x rs ih =>
    intro i r a h
    cases i with
    | zero =>
      simp only [List.getElem?_cons_zero, Option.some.injEq] at h
      subst h
      simp only [List.eraseIdx_cons_zero, acL_cons]; omega
    | succ i =>
      simp only [List.getElem?_cons_succ] at h
      have := ih a h
      simp only [List.eraseIdx_cons_succ, acL_cons]; omega

theorem mem_of_mem_erase {α} {l : List α} {i : Nat} {x : α} (h : x ∈ l.eraseIdx i) : x ∈ l := (List.eraseIdx_sublist l i).mem h

theorem reset_ok {ok : Bytes → Prop} {r : Res} (h : ∀ v ∈ r.stmts, Sat ok (fun _ => True) (.ref .stmt) v) :
    ∃ f, Api.reset r = some (⟨[], false, none, -1, -1, r.params⟩, ⟨f, []⟩) ∧ f.Perm (owned r) := by
  obtain ⟨f, e, p⟩ := treatEl_del h
  refine ⟨f ++ r.errAddr, by unfold Api.reset; rw [e], ?_⟩
  exact (List.Perm.append p (.refl _)).trans List.perm_append_comm

theorem move_ok (d s : Res) : moveAssign d s = some ({ d with isValid := s.isValid, errMsg := s.errMsg, stmts := s.stmts },
    ⟨[], false, none, -1, -1, s.params⟩, ⟨[], owned d⟩) := rfl

theorem owned_empty {b : Bool} {l c : Int} {p : List Nat} : owned ⟨[], b, none, l, c, p⟩ = [] := rfl

/-- What an operation does to the heap, if legal: it is defined, and afterwards all is sane; if it is not a `parse`, no block appears or disappears, and
none is lost unless it belongs to the target of a move. -/
theorem exec_ok {w : World} {o : Op} (hs : Sane w) (hl : Legal w o) : ∃ w', w.exec o = some w' ∧ Sane w' ∧
    (∀ a ∈ w.known, a ∈ w'.known) ∧ (∀ a ∈ w.freed, a ∈ w'.freed) ∧
    ((∀ i A fpr buf sql, o ≠ .parse i A fpr buf sql) → w'.known.Perm w.known ∧ ((∀ i j, o ≠ .move i j) → w'.leaked = w.leaked)) := by
  have fin : ∀ (w' : World), w.exec o = some w' → (∀ a, w'.known.count a = w.known.count a) →
      (∀ r ∈ w'.results, ∀ v ∈ r.stmts, Sat (fun _ => True) (fun _ => True) (.ref .stmt) v) → (∀ v ∈ w'.released, Sat (fun _ => True) (fun _ => True) (.ref .stmt) v) →
      (∀ a ∈ w.freed, a ∈ w'.freed) → ((∀ i j, o ≠ .move i j) → w'.leaked = w.leaked) →
      ∃ w', w.exec o = some w' ∧ Sane w' ∧ (∀ a ∈ w.known, a ∈ w'.known) ∧ (∀ a ∈ w.freed, a ∈ w'.freed) ∧
        ((∀ i A fpr buf sql, o ≠ .parse i A fpr buf sql) → w'.known.Perm w.known ∧ ((∀ i j, o ≠ .move i j) → w'.leaked = w.leaked)) := by
    intro w' h1 h2 h3 h4 h5 h6
    have hp : w'.known.Perm w.known := List.perm_iff_count.2 h2
    exact ⟨w', h1, ⟨hp.nodup_iff.2 hs.nodup, h3, h4⟩, fun a ha => hp.mem_iff.2 ha, h5, fun _ => ⟨hp, h6⟩⟩
  have emptySat : ∀ {b l c p} {v : V}, v ∈ (⟨[], b, none, l, c, p⟩ : Res).stmts → Sat (fun _ => True) (fun _ => True) (.ref .stmt) v := by
    intro b l c p v hv; cases hv
  cases o with
  | new l c =>
    refine fin _ rfl (fun a => ?_) ?_ hs.released (fun _ h => h) (fun _ => rfl)
    · simp [World.known_count, newResult, owned, Res.errAddr, addrsL]
    · intro r hr v hv
      rcases List.mem_append.1 hr with h | h
      · exact hs.results r h v hv
      · simp only [List.mem_singleton] at h; subst h; exact emptySat hv
  | reset i =>
    obtain ⟨r, hr⟩ : ∃ r, w.results[i]? = some r := ⟨_, List.getElem?_eq_getElem hl⟩
    obtain ⟨f, e, p⟩ := reset_ok (hs.results r (List.mem_of_getElem? hr))
    refine fin (({ w with results := w.results.set i ⟨[], false, none, -1, -1, r.params⟩ } : World).log ⟨f, []⟩) (by simp only [World.exec, hr, e]) (fun a => ?_) ?_ hs.released (fun _ h => List.mem_append_left _ h) (fun _ => by simp [World.log])
    · have h1 := count_set (r' := ⟨[], false, none, -1, -1, r.params⟩) a hr
      have h2 := List.perm_iff_count.1 p a
      rw [owned_empty] at h1
      simp only [World.known_count, World.log, List.count_append, List.count_nil] at h1 ⊢
      omega
    · intro x hx v hv
      rcases List.mem_or_eq_of_mem_set hx with h | h
      · exact hs.results x h v hv
      · subst h; exact emptySat hv
  | release i =>
    obtain ⟨r, hr⟩ : ∃ r, w.results[i]? = some r := ⟨_, List.getElem?_eq_getElem hl⟩
    have hm := List.mem_of_getElem? hr
    refine fin { w with results := w.results.set i (Api.release r).2, released := w.released ++ (Api.release r).1 } (by simp only [World.exec, hr]) (fun a => ?_) ?_ ?_ (fun _ h => h) (fun _ => rfl)
    · have h1 := count_set (r' := (Api.release r).2) a hr
      simp only [owned_count, Api.release] at h1
      simp only [World.known_count, Api.release, acL_append] at h1 ⊢
      simp only [Res.errAddr, acL, addrsL, List.count_nil] at h1 ⊢
      omega
    · intro x hx v hv
      rcases List.mem_or_eq_of_mem_set hx with h | h
      · exact hs.results x h v hv
      · subst h; cases hv
    · intro v hv
      rcases List.mem_append.1 hv with h | h
      · exact hs.released v h
      · exact hs.results r hm v h
  | move i j =>
    obtain ⟨hij, hi, hj⟩ := hl
    obtain ⟨d, hd⟩ : ∃ r, w.results[i]? = some r := ⟨_, List.getElem?_eq_getElem hi⟩
    obtain ⟨s, hsr⟩ : ∃ r, w.results[j]? = some r := ⟨_, List.getElem?_eq_getElem hj⟩
    refine fin (({ w with results := (w.results.set i { d with isValid := s.isValid, errMsg := s.errMsg, stmts := s.stmts }).set j ⟨[], false, none, -1, -1, s.params⟩ } : World).log ⟨[], owned d⟩) (by simp only [World.exec, if_neg hij, hd, hsr, move_ok]) (fun a => ?_) ?_ hs.released (fun _ h => List.mem_append_left _ h) (fun h => absurd rfl (h i j))
    · have h1 := count_set (r' := { d with isValid := s.isValid, errMsg := s.errMsg, stmts := s.stmts }) a hd
      have h2 := count_set (rs := w.results.set i { d with isValid := s.isValid, errMsg := s.errMsg, stmts := s.stmts }) (r := s)
        (r' := ⟨[], false, none, -1, -1, s.params⟩) a (i := j) (by rw [List.getElem?_set_ne hij]; exact hsr)
      rw [owned_empty] at h2
      have h3 : (owned { d with isValid := s.isValid, errMsg := s.errMsg, stmts := s.stmts }).count a = (owned s).count a := rfl
      simp only [World.known_count, World.log, List.count_append, List.count_nil] at h1 h2 ⊢
      omega
    · intro x hx v hv
      rcases List.mem_or_eq_of_mem_set hx with h | h
      · rcases List.mem_or_eq_of_mem_set h with h | h
        · exact hs.results x h v hv
        · subst h; exact hs.results s (List.mem_of_getElem? hsr) v hv
      · subst h; cases hv
  | moveNew l c j =>
    obtain ⟨s, hsr⟩ : ∃ r, w.results[j]? = some r := ⟨_, List.getElem?_eq_getElem hl⟩
    refine fin (({ w with results := w.results.set j ⟨[], false, none, -1, -1, s.params⟩ ++ [{ newResult l c with isValid := s.isValid, errMsg := s.errMsg, stmts := s.stmts }] } : World).log ⟨[], owned (newResult l c)⟩) (by simp only [World.exec, hsr, Api.moveNew, move_ok]) (fun a => ?_) ?_ hs.released (fun _ h => List.mem_append_left _ h)
      (fun _ => by simp [World.log, owned, newResult, Res.errAddr, addrsL])
    · have h2 := count_set (r' := ⟨[], false, none, -1, -1, s.params⟩) a hsr
      rw [owned_empty] at h2
      have h3 : (owned { newResult l c with isValid := s.isValid, errMsg := s.errMsg, stmts := s.stmts }).count a = (owned s).count a := rfl
      have h4 : owned (newResult l c) = [] := rfl
      simp only [World.known_count, World.log, List.flatMap_append, List.flatMap_cons, List.flatMap_nil, List.append_nil, List.count_append, List.count_nil, h3, h4] at h2 ⊢
      omega
    · intro x hx v hv
      rcases List.mem_append.1 hx with hx | hx
      · rcases List.mem_or_eq_of_mem_set hx with h | h
        · exact hs.results x h v hv
        · subst h; cases hv
      · simp only [List.mem_singleton] at hx
        subst hx
        exact hs.results s (List.mem_of_getElem? hsr) v hv
  | newWith l c k =>
    obtain ⟨u, hu⟩ : ∃ r, w.released[k]? = some r := ⟨_, List.getElem?_eq_getElem hl⟩
    refine fin { w with results := w.results ++ [Api.newWith l c u], released := w.released.eraseIdx k } (by simp only [World.exec, hu]) (fun a => ?_) ?_ ?_ (fun _ h => h) (fun _ => rfl)
    · have h1 := acL_erase a hu
      have h2 : (owned (Api.newWith l c u)).count a = ac a u := by
        rw [owned_count]; simp [Api.newWith, Res.errAddr, acL_cons]; rfl
      simp only [World.known_count, List.flatMap_append, List.flatMap_cons, List.flatMap_nil, List.append_nil, List.count_append, h2]
      omega
    · intro x hx v hv
      rcases List.mem_append.1 hx with hx | hx
      · exact hs.results x hx v hv
      · simp only [List.mem_singleton] at hx
        subst hx
        simp only [Api.newWith, List.mem_singleton] at hv
        subst hv
        exact hs.released v (List.mem_of_getElem? hu)
    · exact fun v hv => hs.released v (mem_of_mem_erase hv)
  | add i k =>
    obtain ⟨hi, hk⟩ := hl
    obtain ⟨r, hr⟩ : ∃ r, w.results[i]? = some r := ⟨_, List.getElem?_eq_getElem hi⟩
    obtain ⟨u, hu⟩ : ∃ r, w.released[k]? = some r := ⟨_, List.getElem?_eq_getElem hk⟩
    refine fin { w with results := w.results.set i (addStatement r u), released := w.released.eraseIdx k } (by simp only [World.exec, hr, hu]) (fun a => ?_) ?_ ?_ (fun _ h => h) (fun _ => rfl)
    · have h1 := acL_erase a hu
      have h2 := count_set (r' := addStatement r u) a hr
      have h3 : (owned (addStatement r u)).count a = (owned r).count a + ac a u := by
        simp only [owned_count, addStatement, acL_append, acL_cons, Res.errAddr]
        have : acL a [] = 0 := rfl
        omega
      simp only [World.known_count]
      omega
    · intro x hx v hv
      rcases List.mem_or_eq_of_mem_set hx with h | h
      · exact hs.results x h v hv
      · subst h
        rcases List.mem_append.1 hv with hv | hv
        · exact hs.results r (List.mem_of_getElem? hr) v hv
        · simp only [List.mem_singleton] at hv
          subst hv
          exact hs.released v (List.mem_of_getElem? hu)
    · exact fun v hv => hs.released v (mem_of_mem_erase hv)
  | destroy i =>
    obtain ⟨r, hr⟩ : ∃ r, w.results[i]? = some r := ⟨_, List.getElem?_eq_getElem hl⟩
    obtain ⟨f, e, p⟩ := destroy_ok (hs.results r (List.mem_of_getElem? hr))
    refine fin (({ w with results := w.results.eraseIdx i } : World).log ⟨f, []⟩) (by simp only [World.exec, hr, e]) (fun a => ?_) ?_ hs.released (fun _ h => List.mem_append_left _ h) (fun _ => by simp [World.log])
    · have h1 := count_erase a hr
      have h2 := List.perm_iff_count.1 p a
      simp only [World.known_count, World.log, List.count_append, List.count_nil] at h1 ⊢
      omega
    · exact fun x hx v hv => hs.results x (mem_of_mem_erase hx) v hv
  | delete k =>
    obtain ⟨u, hu⟩ : ∃ r, w.released[k]? = some r := ⟨_, List.getElem?_eq_getElem hl⟩
    obtain ⟨f, e, p⟩ := del_stmt (hs.released u (List.mem_of_getElem? hu))
    refine fin (({ w with released := w.released.eraseIdx k } : World).log ⟨f, []⟩) (by simp only [World.exec, hu, e]) (fun a => ?_) hs.results ?_ (fun _ h => List.mem_append_left _ h) (fun _ => by simp [World.log])
    · have h1 := acL_erase a hu
      have h2 := p a
      simp only [World.known_count, World.log, List.count_append, List.count_nil] at h1 ⊢
      omega
    · exact fun v hv => hs.released v (mem_of_mem_erase hv)
  | parse i A fpr buf sql =>
    obtain ⟨r, hr, hpl, hA, h1, h2, hf, hov⟩ := hl
    have hm := List.mem_of_getElem? hr
    have hsub : ∀ a ∈ owned r, a ∈ w.known := by
      intro a ha
      refine List.mem_append_right _ (List.mem_append_right _ ?_)
      exact List.mem_flatMap.2 ⟨r, hm, ha⟩
    have hcr : ∀ a, (owned r).count a ≤ (w.results.flatMap owned).count a := by
      intro a
      have := count_set (r' := (⟨[], false, none, -1, -1, []⟩ : Res)) a hr
      rw [owned_empty] at this
      simp only [List.count_nil] at this
      omega
    have hle : ∀ a, w.known.count a ≤ 1 := List.nodup_iff_count.1 hs.nodup
    have hAO : AllocOK A r := ⟨hA.tok, hA.new, hA.ne,
      List.nodup_iff_count.2 fun a => by
        have := hle a
        rw [World.known_count] at this
        have := hcr a
        change (owned r).count a ≤ 1
        omega,
      fun n hn => h1 n (hsub _ hn), fun n hn => h2 n (hsub _ hn)⟩
    have hRO : ResOK (fun _ => True) (fun _ => True) r := ⟨hs.results r hm, hpl⟩
    cases hp : Sem.parse A fpr buf sql r with
    | none =>
      exfalso
      obtain ⟨e, junk, hin, hE⟩ := parse_ends (sql := sql) (ok := fun _ => True) hf hAO hRO
      rw [parse_none hp] at hE
      generalize hx : none = x at hE
      cases hE with
      | ub b u g1 g2 g3 => exact hov u g1 b g2 g3
      | _ => cases hx
    | some o =>
      obtain ⟨g1, g2, g3, g4⟩ := parse_heap hf hAO hRO hp
      have hcnt : ∀ a, (({ w with results := w.results.set i o.res } : World).log ⟨o.freed, o.leaked⟩).known.count a + (owned r).count a =
          w.known.count a + (o.freed ++ o.leaked ++ owned o.res).count a := by
        intro a
        have := count_set (r' := o.res) a hr
        simp only [World.known_count, World.log, List.count_append]
        omega
      refine ⟨({ w with results := w.results.set i o.res } : World).log ⟨o.freed, o.leaked⟩, by simp only [World.exec, hr, hp], ⟨?_, ?_, hs.released⟩, ?_, fun _ h => List.mem_append_left _ h, fun h => absurd rfl (h i A fpr buf sql)⟩
      · refine List.nodup_iff_count.2 fun a => ?_
        have e1 := hcnt a
        have e2 := hle a
        have e3 := List.nodup_iff_count.1 g1 a
        by_cases ho : a ∈ owned r
        · have : 0 < (owned r).count a := List.count_pos_iff.2 ho
          omega
        · have : (owned r).count a = 0 := List.count_eq_zero.2 ho
          by_cases hn : a ∈ o.freed ++ o.leaked ++ owned o.res
          · have : w.known.count a = 0 := by
              refine List.count_eq_zero.2 fun hk => ?_
              rcases g3 a hn with h | ⟨n, rfl⟩ | ⟨n, rfl⟩
              · exact ho h
              · exact h1 n hk
              · exact h2 n hk
            omega
          · have := List.count_eq_zero.2 hn
            omega
      · intro x hx v hv
        rcases List.mem_or_eq_of_mem_set hx with h | h
        · exact hs.results x h v hv
        · subst h
          exact (g2.stmts v hv).mono (fun _ _ => trivial) (fun _ h => h)
      · intro a ha
        have e1 := hcnt a
        have e2 : 0 < w.known.count a := List.count_pos_iff.2 ha
        refine List.count_pos_iff.1 ?_
        by_cases ho : a ∈ owned r
        · have h3 := List.count_pos_iff.2 (g4 a ho)
          have := hle a
          have := hcr a
          have := World.known_count w a
          omega
        · have : (owned r).count a = 0 := List.count_eq_zero.2 ho
          omega

theorem init_sane : Sane World.init where
  nodup := by decide
  results := by intro r h; cases h
  released := by intro v h; cases h

theorem execs_ok : ∀ {w : World} {os : List Op}, Sane w → LegalAll w os → ∃ w', w.execs os = some w' ∧ Sane w' ∧ (∀ a ∈ w.known, a ∈ w'.known) ∧ (∀ a ∈ w.freed, a ∈ w'.freed)
  | w, [], hs, _ => ⟨w, rfl, hs, fun _ h => h, fun _ h => h⟩
  | w, o :: os, hs, hl => by
    obtain ⟨w1, e, h1, h2, h3, _⟩ := exec_ok hs hl.1
    obtain ⟨w2, e2, g1, g2, g3⟩ := execs_ok h1 (hl.2 w1 e)
    exact ⟨w2, by simp only [World.execs, e, e2], g1, fun a h => g2 a (h2 a h), fun a h => g3 a (h3 a h)⟩

/-! ## The theorems -/

/-- C31, memory. Every client program of legal operations is defined, and at its end no heap block is in two places (`Sane`): none was freed twice, none that a
result or the client still owns was freed, none is owned twice. Statements taken out by `releaseStatements` are owned by the client alone,
whatever happens to the results later. -/
theorem C31_client_programs_sane (os : List Op) (h : LegalAll World.init os) : ∃ w, World.init.execs os = some w ∧ Sane w := by
  obtain ⟨w, h1, h2, _⟩ := execs_ok init_sane h
  exact ⟨w, h1, h2⟩

/-- C31, conservation. In every state a client program reaches, each legal operation other than `parse` keeps the set of known blocks: it moves blocks between results, client
and "freed" only. Only a move loses blocks (those of the target). -/
theorem C31_nothing_lost (os : List Op) (h : LegalAll World.init os) (w : World) (hw : World.init.execs os = some w) (o : Op) (ho : Legal w o)
    (hp : ∀ i A fpr buf sql, o ≠ .parse i A fpr buf sql) :
    ∃ w', w.exec o = some w' ∧ w'.known.Perm w.known ∧ ((∀ i j, o ≠ .move i j) → w'.leaked = w.leaked) := by
  obtain ⟨w1, h1, h2, _⟩ := execs_ok init_sane h
  rw [hw] at h1; cases h1
  obtain ⟨w', g1, _, _, _, g2⟩ := exec_ok h2 ho
  exact ⟨w', g1, g2 hp⟩

/-- C31, release. `releaseStatements` gives the client all statements of the result, in order and once, and leaves the result empty; nothing else changes. -/
theorem C31_release (w : World) (i : Nat) (r : Res) (hr : w.results[i]? = some r) :
    ∃ w' r', w.exec (.release i) = some w' ∧ w'.released = w.released ++ r.stmts ∧ w'.results[i]? = some r' ∧ size r' = 0 ∧
      (∀ j, j ≠ i → w'.results[j]? = w.results[j]?) ∧ w'.freed = w.freed ∧ w'.leaked = w.leaked ∧
      (r'.isValid, message r', r'.errLine, r'.errCol, r'.params) = (r.isValid, message r, r.errLine, r.errCol, r.params) := by
  have hlt : i < w.results.length := (List.getElem?_eq_some_iff.1 hr).1
  refine ⟨{ w with results := w.results.set i { r with stmts := [] }, released := w.released ++ r.stmts }, { r with stmts := [] }, by simp only [World.exec, hr, Api.release], rfl, ?_, rfl,
    fun j hj => ?_, rfl, rfl, rfl⟩
  · simp [hlt]
  · rw [List.getElem?_set_ne (Ne.symm hj)]

/-- C31, move. After `dst = std::move(src)` the target has exactly the statements, the validity and the message of the source; the source is empty, not valid, and has no message. -/
theorem C31_move (w : World) (i j : Nat) (hij : i ≠ j) (d s : Res) (hd : w.results[i]? = some d) (hs : w.results[j]? = some s) :
    ∃ w' d' s', w.exec (.move i j) = some w' ∧ w'.results[i]? = some d' ∧ w'.results[j]? = some s' ∧
      (d'.stmts, d'.isValid, message d') = (s.stmts, s.isValid, message s) ∧
      (s'.stmts, s'.isValid, message s') = ([], false, none) ∧
      (∀ k, k ≠ i → k ≠ j → w'.results[k]? = w.results[k]?) ∧ w'.freed = w.freed ∧ w'.released = w.released := by
  have h1 : i < w.results.length := (List.getElem?_eq_some_iff.1 hd).1
  have h2 : j < w.results.length := (List.getElem?_eq_some_iff.1 hs).1
  refine ⟨({ w with results := (w.results.set i { d with isValid := s.isValid, errMsg := s.errMsg, stmts := s.stmts }).set j ⟨[], false, none, -1, -1, s.params⟩ } : World).log ⟨[], owned d⟩,
    { d with isValid := s.isValid, errMsg := s.errMsg, stmts := s.stmts }, ⟨[], false, none, -1, -1, s.params⟩, (by simp only [World.exec, if_neg hij, hd, hs, move_ok]), ?_, ?_, rfl, rfl, fun k h3 h4 => ?_, ?_, rfl⟩
  · simp only [World.log]
    rw [List.getElem?_set_ne (Ne.symm hij)]; simp [h1]
  · simp [World.log, h2]
  · simp only [World.log]
    rw [List.getElem?_set_ne (Ne.symm h4), List.getElem?_set_ne (Ne.symm h3)]
  · simp [World.log]

/-- C31, move construction. -/
theorem C31_moveNew (w : World) (l c : Int) (j : Nat) (s : Res) (hs : w.results[j]? = some s) :
    ∃ w' d' s', w.exec (.moveNew l c j) = some w' ∧ w'.results[w.results.length]? = some d' ∧ w'.results[j]? = some s' ∧
      (d'.stmts, d'.isValid, message d') = (s.stmts, s.isValid, message s) ∧
      (s'.stmts, s'.isValid, message s') = ([], false, none) ∧
      (∀ k, k < w.results.length → k ≠ j → w'.results[k]? = w.results[k]?) ∧ w'.freed = w.freed ∧ w'.leaked = w.leaked := by
  have h2 : j < w.results.length := (List.getElem?_eq_some_iff.1 hs).1
  refine ⟨({ w with results := w.results.set j ⟨[], false, none, -1, -1, s.params⟩ ++ [{ newResult l c with isValid := s.isValid, errMsg := s.errMsg, stmts := s.stmts }] } : World).log ⟨[], owned (newResult l c)⟩,
    { newResult l c with isValid := s.isValid, errMsg := s.errMsg, stmts := s.stmts }, ⟨[], false, none, -1, -1, s.params⟩, (by simp only [World.exec, hs, Api.moveNew, move_ok]), ?_, ?_, rfl, rfl, fun k h3 h4 => ?_, ?_, ?_⟩
  · simp [World.log]
  · simp only [World.log]
    rw [List.getElem?_append_left (by simpa using h2)]; simp [h2]
  · simp only [World.log]
    rw [List.getElem?_append_left (by simpa using h3), List.getElem?_set_ne (Ne.symm h4)]
  · simp [World.log]
  · simp [World.log, owned, newResult, Res.errAddr, addrsL]

/-- C31, reset. In every state a client program reaches, `reset` frees exactly the blocks of the result, each once, and makes it empty, not valid, without message, at position (-1, -1). -/
theorem C31_reset (os : List Op) (h : LegalAll World.init os) (w : World) (hw : World.init.execs os = some w) (i : Nat) (r : Res) (hr : w.results[i]? = some r) :
    ∃ w' r' f, w.exec (.reset i) = some w' ∧ w'.results[i]? = some r' ∧ (r'.stmts, r'.isValid, message r', r'.errLine, r'.errCol) = ([], false, none, -1, -1) ∧
      w'.freed = w.freed ++ f ∧ f.Perm (owned r) ∧ w'.leaked = w.leaked ∧ w'.released = w.released ∧ (∀ j, j ≠ i → w'.results[j]? = w.results[j]?) := by
  obtain ⟨w1, h1, h2, _⟩ := execs_ok init_sane h
  rw [hw] at h1; cases h1
  have hlt : i < w.results.length := (List.getElem?_eq_some_iff.1 hr).1
  obtain ⟨f, e, p⟩ := reset_ok (h2.results r (List.mem_of_getElem? hr))
  refine ⟨({ w with results := w.results.set i ⟨[], false, none, -1, -1, r.params⟩ } : World).log ⟨f, []⟩, ⟨[], false, none, -1, -1, r.params⟩, f, by simp only [World.exec, hr, e], ?_, rfl, rfl, p, ?_, rfl, fun j hj => ?_⟩
  · simp [World.log, hlt]
  · simp [World.log]
  · simp only [World.log]
    rw [List.getElem?_set_ne (Ne.symm hj)]

/-- The condition on parameters in `Legal` holds for new results, and `parse` keeps it. -/
theorem C31_paramsLive_new (l c : Int) : ParamsLive (newResult l c) := by intro a h; cases h

theorem C31_paramsLive_parse {A : Alloc} {r : Res} (hA : AllocOK A r) (hr : ∀ v ∈ r.stmts, Sat (fun _ => True) (fun _ => True) (.ref .stmt) v) (hp : ParamsLive r)
    {fpr : Int} (hf : FprOK fpr) (buf : Bytes) (sql : List UInt8) (o : ParseOut) (h : parse A fpr buf sql r = some o) : ParamsLive o.res :=
  (parse_heap (ok := fun _ => True) hf hA ⟨hr, hp⟩ h).2.1.params

/-! ## Violations and examples -/

theorem parse_eval_eq {A : Alloc} {fpr : Int} {f : Nat} {sql : List UInt8} {r : Res} (h : (evalParse A fpr f sql r).isSome = true) :
    parse A fpr [] sql r = (evalParse A fpr f sql r).getD none := by
  obtain ⟨x, hx⟩ := Option.isSome_iff_exists.1 h
  have : id (parse A fpr [] sql r) = x := parse_of_eval (q := id) (by rw [hx]; rfl)
  rw [hx]; exact this

/-- A second allocator: all its addresses differ from those of `heap`. -/
def heap2 : Alloc := ⟨fun i => 1000 + 2 * i, fun i => 1001 + 2 * i⟩

/-- `SELECT ?` parsed into a new result. -/
def stage1 : Option ParseOut := (evalParse heap 64 20 (txt b!"SELECT ?") (newResult 0 0)).getD none

theorem stage1_eq : parse heap 64 [] (txt b!"SELECT ?") (newResult 0 0) = stage1 := parse_eval_eq (by decide +kernel)

/-- The result of `stage1` after `reset`. -/
def stage2 : Option Res := match stage1 with
  | some o => (Api.reset o.res).map Prod.fst
  | none => none

/-- C31 is violated: `reset` keeps `parameters()`, which then point to freed expressions ... -/
theorem C31_reset_keeps_parameters_violation : stage2.map (fun r => (size r, r.params.length)) = some (0, 1) := by decide +kernel

/-- ... and parsing another text with a parameter into that result reads them: undefined behaviour. -/
theorem C31_stale_parameters_violation : ∃ r, stage2 = some r ∧ parse heap2 64 [] (txt b!"SELECT ?") r = none := by
  have h : (stage2.map fun r => ((evalParse heap2 64 20 (txt b!"SELECT ?") r).isSome && ((evalParse heap2 64 20 (txt b!"SELECT ?") r).getD none).isNone)) = some true := by decide +kernel
  cases hr : stage2 with
  | none => rw [hr] at h; cases h
  | some r =>
    rw [hr] at h
    simp only [Option.map_some, Option.some.injEq, Bool.and_eq_true, Option.isNone_iff_eq_none] at h
    exact ⟨r, rfl, by rw [parse_eval_eq h.1]; exact h.2⟩

/-- C31 is violated: a move transfers neither `parameters()` nor the error position. -/
theorem C31_move_drops_parameters_violation :
    (stage1.bind fun o => (moveNew 7 8 o.res).map fun (d, s, _) => (size d, d.params.length, s.params.length, d.errLine, d.errCol)) = some (1, 0, 1, 7, 8) := by decide +kernel

/-- C31 is violated: a move to a result that holds statements loses them. -/
theorem C31_move_leaks_violation :
    (stage1.bind fun o => (moveAssign o.res (newResult 0 0)).map fun (d, _, l) => (size d, l.freed.length, decide (l.leaked = owned o.res))) = some (0, 0, true) := by decide +kernel

theorem heap2_fresh : Distinct heap2 := ⟨fun i j h => by simp only [heap2] at h; omega, fun i j h => by simp only [heap2] at h; omega, fun i j h => by simp only [heap2] at h; omega⟩

/-- The tokens of "SELECT ?" have no string values. -/
theorem stage1_strings : ∀ t ∈ tokensOf 64 (txt b!"SELECT ?"), ∀ b, t.val = .sval b → ¬ Overflow b := by
  have h : (lexE 64 20 (lexInit [] (cText (txt b!"SELECT ?"))) []).map (fun x => x.1.all fun t => match t.val with | .sval _ => false | _ => true) = some true := by decide +kernel
  cases hl : lexE 64 20 (lexInit [] (cText (txt b!"SELECT ?"))) [] with
  | none => rw [hl] at h; cases h
  | some y =>
    obtain ⟨toks, st⟩ := y
    rw [hl] at h
    have e : tokensOf 64 (txt b!"SELECT ?") = toks := by
      unfold tokensOf
      rw [lexAll_of_lexE (st := lexInit [] (cText (txt b!"SELECT ?"))) (cText_clean _) hl]
    rw [e]
    simp only [Option.map_some, Option.some.injEq, List.all_eq_true] at h
    intro t ht b hb
    have := h t ht
    rw [hb] at this
    cases this

/-- A program that meets the hypotheses of `C31_client_programs_sane`: parse, release, delete what was released, reset, destroy. -/
example : LegalAll World.init [.new 0 0, .parse 0 heap 64 [] (txt b!"SELECT ?"), .release 0, .delete 0, .reset 0, .destroy 0] := by
  refine ⟨trivial, fun w h => ?_⟩
  have e : w = ⟨[newResult 0 0], [], [], []⟩ := by cases h; rfl
  subst e
  refine ⟨⟨newResult 0 0, rfl, C31_paramsLive_new 0 0, heap_distinct, (by intro n h; cases h), (by intro n h; cases h), .inl (by decide), stage1_strings⟩, fun w h => ?_⟩
  have h1 : stage1.map (fun o => size o.res) = some 1 := by decide +kernel
  simp only [World.exec, List.getElem?_cons_zero, stage1_eq] at h
  cases hs : stage1 with
  | none => rw [hs] at h; cases h
  | some o =>
    rw [hs] at h h1
    simp only [Option.map_some, Option.some.injEq] at h1 h
    subst h
    have hn := h1
    unfold size at hn
    refine ⟨by show 0 < 1; decide, fun w h => ?_⟩
    cases h
    refine ⟨?_, fun w h => ?_⟩
    · show 0 < ([] ++ o.res.stmts).length
      simp [hn]
    · have : w.results.length = 1 := by
        simp only [World.exec] at h
        split at h
        · split at h
          · cases h; rfl
          · cases h
        · cases h
      refine ⟨by show 0 < w.results.length; omega, fun w' h' => ?_⟩
      have : w'.results.length = 1 := by
        simp only [World.exec] at h'
        split at h'
        · split at h'
          · cases h'; simpa [World.log] using this
          · cases h'
        · cases h'
      exact ⟨by show 0 < w'.results.length; omega, fun _ _ => trivial⟩

end Verif.Props
