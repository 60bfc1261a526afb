import Verif.Sem.Ends
/-! How much an action allocates, and how much a whole parse does. Proof-internal (C46). -/
set_option maxRecDepth 20000
namespace Verif.Sem
open Verif.Lex Verif.LR

/-- At most so many allocations. -/
def Rv.news : Rv → Nat
  | .obj _ _ => 1
  | .vec _ => 1
  | _ => 0
def Prog.news : Prog → Nat
  | .ret => 0
  | .fail => 0
  | .set _ e k => e.news + k.news
  | .push _ _ k => k.news
  | .insert _ _ k => k.news
  | .del _ k => k.news
  | .free _ k => k.news
  | .ite _ t e => max t.news e.news
  | .err _ k => 1 + k.news
  | .errName _ _ k => 1 + k.news
  | .zeroLen k => k.news
  | .regParam _ k => k.news
  | .split _ _ k => 2 + k.news
  | .finish => 0

theorem evalRv_news {A : Alloc} {e : Rv} {env env' : List V} {st st' : St} {v : V} (h : evalRv A e env st = some (v, env', st')) : st'.nalloc ≤ st.nalloc + e.news := by
  cases e <;> simp only [evalRv] at h <;> split at h <;> cases h <;> simp [Rv.news, St.bump]

theorem run_news (A : Alloc) (loc : Loc) : ∀ (k : Prog) (env : List V) (st : St), (run A loc k env st).nalloc ≤ st.nalloc + k.news
  | .ret, env, st => by
    unfold run
    split
    · simp [Out.nalloc]
    · exact Nat.le_refl _
  | .fail, env, st => Nat.le_refl _
  | .set p e k, env, st => by
    unfold run
    split
    · rename_i h1
      split
      · split
        · rename_i v env' st' _ old h2 _ env'' h3
          have i := run_news A loc k env'' (st'.log [] old.addrs)
          have := evalRv_news h1
          rw [show (st'.log [] old.addrs).nalloc = st'.nalloc from rfl] at i
          simp only [Prog.news]; omega
        · simp [Out.nalloc]
      · simp [Out.nalloc]
    · simp [Out.nalloc]
  | .push p e k, env, st => by
    unfold run
    split
    · split
      · split
        · exact run_news A loc k _ st
        · simp [Out.nalloc]
      · simp [Out.nalloc]
    · simp [Out.nalloc]
  | .insert p e k, env, st => by
    unfold run
    split
    · split
      · split
        · exact run_news A loc k _ st
        · simp [Out.nalloc]
      · simp [Out.nalloc]
    · simp [Out.nalloc]
  | .del p k, env, st => by
    unfold run
    split
    · split
      · split
        · exact run_news A loc k _ (st.log _ _)
        · simp [Out.nalloc]
      · simp [Out.nalloc]
    · simp [Out.nalloc]
  | .free p k, env, st => by
    unfold run
    split
    · split
      · split
        · exact run_news A loc k _ (st.log _ _)
        · simp [Out.nalloc]
      · simp [Out.nalloc]
    · simp [Out.nalloc]
  | .ite c t e, env, st => by
    unfold run
    split
    · have := run_news A loc t env st
      simp only [Prog.news]; omega
    · have := run_news A loc e env st
      simp only [Prog.news]; omega
    · simp [Out.nalloc]
  | .err m k, env, st => by
    unfold run
    have := run_news A loc k env (st.yyerror A m loc.fl loc.fc)
    rw [show (st.yyerror A m loc.fl loc.fc).nalloc = st.nalloc + 1 from rfl] at this
    simp only [Prog.news]; omega
  | .errName m p k, env, st => by
    unfold run
    split
    · rename_i b _
      have := run_news A loc k env (st.yyerror A (m ++ b) loc.fl loc.fc)
      rw [show (st.yyerror A (m ++ b) loc.fl loc.fc).nalloc = st.nalloc + 1 from rfl] at this
      simp only [Prog.news]; omega
    · simp [Out.nalloc]
  | .zeroLen k, env, st => by
    unfold run
    exact run_news A loc k env _
  | .regParam p k, env, st => by
    unfold run
    split
    · split
      · exact run_news A loc k env _
      · simp [Out.nalloc]
    · simp [Out.nalloc]
  | .split p q k, env, st => by
    unfold run
    split
    · split
      · simp only []
        split
        · split
          · split
            · rename_i env3 _
              refine Nat.le_trans (run_news A loc k env3 _) ?_
              simp only [Prog.news, St.log, St.bump]; omega
            · simp [Out.nalloc]
          · simp [Out.nalloc]
        · simp [Out.nalloc]
      · simp [Out.nalloc]
    · simp [Out.nalloc]
  | .finish, env, st => by
    unfold run
    split
    · split
      · split
        · exact Nat.le_refl _
        · simp [Out.nalloc]
      · simp [Out.nalloc]
    · simp [Out.nalloc]

/-- No action allocates more than three blocks. -/
theorem news_le : actions.all (fun p => Nat.ble p.news 3) = true := by decide +kernel

theorem reduce_news {A : Alloc} {r : Nat} {vs : List SV} {b : Option SV} {st st' : St} {v : SV} (h : reduceRule A r vs b st = .ok v st') : st'.nalloc ≤ st.nalloc + 3 := by
  unfold reduceRule at h
  split at h
  · cases h
  · rename_i p hp
    have hm : p ∈ actions := List.mem_of_getElem? hp
    have h3 := Nat.le_of_ble_eq_true (List.all_eq_true.1 news_le p hm)
    have := run_news A (ruleLoc vs b) p (mkEnv (vs.map Prod.fst)) st
    split at h
    · rename_i v' st'' hr
      cases h
      rw [hr] at this
      simp only [Out.nalloc] at this
      omega
    · cases h
    · cases h

section
variable {A : Alloc} {toks ts : List Tok} {e : Tok} {junk : List Tok} {r0 : Res}

theorem fetch_nalloc (c : Cfg St SV) : (fetch (sem A) c).st.nalloc = c.st.nalloc := by
  rcases fetch_cases (S := sem A) c with h | ⟨t, ts, h1, h2, h⟩
  · rw [h]
  · rw [h]; rfl
theorem prep_nalloc (c : Cfg St SV) : (prep (sem A) c).st.nalloc = c.st.nalloc := by
  rcases prep_cases (S := sem A) c with h | h
  · rw [h]
  · rw [h, fetch_nalloc]

theorem Reach.news {n : Nat} {c : Cfg St SV} {stk : TStk} (h : Reach (sem A) 200 toks (startSt r0) n c stk) : c.st.nalloc ≤ 3 * n := by
  induction h with
  | init => exact Nat.zero_le _
  | shift hR _ _ _ _ _ _ ih =>
    show (fetch (sem A) _).st.nalloc ≤ _
    rw [fetch_nalloc]; omega
  | reduce hR hr hl h69 ha hr1 hr2 hlen hg hred ih =>
    have := reduce_news hred
    rw [prep_nalloc] at this
    show _ ≤ 3 * (_ + 1)
    simp only []
    omega

theorem Reach.few (hin : Input toks ts e junk) {n : Nat} {c : Cfg St SV} {stk : TStk} (h2 : Reach (sem A) 200 toks (startSt r0) n c stk) : n < 10 * ts.length + 2010 := by
  have hm := h2.inv.meas
  have hlow := stkW_low h2.inv.ok
  have hl := h2.len (by decide)
  have hr : junk.length ≤ (remOf c).length := by
    rcases h2.rest hin with ⟨_, suf, h3, _⟩ | ⟨_, h3, _⟩
    · rw [h3]; simp; omega
    · rw [h3]; exact Nat.le_refl _
  have he : toks.length = ts.length + junk.length + 1 := by rw [hin.eq]; simp; omega
  omega

/-- The number of allocations of a parse. -/
theorem Ends.news (hin : Input toks ts e junk) {ret : Int} {st : St} (h : Ends A toks ts e junk r0 (some (ret, st))) : st.nalloc ≤ 30 * ts.length + 6030 := by
  generalize hx : some (ret, st) = x at h
  cases h with
  | ub => cases hx
  | accept n c stk s t f l hR =>
    cases hx
    have := Reach.news hR
    have := Reach.few hin hR
    show c.st.nalloc ≤ _
    omega
  | exhausted n c stk f l hR =>
    cases hx
    have := Reach.news hR
    have := Reach.few hin hR
    show c.st.nalloc + 1 ≤ _
    omega
  | syntaxError n c stk t rem v f l hR =>
    cases hx
    have := Reach.news hR
    have := Reach.few hin hR
    show (prep (sem A) c).st.nalloc + 1 ≤ _
    rw [prep_nalloc]
    omega
  | semError n c stk r st f l hR hr h2 hrun =>
    cases hx
    have := Reach.news hR
    have := Reach.few hin hR
    show st.nalloc ≤ _
    have h3 : (act r).news ≤ 3 := by
      have hall : (List.range 358).all (fun r => Nat.ble (act r).news 3) = true := by decide +kernel
      exact Nat.le_of_ble_eq_true (List.all_eq_true.1 hall r (List.mem_range.2 hr.r2))
    have := run_news A (redLoc c.stk (rhs r).length) (act r) (mkEnv (rhsVals c.stk (rhs r).length)) (prep (sem A) c).st
    rw [hrun, prep_nalloc] at this
    simp only [Out.nalloc] at this
    omega

/-- The addresses of the strings of tokens. -/
def strAddrs (A : Alloc) : Nat → List Tok → List Nat
  | _, [] => []
  | k, t :: ts => (tokValue A k t.val).addrs ++ strAddrs A (k + 1) ts
theorem strAddrs_count (A : Alloc) (a : Nat) : ∀ (k : Nat) (ts : List Tok), (strAddrs A k ts).count a = strs A a k ts
  | _, [] => rfl
  | k, t :: ts => by
    rw [strAddrs, strs, List.count_append, strAddrs_count A a]; rfl
theorem strAddrs_len (A : Alloc) : ∀ (k : Nat) (ts : List Tok), (strAddrs A k ts).length ≤ ts.length
  | _, [] => Nat.le_refl _
  | k, t :: ts => by
    have := strAddrs_len A (k + 1) ts
    have h : (tokValue A k t.val).addrs.length ≤ 1 := by cases t.val <;> simp [tokValue, V.addrs]
    rw [strAddrs, List.length_append, List.length_cons]
    omega

/-- Everything that was allocated, wherever it is now. -/
theorem Ends.blocks (hin : Input toks ts e junk) {ret : Int} {st : St} (h : Ends A toks ts e junk r0 (some (ret, st))) :
    (st.freed ++ st.leaked ++ st.res.errAddr ++ addrsL st.res.stmts).length ≤ r0.errAddr.length + (addrsL r0.stmts).length + toks.length + 30 * ts.length + 6030 := by
  have hn := h.news hin
  obtain ⟨rd, rest, h1, h2⟩ := h.acc
  have hp : (st.freed ++ st.leaked ++ st.res.errAddr ++ addrsL st.res.stmts).Perm (r0.errAddr ++ addrsL r0.stmts ++ strAddrs A 0 rd ++ (List.range' 0 st.nalloc).map A.new) := by
    refine List.perm_iff_count.2 fun a => ?_
    have := h2 a
    simp only [List.count_append, strAddrs_count]
    simp only [St.tot, allocs, acL] at this
    simpa using this
  rw [hp.length_eq]
  have := strAddrs_len A 0 rd
  have : rd.length ≤ toks.length := by rw [← h1]; simp
  simp
  omega
end
end Verif.Sem
