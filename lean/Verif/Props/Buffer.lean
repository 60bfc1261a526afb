import Verif.Lex.BufferOk
import Verif.Api.Scanner
import Verif.Props.ResultEx
/-!
# C62: the scanner stays within its buffer

The properties of the scanner (C01 - C10, C30, C37, C38, C43, C57) are about the scanner on lists. Here: the code of the scanner, which works in
place on a character buffer with two NUL bytes at its end, does the same, as long as the text is shorter than 2^31 - 2 bytes.
-/
namespace Verif.Props
open Verif.Lex Verif.LR Verif.Sem Verif.Api

/-- The first `k` calls of `hsql_lex` on lists. -/
def lexMany (fpr : Int) : Nat → LexSt → Option (List Tok × LexSt)
  | 0, st => some ([], st)
  | k + 1, st => do
    let (t, st) ← yylex fpr st
    let (ts, st) ← lexMany fpr k st
    some (t :: ts, st)

/-- The scanner stands at the state `st`, before its first call or later. -/
def Stands (T : Bytes) (g : Guts) (st : LexSt) : Prop := Rep T g st ∨ (Fresh T g ∧ st = lexInit st.buf T)

theorem bLex_any (fpr : Int) {T : Bytes} (hT : Clean T) {g : Guts} {st : LexSt} (h : Stands T g st) :
    ∃ t st' g', yylex fpr st = some (t, st') ∧ bLex fpr g st.buf = some (t, g', st'.buf) ∧ Rep T g' st' := by
  rcases h with h | ⟨h, e⟩
  · exact bLex_ok fpr hT h
  · rw [e]; exact bLex_first fpr hT h _

theorem toInt32_small {n : Nat} (h : n < 2147483648) : toInt32 n = n := by
  unfold toInt32; omega

theorem toInt32_wrap {m n : Nat} (h : n < 2147483648) : toInt32 (4294967296 * m + n) = n := by
  unfold toInt32; omega

theorem scanBytes_ok {bytes : Bytes} {k : Nat} (hk : k ≤ bytes.length) (h : k + 2 < 2147483648) :
    ∃ g, scanBytes bytes k = some g ∧ Fresh (bytes.take k) g := by
  have h1 : ¬ (k : Int) + 2 > 2147483647 := by omega
  have h2 : ¬ (k : Int) < 0 := by omega
  have h3 : ¬ bytes.length < (k : Int).toNat := by simp; omega
  have hl : 0 < (bytes.take k ++ [0, 0]).length := by simp
  rw [scanBytes, if_neg h1, if_neg h2, if_neg h3]
  simp only [Int.toNat_natCast, loadBuffer, List.getElem?_eq_getElem hl, bind, Option.bind]
  refine ⟨_, rfl, rfl, rfl, ?_, rfl, rfl⟩
  simp

theorem bCalls_ok (fpr : Int) {T : Bytes} (hT : Clean T) : ∀ (k : Nat) (g : Guts) (st : LexSt), Stands T g st →
    ∃ ts st' g', lexMany fpr k st = some (ts, st') ∧ bCalls fpr k g st.buf = some (ts, g', st'.buf) ∧ Stands T g' st' := by
  intro k
  induction k with
  | zero => intro g st h; exact ⟨[], st, g, rfl, rfl, h⟩
  | succ k ih =>
    intro g st h
    obtain ⟨t, st1, g1, h1, h2, h3⟩ := bLex_any fpr hT h
    obtain ⟨ts, st2, g2, h4, h5, h6⟩ := ih g1 st1 (.inl h3)
    refine ⟨t :: ts, st2, g2, ?_, ?_, h6⟩
    · simp only [lexMany, h1, h4, bind, Option.bind]
    · simp only [bCalls, h2, h5, bind, Option.bind]

theorem bLexAll_ok (fpr : Int) {T : Bytes} (hT : Clean T) : ∀ (f : Nat) (g : Guts) (st : LexSt), Stands T g st →
    bLexAll fpr f g st.buf = (lexFuel fpr f st).map (·.1) := by
  intro f
  induction f with
  | zero => intro g st _; rfl
  | succ f ih =>
    intro g st h
    obtain ⟨t, st1, g1, h1, h2, h3⟩ := bLex_any fpr hT h
    simp only [bLexAll, lexFuel, h1, h2, bind, Option.bind]
    by_cases e : t.code = 0
    · simp [e]
    · simp only [if_neg e, ih g1 st1 (.inl h3)]
      cases lexFuel fpr f st1 with
      | none => rfl
      | some x => rfl

theorem tokenizeLoopB_ok (fpr : Int) {T : Bytes} (hT : Clean T) : ∀ (f : Nat) (g : Guts) (st : LexSt), Stands T g st →
    tokenizeLoopB fpr f g st.buf = tokenizeFuel fpr f st := by
  intro f
  induction f with
  | zero => intro g st _; rfl
  | succ f ih =>
    intro g st h
    obtain ⟨t, st1, g1, h1, h2, h3⟩ := bLex_any fpr hT h
    simp only [tokenizeLoopB, tokenizeFuel, h1, h2, bind, Option.bind]
    by_cases e : toInt16 t.code = 0
    · simp [e]
    · simp only [if_neg e, ih g1 st1 (.inl h3)]

theorem destroyScanner_ok : destroyScanner scannerBlocks = some [] := by decide

theorem takeWhile_prop {α : Type} {p : α → Bool} : ∀ {l : List α} {x : α}, x ∈ l.takeWhile p → p x = true := by
  intro l
  induction l with
  | nil => intro x h; simp at h
  | cons a l ih =>
    intro x h
    rw [List.takeWhile_cons] at h
    split at h
    · rcases List.mem_cons.1 h with e | h
      · subst e; assumption
      · exact ih h
    · simp at h

theorem takeWhile_id {α : Type} {p : α → Bool} : ∀ {l : List α}, (∀ x ∈ l, p x = true) → l.takeWhile p = l := by
  intro l
  induction l with
  | nil => intro _; rfl
  | cons a l ih =>
    intro h
    rw [List.takeWhile_cons, if_pos (h a (by simp)), ih (fun x hx => h x (by simp [hx]))]

theorem take_takeWhile {α : Type} (p : α → Bool) (l : List α) {k : Nat} (hk : k ≤ (l.takeWhile p).length) :
    l.take k = (l.takeWhile p).take k := by
  conv => lhs; rw [← List.takeWhile_append_dropWhile (p := p) (l := l)]
  rw [List.take_append_of_le_length hk]

theorem cText_take (sql : List UInt8) {k : Nat} (hk : k ≤ (cText sql).length) : cText (sql.take k) = (cText sql).take k := by
  unfold cText at hk ⊢
  rw [List.length_map] at hk
  rw [← List.map_take, take_takeWhile _ _ hk, takeWhile_id]
  intro x hx
  exact takeWhile_prop (p := fun x => decide (x ≠ 0)) (List.mem_of_mem_take hx)

theorem cText_take_all (sql : List UInt8) : cText (sql.take (cText sql).length) = cText sql := by
  rw [cText_take _ (Nat.le_refl _), List.take_length]

/-- The scanner reads the first `k` bytes, where `k` is the length of the text modulo 2^32. -/
theorem scanString_ok {sql : List UInt8} {m k : Nat} (hl : (cText sql).length = 4294967296 * m + k) (h : k + 2 < 2147483648) :
    ∃ g, scanString sql = some g ∧ Fresh (cText (sql.take k)) g := by
  rw [cText_take sql (by omega), scanString, hl, toInt32_wrap (by omega)]
  exact scanBytes_ok (by omega) h

/-- **C62**: for every text of less than 2^31 - 2 bytes, and after any number of calls, the scanner has returned what the scanner on lists returns,
without reading or writing outside of its buffer of two bytes more than the text, without a fatal error, and the buffer still holds
the text and two NUL bytes, except for the NUL behind the last token. -/
theorem C62_scanner_memory (fpr : Int) (buf : Bytes) (sql : List UInt8) (hl : (cText sql).length + 2 < 2147483648) :
    ∃ g, scanString sql = some g ∧ ∀ k, ∃ ts st g', bCalls fpr k g buf = some (ts, g', st.buf) ∧ lexMany fpr k (lexInit buf (cText sql)) = some (ts, st) ∧
      g'.mem.length = (cText sql).length + 2 ∧ ∀ i, i ≠ g'.cbuf → g'.mem[i]? = (cText sql ++ [0, 0])[i]? := by
  obtain ⟨g, h1, h2⟩ := scanString_ok (sql := sql) (m := 0) (k := (cText sql).length) (by omega) hl
  refine ⟨g, h1, ?_⟩
  rw [cText_take_all] at h2
  intro k
  obtain ⟨ts, st, g', h3, h4, h5⟩ := bCalls_ok fpr (cText_clean sql) k g (lexInit buf (cText sql)) (.inr ⟨h2, rfl⟩)
  refine ⟨ts, st, g', h4, h3, ?_⟩
  rcases h5 with h5 | ⟨h5, _⟩
  · refine ⟨h5.len, ?_⟩
    intro i hi
    rw [← h5.mem, List.getElem?_set_ne (by omega)]
  · rw [h5.mem]; exact ⟨by simp, fun i _ => rfl⟩

/-- The text the scanner works on is the first `k` bytes: `parse` is that of these bytes, and nothing of the scanner is left. -/
theorem parseB_wrap (A : Alloc) (fpr : Int) (buf : Bytes) {sql : List UInt8} (r : Res) {m k : Nat} (hl : (cText sql).length = 4294967296 * m + k)
    (h : k + 2 < 2147483648) : parseB A fpr buf sql r = (parse A fpr buf (sql.take k) r).map (·, []) := by
  obtain ⟨g, h1, h2⟩ := scanString_ok hl h
  have hg : g.mem.length - 1 = (cText (sql.take k)).length + 1 := by rw [h2.mem]; simp
  have e := bLexAll_ok fpr (cText_clean (sql.take k)) (g.mem.length - 1) g (lexInit buf (cText (sql.take k))) (.inr ⟨h2, rfl⟩)
  have e1 : (lexInit buf (cText (sql.take k))).buf = buf := rfl
  have e2 : lexAll fpr (lexInit buf (cText (sql.take k))) = lexFuel fpr (g.mem.length - 1) (lexInit buf (cText (sql.take k))) := by
    rw [hg]; rfl
  rw [e1] at e
  unfold parseB parse
  rw [h1, e2, Option.bind_eq_bind, Option.bind_some, e]
  generalize lexFuel fpr (g.mem.length - 1) (lexInit buf (cText (sql.take k))) = L
  cases L with
  | none => rfl
  | some x =>
    obtain ⟨toks, z⟩ := x
    simp only [Option.map_some, Option.bind_eq_bind, Option.bind_some]
    generalize hsqlParse A toks r = H
    cases H with
    | none => rfl
    | some y => simp only [Option.bind_some, destroyScanner_ok, Option.map_some]

theorem tokenizeB_wrap (fpr : Int) (buf : Bytes) {sql : List UInt8} {m k : Nat} (hl : (cText sql).length = 4294967296 * m + k)
    (h : k + 2 < 2147483648) : tokenizeB fpr buf sql = (tokenize fpr buf (sql.take k)).map (·, []) := by
  obtain ⟨g, h1, h2⟩ := scanString_ok hl h
  have hg : g.mem.length - 1 = (cText (sql.take k)).length + 1 := by rw [h2.mem]; simp
  have e := tokenizeLoopB_ok fpr (cText_clean (sql.take k)) (g.mem.length - 1) g (lexInit buf (cText (sql.take k))) (.inr ⟨h2, rfl⟩)
  have e1 : (lexInit buf (cText (sql.take k))).buf = buf := rfl
  have e2 : tokenize fpr buf (sql.take k) = tokenizeFuel fpr (g.mem.length - 1) (lexInit buf (cText (sql.take k))) := by
    rw [hg]; rfl
  rw [e1] at e
  unfold tokenizeB
  rw [h1, e2, Option.bind_eq_bind, Option.bind_some, e]
  generalize tokenizeFuel fpr (g.mem.length - 1) (lexInit buf (cText (sql.take k))) = L
  cases L with
  | none => rfl
  | some x => simp only [Option.bind_eq_bind, Option.bind_some, destroyScanner_ok, Option.map_some]

theorem parse_cText (A : Alloc) (fpr : Int) (buf : Bytes) {s1 s2 : List UInt8} (r : Res) (h : cText s1 = cText s2) : parse A fpr buf s1 r = parse A fpr buf s2 r := by
  unfold parse; rw [h]

/-- **C62**: `SQLParser::parse` with the scanner on its buffer does what `parse` says, and frees each block of the scanner once, for every text of
less than 2^31 - 2 bytes. -/
theorem C62_parse (A : Alloc) (fpr : Int) (buf : Bytes) (sql : List UInt8) (r : Res) (hl : (cText sql).length + 2 < 2147483648) :
    parseB A fpr buf sql r = (parse A fpr buf sql r).map (·, []) := by
  rw [parseB_wrap A fpr buf r (m := 0) (k := (cText sql).length) (by omega) hl, parse_cText A fpr buf r (cText_take_all sql)]

/-- **C62**: the same for `SQLParser::tokenize`. -/
theorem C62_tokenize (fpr : Int) (buf : Bytes) (sql : List UInt8) (hl : (cText sql).length + 2 < 2147483648) :
    tokenizeB fpr buf sql = (tokenize fpr buf sql).map (·, []) := by
  rw [tokenizeB_wrap fpr buf (m := 0) (k := (cText sql).length) (by omega) hl]
  unfold tokenize; rw [cText_take_all]

/-- **C62**: longer texts are cut: of a text of `2^32 m + k` bytes only the first `k` are parsed, and an error in the rest goes unnoticed. -/
theorem C62_long_text (A : Alloc) (fpr : Int) (buf : Bytes) (sql : List UInt8) (r : Res) {m k : Nat} (hl : (cText sql).length = 4294967296 * m + k)
    (h : k + 2 < 2147483648) : parseB A fpr buf sql r = (parse A fpr buf (sql.take k) r).map (·, []) :=
  parseB_wrap A fpr buf r hl h

/-- **C62**: a text of 2^31 - 2 bytes or more, up to 2^32 - 1, is not parsed at all. -/
theorem C62_too_long (A : Alloc) (fpr : Int) (buf : Bytes) (sql : List UInt8) (r : Res) (h1 : 2147483646 ≤ (cText sql).length)
    (h2 : (cText sql).length < 4294967296) : parseB A fpr buf sql r = none := by
  have : scanString sql = none := by
    unfold scanString scanBytes toInt32
    by_cases h : (cText sql).length < 2147483648
    · rw [if_pos (by omega)]
    · rw [if_neg (by omega), if_pos (by omega)]
  unfold parseB
  rw [this]; rfl

theorem cText_len_of_no_nul {s : List UInt8} (h : (0 : UInt8) ∉ s) : (cText s).length = s.length := by
  unfold cText
  rw [takeWhile_id, List.length_map]
  intro x hx
  have : x ≠ 0 := fun e => h (e ▸ hx)
  simp [this]

/-- **C62**, the violation: `SELECT 1` followed by any 2^32 characters, for instance 2^32 times `)`, is accepted as one statement. -/
theorem C62_long_text_violation (junk : List UInt8) (h0 : (0 : UInt8) ∉ junk) (hl : junk.length = 4294967296) :
    (parseB heap 64 [] (txt b!"SELECT 1" ++ junk) (newResult 0 0)).map (fun x => (x.1.res.isValid, size x.1.res)) = some (true, 1) := by
  have e8 : (txt b!"SELECT 1").length = 8 := by decide
  have n0 : (0 : UInt8) ∉ txt b!"SELECT 1" := by decide
  have hlen : (cText (txt b!"SELECT 1" ++ junk)).length = 4294967296 * 1 + 8 := by
    rw [cText_len_of_no_nul (by simp only [List.mem_append, not_or]; exact ⟨n0, h0⟩), List.length_append, e8, hl]
  rw [parseB_wrap heap 64 [] (newResult 0 0) hlen (by omega), List.take_append_of_le_length (by omega), ← e8, List.take_length]
  have : (run0 b!"SELECT 1").map (fun o => (o.res.isValid, size o.res)) = some (true, 1) :=
    parse_of_eval (f := 20) (q := Option.map fun (o : ParseOut) => (o.res.isValid, size o.res)) (by decide +kernel)
  rw [Option.map_map]
  exact this

/-- **C62**: the deprecated entry points are `parse`: of the memory of the client only the bytes in front of the first NUL count. -/
theorem C62_deprecated (A : Alloc) (fpr : Int) (buf : Bytes) (a b : List UInt8) (r : Res) (h : 0 ∉ a) :
    parseSQLChars A fpr buf (a ++ 0 :: b) r = parseB A fpr buf a r ∧ parseSQLString A fpr buf a r = parseB A fpr buf a r := by
  refine ⟨?_, rfl⟩
  unfold parseSQLChars
  rw [if_pos (by simp)]
  congr 1
  rw [List.takeWhile_append_of_pos]
  · simp
  · intro x hx
    have : x ≠ 0 := fun e => h (e ▸ hx)
    simp [this]

/-- A concrete case for C62: four calls on the buffer; the last leaves the NUL bytes of the end in place. -/
example : ((scanString (txt b!"a<='b'")).bind fun g => (bCalls 64 4 g []).map fun x => (x.1.map (·.code), x.2.1.mem, x.2.1.cbuf)) =
    some ([258, 433, 259, 0], b!"a<='b'" ++ [0, 0], 6) := by decide +kernel

/-- After the first call the NUL of `yytext` is in the buffer, and the byte that was there is kept. -/
example : ((scanString (txt b!"ab<=c")).bind fun g => (bCalls 64 1 g []).map fun x => (x.2.1.mem, x.2.1.hold, x.2.1.leng)) =
    some ([97, 98, 0, 61, 99, 0, 0], 60, 2) := by decide +kernel

/-- The hypotheses of `C62_parse` and `C62_tokenize` are met by every text that is not gigantic. -/
example : (cText (txt b!"SELECT 1")).length + 2 < 2147483648 := by decide

end Verif.Props
