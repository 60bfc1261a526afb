import Verif.Util
/-!
# Lexical specification

The rules of `src/parser/flex_lexer.l` as patterns over bytes.  This file contains no scanner: only
what the rules *are* and what it means for a text to match one of them.  The scanner model is in
`Verif.Lex.Scan`; that the compiled tables implement exactly these rules is proved in
`Verif.Lex.Correct`.
-/
namespace Verif.Lex

/-! ## Sets of bytes, as 256-bit masks -/

/-- A set of bytes: byte `b` is a member iff bit `b` is set. -/
abbrev CC := Nat

def CC.mem (c : CC) (b : Byte) : Bool := c.testBit b

/-- The single byte `b`. -/
def CC.byte (b : Nat) : CC := 1 <<< b
/-- All bytes from `lo` to `hi` inclusive. -/
def CC.range (lo hi : Nat) : CC := 2 ^ (hi + 1) - 2 ^ lo
/-- All bytes except the members of `c` (NUL excluded: the scanner never sees a NUL inside the text). -/
def CC.compl (c : CC) : CC := (2 ^ 256 - 2) ^^^ ((2 ^ 256 - 2) &&& c)
def CC.union : List CC → CC
  | [] => 0
  | c :: cs => c ||| CC.union cs

/-- ASCII lower/upper case of a byte (`%option case-insensitive`, src/parser/flex_lexer.l:46). -/
def lowerB (b : Nat) : Nat := if 65 ≤ b ∧ b ≤ 90 then b + 32 else b
def upperB (b : Nat) : Nat := if 97 ≤ b ∧ b ≤ 122 then b - 32 else b
/-- A literal character of a pattern, case-insensitively. -/
def CC.ci (b : Nat) : CC := CC.byte (lowerB b) ||| CC.byte (upperB b)

/-! ## Patterns -/

/-- One element of a pattern: exactly one byte of the class, or (`star`) any number of them. -/
structure Elem where
  cls : CC
  star : Bool

/-- All patterns of the `.l` file are sequences of such elements (`x+` being `x x*`). -/
abbrev Pat := List Elem

/-- `Matches p w`: the text `w` matches the pattern `p`. -/
inductive Matches : Pat → Bytes → Prop where
  | nil : Matches [] []
  | one {e p b w} : e.star = false → e.cls.mem b = true → Matches p w → Matches (e :: p) (b :: w)
  | skip {e p w} : e.star = true → Matches p w → Matches (e :: p) w
  | more {e p b w} : e.star = true → e.cls.mem b = true → Matches (e :: p) w → Matches (e :: p) (b :: w)

def one (c : CC) : Elem := ⟨c, false⟩
def many (c : CC) : Elem := ⟨c, true⟩
/-- A literal text, case-insensitively. -/
def lit (w : Bytes) : Pat := w.map fun b => one (CC.ci b)

/-- Start conditions (src/parser/flex_lexer.l:24 `%x singlequotedstring`, :52 `%s COMMENT`). -/
inductive SC where
  | initial | squote | comment
deriving DecidableEq, Repr

/-- A rule of the `.l` file; `sc = none` for a rule without `<...>` prefix. -/
structure LexRule where
  sc : Option SC
  pat : Pat

/-- Which rules are active in a start condition: `COMMENT` is inclusive (`%s`), `singlequotedstring`
is exclusive (`%x`). -/
def LexRule.active (r : LexRule) : SC → Bool
  | .initial => r.sc == none
  | .comment => r.sc == none || r.sc == some .comment
  | .squote => r.sc == some .squote

def blank : CC := CC.union [CC.byte 32, CC.byte 9, CC.byte 10]      -- [ \t\n]
def digit : CC := CC.range 48 57                                    -- [0-9]
def letter : CC := CC.union [CC.range 65 90, CC.range 97 122]       -- [A-Za-z]
def wordc : CC := CC.union [letter, digit, CC.byte 95]              -- [A-Za-z0-9_]
def notNewline : CC := CC.compl (CC.byte 10)                        -- [^\n]
/-- `[-+*/(){},.;<>=^%:?[\]|]`, src/parser/flex_lexer.l:241 -/
def selfChars : Bytes := b!"-+*/(){},.;<>=^%:?[]|"
def selfc : CC := CC.union (selfChars.map CC.byte)

/-- The keyword rules, src/parser/flex_lexer.l:65-228 (rules 5-168 of the file, in order): spelling and token
code (`SQL_<name>` in src/parser/bison_parser.h). -/
def keywords : List (Bytes × Nat) := [
  (b!"ADD", 369),
  (b!"AFTER", 319),
  (b!"ALL", 370),
  (b!"ALTER", 320),
  (b!"ANALYZE", 271),
  (b!"AND", 371),
  (b!"ARRAY", 390),
  (b!"AS", 380),
  (b!"ASC", 372),
  (b!"BEFORE", 293),
  (b!"BEGIN", 410),
  (b!"BETWEEN", 272),
  (b!"BIGINT", 288),
  (b!"BOOLEAN", 408),
  (b!"BY", 381),
  (b!"CALL", 339),
  (b!"CASCADE", 273),
  (b!"CASE", 340),
  (b!"CAST", 303),
  (b!"CHAR", 341),
  (b!"COLUMN", 294),
  (b!"COLUMNS", 274),
  (b!"COMMIT", 411),
  (b!"CONTROL", 275),
  (b!"COPY", 342),
  (b!"CREATE", 295),
  (b!"CROSS", 321),
  (b!"DATE", 343),
  (b!"DATETIME", 344),
  (b!"DAY", 396),
  (b!"DAYS", 402),
  (b!"DEALLOCATE", 262),
  (b!"DECIMAL", 286),
  (b!"DEFAULT", 276),
  (b!"DELETE", 296),
  (b!"DELTA", 322),
  (b!"DESC", 345),
  (b!"DESCRIBE", 292),
  (b!"DIRECT", 297),
  (b!"DISTINCT", 267),
  (b!"DOUBLE", 298),
  (b!"DROP", 346),
  (b!"ELSE", 347),
  (b!"ENCODING", 279),
  (b!"END", 373),
  (b!"ESCAPE", 299),
  (b!"EXCEPT", 300),
  (b!"EXECUTE", 277),
  (b!"EXISTS", 301),
  (b!"EXPLAIN", 278),
  (b!"EXTRACT", 302),
  (b!"FALSE", 407),
  (b!"FILE", 348),
  (b!"FLOAT", 323),
  (b!"FOLLOWING", 421),
  (b!"FOR", 374),
  (b!"FOREIGN", 426),
  (b!"FORMAT", 304),
  (b!"FROM", 349),
  (b!"FULL", 350),
  (b!"GLOBAL", 305),
  (b!"GROUP", 324),
  (b!"GROUPS", 419),
  (b!"HASH", 351),
  (b!"HAVING", 306),
  (b!"HINT", 352),
  (b!"HOUR", 395),
  (b!"HOURS", 401),
  (b!"IF", 382),
  (b!"ILIKE", 392),
  (b!"IMPORT", 307),
  (b!"IN", 383),
  (b!"INDEX", 325),
  (b!"INNER", 326),
  (b!"INSERT", 308),
  (b!"INT", 375),
  (b!"INTEGER", 280),
  (b!"INTERSECT", 264),
  (b!"INTERVAL", 405),
  (b!"INTO", 353),
  (b!"IS", 384),
  (b!"ISNULL", 309),
  (b!"JOIN", 354),
  (b!"KEY", 427),
  (b!"LEFT", 355),
  (b!"LIKE", 356),
  (b!"LIMIT", 327),
  (b!"LOAD", 357),
  (b!"LOCAL", 328),
  (b!"LOCKED", 415),
  (b!"LONG", 358),
  (b!"MERGE", 329),
  (b!"MINUS", 330),
  (b!"MINUTE", 394),
  (b!"MINUTES", 400),
  (b!"MONTH", 397),
  (b!"MONTHS", 403),
  (b!"NATURAL", 281),
  (b!"NO", 389),
  (b!"NOT", 376),
  (b!"NOWAIT", 413),
  (b!"NULL", 359),
  (b!"NVARCHAR", 268),
  (b!"OF", 385),
  (b!"OFF", 377),
  (b!"OFFSET", 310),
  (b!"ON", 386),
  (b!"OR", 387),
  (b!"ORDER", 331),
  (b!"OUTER", 333),
  (b!"OVER", 332),
  (b!"PARAMETERS", 263),
  (b!"PARTITION", 360),
  (b!"PLAN", 361),
  (b!"PRECEDING", 422),
  (b!"PREPARE", 282),
  (b!"PRIMARY", 425),
  (b!"RANGE", 417),
  (b!"REAL", 285),
  (b!"REFERENCES", 428),
  (b!"RENAME", 311),
  (b!"RESTRICT", 269),
  (b!"RIGHT", 334),
  (b!"ROLLBACK", 412),
  (b!"ROWS", 418),
  (b!"SCHEMA", 312),
  (b!"SCHEMAS", 283),
  (b!"SECOND", 393),
  (b!"SECONDS", 399),
  (b!"SELECT", 313),
  (b!"SET", 378),
  (b!"SHARE", 416),
  (b!"SHOW", 362),
  (b!"SKIP", 414),
  (b!"SMALLINT", 287),
  (b!"SORTED", 314),
  (b!"SPATIAL", 289),
  (b!"TABLE", 335),
  (b!"TABLES", 315),
  (b!"TEMPORARY", 265),
  (b!"TEXT", 363),
  (b!"THEN", 364),
  (b!"TIME", 365),
  (b!"TIMESTAMP", 266),
  (b!"TO", 388),
  (b!"TOP", 379),
  (b!"TRANSACTION", 409),
  (b!"TRUE", 406),
  (b!"TRUNCATE", 270),
  (b!"UNBOUNDED", 420),
  (b!"UNION", 336),
  (b!"UNIQUE", 424),
  (b!"UNLOAD", 316),
  (b!"UPDATE", 317),
  (b!"USING", 337),
  (b!"VALUES", 318),
  (b!"VARCHAR", 290),
  (b!"VIEW", 366),
  (b!"VIRTUAL", 291),
  (b!"WHEN", 367),
  (b!"WHERE", 338),
  (b!"WITH", 368),
  (b!"YEAR", 398),
  (b!"YEARS", 404)]

/-- The rules before the keywords, src/parser/flex_lexer.l:59-63. -/
def rulesPre : List LexRule := [
  ⟨none, lit b!"--"⟩,                                        -- 1  --
  ⟨some .comment, [many notNewline]⟩,                        -- 2  <COMMENT>[^\n]*
  ⟨some .comment, [one (CC.byte 10)]⟩,                       -- 3  <COMMENT>\n
  ⟨none, [one blank, many blank]⟩]                           -- 4  [ \t\n]+

/-- The rules after the keywords, src/parser/flex_lexer.l:230-286. -/
def rulesPost : List LexRule := [
  ⟨none, lit b!"CURRENT" ++ [one blank, many blank] ++ lit b!"ROW"⟩,        -- 169
  ⟨none, lit b!"CHARACTER" ++ [one blank, many blank] ++ lit b!"VARYING"⟩,  -- 170
  ⟨none, lit b!"=="⟩,                                        -- 171
  ⟨none, lit b!"!="⟩,                                        -- 172
  ⟨none, lit b!"<>"⟩,                                        -- 173
  ⟨none, lit b!"<="⟩,                                        -- 174
  ⟨none, lit b!">="⟩,                                        -- 175
  ⟨none, lit b!"||"⟩,                                        -- 176
  ⟨none, [one selfc]⟩,                                       -- 177 single characters
  ⟨none, [one digit, many digit, one (CC.byte 46), many digit]⟩,  -- 178 [0-9]+"."[0-9]*
  ⟨none, [one (CC.byte 46), many digit]⟩,                    -- 179 "."[0-9]*
  ⟨none, lit b!"-9223372036854775808"⟩,                      -- 180
  ⟨none, [one digit, many digit]⟩,                           -- 181 [0-9]+
  ⟨none, [one (CC.byte 34), one (CC.compl (CC.union [CC.byte 34, CC.byte 10])),
          many (CC.compl (CC.union [CC.byte 34, CC.byte 10])), one (CC.byte 34)]⟩, -- 182 \"[^\"\n]+\"
  ⟨none, [one letter, many wordc]⟩,                          -- 183 [A-Za-z][A-Za-z0-9_]*
  ⟨none, [one (CC.byte 39)]⟩,                                -- 184 \'
  ⟨some .squote, [one (CC.byte 39), one (CC.byte 39)]⟩,      -- 185 <singlequotedstring>\'\'
  ⟨some .squote, [many (CC.compl (CC.byte 39))]⟩,            -- 186 <singlequotedstring>[^']*
  ⟨some .squote, [one (CC.byte 39)]⟩,                        -- 187 <singlequotedstring>\'
  ⟨none, [one notNewline]⟩]                                  -- 188 .

/-- All rules, in file order; rule number `n` of flex is entry `n-1`. -/
def lexRules : List LexRule :=
  rulesPre ++ keywords.map (fun k => ⟨none, lit k.1⟩) ++ rulesPost

/-- Rule number `r` (1-based) is active in `sc` and matches the text `w`. -/
def RuleMatches (sc : SC) (r : Nat) (w : Bytes) : Prop :=
  ∃ rule, lexRules[r - 1]? = some rule ∧ 1 ≤ r ∧ rule.active sc = true ∧ Matches rule.pat w

/-- The first `n` bytes of `text` are the longest prefix matched by an active rule, and `r` is the
first rule that matches them. -/
structure LongestMatch (sc : SC) (text : Bytes) (r n : Nat) : Prop where
  le : n ≤ text.length
  isMatch : RuleMatches sc r (text.take n)
  longest : ∀ r' n', n' ≤ text.length → RuleMatches sc r' (text.take n') → n' ≤ n
  first : ∀ r', RuleMatches sc r' (text.take n) → r ≤ r'

end Verif.Lex
