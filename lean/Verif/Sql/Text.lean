import Verif.Sql.Word
import Verif.Lex.Hand
/-!
# Texts (specification)

How words are written as bytes, independently of the scanner.
-/
namespace Verif.Sql
open Verif.Lex Verif.LR

/-- The keywords of the grammar. -/
def kwTexts : List (Nat × Bytes) := [
  (T.ALL, b!"ALL"), (T.ALTER, b!"ALTER"), (T.AND, b!"AND"), (T.ARRAY, b!"ARRAY"), (T.AS, b!"AS"), (T.ASC, b!"ASC"), (T.BEGIN, b!"BEGIN"), (T.BETWEEN, b!"BETWEEN"),
  (T.BIGINT, b!"BIGINT"), (T.BOOLEAN, b!"BOOLEAN"), (T.BY, b!"BY"), (T.CASE, b!"CASE"), (T.CAST, b!"CAST"), (T.CHAR, b!"CHAR"), (T.COLUMN, b!"COLUMN"),
  (T.COLUMNS, b!"COLUMNS"), (T.COMMIT, b!"COMMIT"), (T.COPY, b!"COPY"), (T.CREATE, b!"CREATE"), (T.CROSS, b!"CROSS"), (T.DATE, b!"DATE"),
  (T.DATETIME, b!"DATETIME"), (T.DAY, b!"DAY"), (T.DAYS, b!"DAYS"), (T.DEALLOCATE, b!"DEALLOCATE"), (T.DECIMAL, b!"DECIMAL"), (T.DELETE, b!"DELETE"),
  (T.DESC, b!"DESC"), (T.DESCRIBE, b!"DESCRIBE"), (T.DISTINCT, b!"DISTINCT"), (T.DOUBLE, b!"DOUBLE"), (T.DROP, b!"DROP"), (T.ELSE, b!"ELSE"),
  (T.ENCODING, b!"ENCODING"), (T.END, b!"END"), (T.EXCEPT, b!"EXCEPT"), (T.EXECUTE, b!"EXECUTE"), (T.EXISTS, b!"EXISTS"), (T.EXTRACT, b!"EXTRACT"),
  (T.FALSE, b!"FALSE"), (T.FILE, b!"FILE"), (T.FLOAT, b!"FLOAT"), (T.FOLLOWING, b!"FOLLOWING"), (T.FOR, b!"FOR"), (T.FOREIGN, b!"FOREIGN"), (T.FORMAT, b!"FORMAT"),
  (T.FROM, b!"FROM"), (T.FULL, b!"FULL"), (T.GROUP, b!"GROUP"), (T.GROUPS, b!"GROUPS"), (T.HAVING, b!"HAVING"), (T.HINT, b!"HINT"), (T.HOUR, b!"HOUR"),
  (T.HOURS, b!"HOURS"), (T.IF, b!"IF"), (T.ILIKE, b!"ILIKE"), (T.IMPORT, b!"IMPORT"), (T.IN, b!"IN"), (T.INDEX, b!"INDEX"), (T.INNER, b!"INNER"),
  (T.INSERT, b!"INSERT"), (T.INT, b!"INT"), (T.INTEGER, b!"INTEGER"), (T.INTERSECT, b!"INTERSECT"), (T.INTERVAL, b!"INTERVAL"), (T.INTO, b!"INTO"), (T.IS, b!"IS"),
  (T.ISNULL, b!"ISNULL"), (T.JOIN, b!"JOIN"), (T.KEY, b!"KEY"), (T.LEFT, b!"LEFT"), (T.LIKE, b!"LIKE"), (T.LIMIT, b!"LIMIT"), (T.LOCKED, b!"LOCKED"),
  (T.LONG, b!"LONG"), (T.MINUTE, b!"MINUTE"), (T.MINUTES, b!"MINUTES"), (T.MONTH, b!"MONTH"), (T.MONTHS, b!"MONTHS"), (T.NATURAL, b!"NATURAL"), (T.NO, b!"NO"),
  (T.NOT, b!"NOT"), (T.NOWAIT, b!"NOWAIT"), (T.NULL, b!"NULL"), (T.OF, b!"OF"), (T.OFFSET, b!"OFFSET"), (T.ON, b!"ON"), (T.OR, b!"OR"), (T.ORDER, b!"ORDER"),
  (T.OUTER, b!"OUTER"), (T.OVER, b!"OVER"), (T.PARTITION, b!"PARTITION"), (T.PRECEDING, b!"PRECEDING"), (T.PREPARE, b!"PREPARE"), (T.PRIMARY, b!"PRIMARY"),
  (T.RANGE, b!"RANGE"), (T.REAL, b!"REAL"), (T.REFERENCES, b!"REFERENCES"), (T.RIGHT, b!"RIGHT"), (T.ROLLBACK, b!"ROLLBACK"), (T.ROWS, b!"ROWS"),
  (T.SECOND, b!"SECOND"), (T.SECONDS, b!"SECONDS"), (T.SELECT, b!"SELECT"), (T.SET, b!"SET"), (T.SHARE, b!"SHARE"), (T.SHOW, b!"SHOW"), (T.SKIP, b!"SKIP"),
  (T.SMALLINT, b!"SMALLINT"), (T.TABLE, b!"TABLE"), (T.TABLES, b!"TABLES"), (T.TEXT, b!"TEXT"), (T.THEN, b!"THEN"), (T.TIME, b!"TIME"),
  (T.TIMESTAMP, b!"TIMESTAMP"), (T.TO, b!"TO"), (T.TOP, b!"TOP"), (T.TRANSACTION, b!"TRANSACTION"), (T.TRUE, b!"TRUE"), (T.TRUNCATE, b!"TRUNCATE"),
  (T.UNBOUNDED, b!"UNBOUNDED"), (T.UNION, b!"UNION"), (T.UNIQUE, b!"UNIQUE"), (T.UPDATE, b!"UPDATE"), (T.USING, b!"USING"), (T.VALUES, b!"VALUES"),
  (T.VARCHAR, b!"VARCHAR"), (T.VIEW, b!"VIEW"), (T.WHEN, b!"WHEN"), (T.WHERE, b!"WHERE"), (T.WITH, b!"WITH"), (T.YEAR, b!"YEAR"), (T.YEARS, b!"YEARS")]

/-- Punctuation marks and operators that are not the beginning of anything longer. -/
def punctTexts : List (Nat × Bytes) := [(T.LPAREN, b!"("), (T.RPAREN, b!")"), (T.LBRACKET, b!"["), (T.RBRACKET, b!"]"), (T.COMMA, b!","), (T.SEMI, b!";"), (T.STAR, b!"*"),
  (T.PLUS, b!"+"), (T.SLASH, b!"/"), (T.PERCENT, b!"%"), (T.CARET, b!"^"), (T.EQUALS, b!"=="), (T.NOTEQUALS, b!"<>"), (T.NOTEQUALS, b!"!="), (T.LESSEQ, b!"<="),
  (T.GREATEREQ, b!">="), (T.CONCAT, b!"||")]

/-- What follows does not begin with a byte of the class. -/
def Stops (p : Nat → Bool) (y : Bytes) : Prop := ∀ c, y.head? = some c → p c = false

/-- The contents of a string literal: quotes are doubled. -/
def double : Bytes → Bytes
  | [] => []
  | b :: bs => if b = 39 then 39 :: 39 :: double bs else b :: double bs

/-- `Writes w x y`: the bytes `x`, with `y` after them, are a way to write the word `w`. -/
inductive Writes : Word → Bytes → Bytes → Prop where
  /-- a keyword in upper, lower or mixed case -/
  | keyword {a : Nat} {k x y : Bytes} : (a, k) ∈ kwTexts → upper x = k → Stops isWordc y → Writes (.kw a) x y
  | currentRow {c b r y : Bytes} : upper c = b!"CURRENT" → b ≠ [] → (∀ z ∈ b, isBlank z = true) → upper r = b!"ROW" → Stops isWordc y → Writes (.kw T.CURRENT_ROW) (c ++ b ++ r) y
  | characterVarying {c b r y : Bytes} : upper c = b!"CHARACTER" → b ≠ [] → (∀ z ∈ b, isBlank z = true) → upper r = b!"VARYING" → Stops isWordc y →
      Writes (.kw T.CHARACTER_VARYING) (c ++ b ++ r) y
  | punct {a : Nat} {x y : Bytes} : (a, x) ∈ punctTexts → Writes (.kw a) x y
  | eq {y : Bytes} : Stops (· == 61) y → Writes (.kw T.EQ) b!"=" y
  | lt {y : Bytes} : Stops (fun c => c == 61 || c == 62) y → Writes (.kw T.LT) b!"<" y
  | gt {y : Bytes} : Stops (· == 61) y → Writes (.kw T.GT) b!">" y
  /-- not the beginning of a comment, nor of the literal `-9223372036854775808` -/
  | minus {y : Bytes} : Stops (· == 45) y → ¬ b!"9223372036854775808" <+: y → Writes (.kw T.HYPHEN) b!"-" y
  | dot {y : Bytes} : Stops isDigit y → Writes (.kw T.DOT) b!"." y
  | param {k : Nat} {y : Bytes} : Writes (.par k) b!"?" y
  /-- an identifier: a letter followed by letters, digits and underscores, but not a keyword (nor the first half of one) -/
  | ident {b : Nat} {x y : Bytes} : isLetter b = true → (∀ z ∈ x, isWordc z = true) → (∀ k ∈ keywords, upper (b :: x) ≠ k.1) → upper (b :: x) ≠ b!"CURRENT" →
      upper (b :: x) ≠ b!"CHARACTER" → Stops isWordc y → Writes (.id (b :: x)) (b :: x) y
  /-- an identifier in quotes -/
  | quoted {x y : Bytes} : x ≠ [] → (∀ z ∈ x, z ≠ 34 ∧ z ≠ 10) → Writes (.id x) (34 :: (x ++ [34])) y
  | string {x y : Bytes} : Stops (· == 39) y → Writes (.str x) (39 :: (double x ++ [39])) y
  /-- an integer in decimal, without leading zeros -/
  | int {d y : Bytes} : d ≠ [] → (∀ z ∈ d, isDigit z = true) → (d.head? = some 48 → d = [48]) → decVal d < 2 ^ 63 → Stops (fun c => isDigit c || c == 46) y →
      Writes (.int (decVal d)) d y
  | minInt {y : Bytes} : Writes (.int (-9223372036854775808)) b!"-9223372036854775808" y
  | float {d f y : Bytes} : d ≠ [] → (∀ z ∈ d, isDigit z = true) → (∀ z ∈ f, isDigit z = true) → Stops isDigit y → Writes (.flt (d ++ 46 :: f)) (d ++ 46 :: f) y
  | dotFloat {f y : Bytes} : f ≠ [] → (∀ z ∈ f, isDigit z = true) → Stops isDigit y → Writes (.flt (46 :: f)) (46 :: f) y

/-- The bytes are the words one after the other, with blanks (spaces, tabs, newlines) before, between and after them. -/
inductive Text : List Word → Bytes → Prop where
  | nil {b : Bytes} : (∀ z ∈ b, isBlank z = true) → Text [] b
  | cons {w : Word} {ws : List Word} {b x y : Bytes} : (∀ z ∈ b, isBlank z = true) → Writes w x y → Text ws y → Text (w :: ws) (b ++ (x ++ y))

end Verif.Sql
