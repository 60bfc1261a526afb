import Verif.Sql.Word
import Verif.Sql.Temporal
import Verif.Sem.Makers
/-!
# Abstract SQL (specification)

The statements of the supported language as data, without reference to the grammar, and how each is written down as a sequence of words (`words`).
Expressions carry no parentheses: `words` puts them exactly where the precedences (bison_parser.y:317-336) demand them.
-/
namespace Verif.Sql
open Verif.Lex Verif.LR Verif.Sem

abbrev Name := Bytes
/-- A keyword, operator or punctuation mark; an identifier. -/
abbrev kw (a : Nat) : List Word := [.kw a]
abbrev nm (b : Name) : List Word := [.id b]

/-- A list of names with commas; never empty. -/
inductive Names where
  | one (n : Name)
  | snoc (l : Names) (n : Name)
def Names.words : Names → List Word
  | .one n => nm n
  | .snoc l n => cat [l.words, kw T.COMMA, nm n]

/-- `name` or `schema.name`. -/
structure TName where
  schema : Option Name
  name : Name
def TName.words : TName → List Word
  | ⟨none, n⟩ => nm n
  | ⟨some s, n⟩ => cat [nm s, kw T.DOT, nm n]

/-! ## Literals and types -/

inductive Field where | second | minute | hour | day | month | year
def Field.kw : Field → Nat
  | .second => T.SECOND | .minute => T.MINUTE | .hour => T.HOUR | .day => T.DAY | .month => T.MONTH | .year => T.YEAR
def Field.kws : Field → Nat
  | .second => T.SECONDS | .minute => T.MINUTES | .hour => T.HOURS | .day => T.DAYS | .month => T.MONTHS | .year => T.YEARS
def Field.name : Field → Bytes
  | .second => b!"second" | .minute => b!"minute" | .hour => b!"hour" | .day => b!"day" | .month => b!"month" | .year => b!"year"

/-- `n unit`, `n units`, `INTERVAL 'n' unit`, `INTERVAL 'n unit'`. -/
inductive Interval where
  | short (n : Int) (f : Field) (plural : Bool)
  | str (s : Bytes) (n : Int) (f : Field) (ok : NumberText none n s ∧ FitsInt n)
  | strUnit (s : Bytes) (n : Int) (u : Bytes) (f : Field) (ok : UnitText s n u ∧ FitsInt n) (unit : eqNoCase u f.name = true ∨ eqNoCase u (f.name ++ b!"s") = true)
def Interval.words : Interval → List Word
  | .short n f false => cat [[.int n], Sql.kw f.kw]
  | .short n f true => cat [[.int n], Sql.kw f.kws]
  | .str s _ f _ => cat [Sql.kw T.INTERVAL, [.str s], Sql.kw f.kw]
  | .strUnit s _ _ _ _ _ => cat [Sql.kw T.INTERVAL, [.str s]]

inductive Num where
  | int (n : Int)
  | float (b : Bytes)
def Num.words : Num → List Word
  | .int n => [.int n]
  | .float b => [.flt b]

inductive Lit where
  | str (b : Bytes)
  | bool (b : Bool)
  | num (n : Num)
  | null
  | date (b : Bytes) (ok : DateText b)
  | interval (i : Interval)
def Lit.words : Lit → List Word
  | .str b => [.str b]
  | .bool true => kw T.TRUE
  | .bool false => kw T.FALSE
  | .num n => n.words
  | .null => kw T.NULL
  | .date b _ => cat [kw T.DATE, [.str b]]
  | .interval i => i.words

/-- The types without arguments. -/
inductive SimpleType where
  | bigint | boolean | date | datetime | double | float | int | integer | long | real | smallint | text | timestamp
def SimpleType.kw : SimpleType → Nat
  | .bigint => T.BIGINT | .boolean => T.BOOLEAN | .date => T.DATE | .datetime => T.DATETIME | .double => T.DOUBLE | .float => T.FLOAT | .int => T.INT
  | .integer => T.INTEGER | .long => T.LONG | .real => T.REAL | .smallint => T.SMALLINT | .text => T.TEXT | .timestamp => T.TIMESTAMP

inductive ColType where
  | simple (t : SimpleType)
  | char (n : Int)
  | varchar (n : Int)
  | characterVarying (n : Int)
  | decimal
  | decimal1 (p : Int)
  | decimal2 (p s : Int)
  | time
  | time1 (p : Int)
def ColType.words : ColType → List Word
  | .simple t => Sql.kw t.kw
  | .char n => cat [kw T.CHAR, kw T.LPAREN, [.int n], kw T.RPAREN]
  | .varchar n => cat [kw T.VARCHAR, kw T.LPAREN, [.int n], kw T.RPAREN]
  | .characterVarying n => cat [kw T.CHARACTER_VARYING, kw T.LPAREN, [.int n], kw T.RPAREN]
  | .decimal => kw T.DECIMAL
  | .decimal1 p => cat [kw T.DECIMAL, kw T.LPAREN, [.int p], kw T.RPAREN]
  | .decimal2 p s => cat [kw T.DECIMAL, kw T.LPAREN, [.int p], kw T.COMMA, [.int s], kw T.RPAREN]
  | .time => kw T.TIME
  | .time1 p => cat [kw T.TIME, kw T.LPAREN, [.int p], kw T.RPAREN]

/-! ## Small parts of queries -/

/-- No alias, `AS n`, `n`. -/
inductive Alias where
  | none
  | as (n : Name)
  | bare (n : Name)
def Alias.words : Alias → List Word
  | .none => []
  | .as n => cat [kw T.AS, nm n]
  | .bare n => nm n

inductive TAlias where
  | plain (a : Alias)
  | cols (n : Name) (l : Names)
def TAlias.words : TAlias → List Word
  | .plain a => a.words
  | .cols n l => cat [kw T.AS, nm n, kw T.LPAREN, l.words, kw T.RPAREN]

inductive Dir where | none | asc | desc
def Dir.words : Dir → List Word
  | .none => []
  | .asc => kw T.ASC
  | .desc => kw T.DESC

/-- `NULLS FIRST`, `NULLS LAST`: two identifiers, read without regard to case. -/
inductive Nulls where
  | none
  | first (a b : Name) (oka : eqNoCase a b!"nulls" = true) (okb : eqNoCase b b!"first" = true)
  | last (a b : Name) (oka : eqNoCase a b!"nulls" = true) (okb : eqNoCase b b!"last" = true)
def Nulls.words : Nulls → List Word
  | .none => []
  | .first a b _ _ => cat [nm a, nm b]
  | .last a b _ _ => cat [nm a, nm b]

inductive FrameType where | range | rows | groups
def FrameType.kw : FrameType → Nat
  | .range => T.RANGE | .rows => T.ROWS | .groups => T.GROUPS

inductive Bound where
  | unboundedPreceding
  | preceding (n : Int)
  | unboundedFollowing
  | following (n : Int)
  | currentRow
def Bound.words : Bound → List Word
  | .unboundedPreceding => cat [kw T.UNBOUNDED, kw T.PRECEDING]
  | .preceding n => cat [[.int n], kw T.PRECEDING]
  | .unboundedFollowing => cat [kw T.UNBOUNDED, kw T.FOLLOWING]
  | .following n => cat [[.int n], kw T.FOLLOWING]
  | .currentRow => kw T.CURRENT_ROW

inductive Frame where
  | none
  | start (t : FrameType) (b : Bound)
  | between (t : FrameType) (b e : Bound)
def Frame.words : Frame → List Word
  | .none => []
  | .start t b => cat [Sql.kw t.kw, b.words]
  | .between t b e => cat [Sql.kw t.kw, kw T.BETWEEN, b.words, kw T.AND, e.words]

inductive SetType where | union | intersect | except
def SetType.kw : SetType → Nat
  | .union => T.UNION | .intersect => T.INTERSECT | .except => T.EXCEPT
structure SetOp where
  type : SetType
  all : Bool
def SetOp.words : SetOp → List Word
  | ⟨t, false⟩ => Sql.kw t.kw
  | ⟨t, true⟩ => cat [Sql.kw t.kw, kw T.ALL]

inductive LockMode where | update | noKeyUpdate | share | keyShare
def LockMode.words : LockMode → List Word
  | .update => kw T.UPDATE
  | .noKeyUpdate => cat [kw T.NO, kw T.KEY, kw T.UPDATE]
  | .share => kw T.SHARE
  | .keyShare => cat [kw T.KEY, kw T.SHARE]
inductive LockWait where | none | skipLocked | nowait
def LockWait.words : LockWait → List Word
  | .none => []
  | .skipLocked => cat [kw T.SKIP, kw T.LOCKED]
  | .nowait => kw T.NOWAIT
structure Lock where
  mode : LockMode
  tables : Option Names
  wait : LockWait
def Lock.words : Lock → List Word
  | ⟨m, none, w⟩ => cat [kw T.FOR, m.words, w.words]
  | ⟨m, some l, w⟩ => cat [kw T.FOR, m.words, kw T.OF, l.words, w.words]
inductive LockList where
  | one (k : Lock)
  | snoc (l : LockList) (k : Lock)
def LockList.words : LockList → List Word
  | .one k => k.words
  | .snoc l k => cat [l.words, k.words]
inductive Locks where
  | none
  | some (l : LockList)
def Locks.words : Locks → List Word
  | .none => []
  | .some l => l.words

inductive JoinType where
  | none | inner | left (outer : Bool) | right (outer : Bool) | full (outer : Bool) | outer | cross
def JoinType.words : JoinType → List Word
  | .none => []
  | .inner => kw T.INNER
  | .left false => kw T.LEFT
  | .left true => cat [kw T.LEFT, kw T.OUTER]
  | .right false => kw T.RIGHT
  | .right true => cat [kw T.RIGHT, kw T.OUTER]
  | .full false => kw T.FULL
  | .full true => cat [kw T.FULL, kw T.OUTER]
  | .outer => kw T.OUTER
  | .cross => kw T.CROSS

/-! ## Operators -/

/-- The binary operators between operands; `eq2` is `==`. -/
inductive BinOp where
  | minus | plus | slash | star | percent | caret | like | notLike | ilike | concat | eq | eq2 | ne | lt | gt | le | ge
def BinOp.words : BinOp → List Word
  | .minus => kw T.HYPHEN | .plus => kw T.PLUS | .slash => kw T.SLASH | .star => kw T.STAR | .percent => kw T.PERCENT | .caret => kw T.CARET
  | .like => kw T.LIKE | .notLike => cat [kw T.NOT, kw T.LIKE] | .ilike => kw T.ILIKE | .concat => kw T.CONCAT | .eq => kw T.EQ | .eq2 => kw T.EQUALS
  | .ne => kw T.NOTEQUALS | .lt => kw T.LT | .gt => kw T.GT | .le => kw T.LESSEQ | .ge => kw T.GREATEREQ
inductive LogOp where | and | or
def LogOp.kw : LogOp → Nat
  | .and => T.AND | .or => T.OR

/-- The level of an operator in the precedence table, counted from the loosest (`OR`: 0) to the tightest. -/
def BinOp.level : BinOp → Nat
  | .like | .notLike | .ilike | .eq | .eq2 | .ne => 3
  | .lt | .gt | .le | .ge => 4
  | .plus | .minus => 8
  | .star | .slash | .percent => 9
  | .caret => 10
  | .concat => 11
/-- The level of its first token. -/
def BinOp.tokLevel : BinOp → Nat
  | .notLike => 2
  | o => o.level
def LogOp.level : LogOp → Nat
  | .or => 0
  | .and => 1
/-- No operator on this edge. -/
abbrev closed : Nat := 100
/-- The levels declared with `%left`, `%right`; the others are `%nonassoc`. -/
def leftAssoc (p : Nat) : Bool := [0, 1, 8, 9, 10, 11, 13].contains p
def rightAssoc (p : Nat) : Bool := p == 2
/-- An expression on whose right edge stands an operator of level `m` may be the left operand of an operator of level `p`. -/
def tightL (p m : Nat) : Bool := decide (p < m) || (p == m && leftAssoc p)
/-- An expression on whose left edge stands an operator of level `m` may be the right operand of an operator of level `p`. -/
def tightR (p m : Nat) : Bool := decide (p < m) || (p == m && rightAssoc p)

/-! ## Expressions and queries -/

mutual
inductive Expr where
  | lit (l : Lit)
  | param (k : Nat)
  | col (t : Option Name) (n : Name)
  | star (t : Option Name)
  /-- superfluous parentheses -/
  | paren (e : Expr)
  | query (s : Sel)
  | neg (e : Expr)
  | not (e : Expr)
  /-- `e ISNULL` or `e IS NULL` -/
  | isNull (short : Bool) (e : Expr)
  | isNotNull (e : Expr)
  | bin (o : BinOp) (a b : Expr)
  | logic (o : LogOp) (a b : Expr)
  | inList (no : Bool) (e : Expr) (l : Items)
  | inQuery (no : Bool) (e : Expr) (s : Sel)
  | between (e lo hi : Expr)
  | exist (no : Bool) (s : Sel)
  | case (x : OExpr) (l : Whens) (e : OExpr)
  | call (schema : Option Name) (f : Name) (a : Args) (w : Window)
  | extract (f : Field) (e : Expr)
  | cast (e : Expr) (t : ColType)
  | array (l : Items)
  | index (e : Expr) (n : Int)
/-- An optional expression. -/
inductive OExpr where
  | none
  | some (e : Expr)
/-- Expressions with aliases, with commas; never empty. -/
inductive Items where
  | one (e : Expr) (a : Alias)
  | snoc (l : Items) (e : Expr) (a : Alias)
/-- `WHEN w THEN t ...`; never empty. -/
inductive Whens where
  | one (w t : Expr)
  | snoc (l : Whens) (w t : Expr)
/-- The arguments of a function. -/
inductive Args where
  | none
  | some (distinct : Bool) (l : Items)
/-- `OVER (PARTITION BY ... ORDER BY ... frame)` -/
inductive Window where
  | none
  | over (p : Partition) (o : Order) (f : Frame)
inductive Partition where
  | none
  | by (l : Items)
inductive Order where
  | none
  | by (l : Orders)
inductive Orders where
  | one (e : Expr) (d : Dir) (n : Nulls)
  | snoc (l : Orders) (e : Expr) (d : Dir) (n : Nulls)
/-- A query without outer parentheses. -/
inductive Sel where
  | plain (c : Clause) (o : Order) (l : Limit) (k : Locks)
  | set (c : Clause) (op : SetOp) (r : Within) (o : Order) (l : Limit) (k : Locks)
/-- A query in parentheses. -/
inductive PSel where
  | one (s : Sel)
  | more (s : PSel)
/-- The right operand of a set operation. -/
inductive Within where
  | paren (s : PSel)
  | clause (c : Clause)
  | set (c : Clause) (op : SetOp) (r : Within)
/-- `SELECT TOP n DISTINCT items FROM tables WHERE condition GROUP BY ...` -/
inductive Clause where
  | mk (top : Option Int) (distinct : Bool) (l : Items) (f : From) (w : OExpr) (g : Group)
inductive Group where
  | none
  | by (l : Items) (having : OExpr)
inductive Limit where
  | none
  | limit (e : Expr)
  | offset (e : Expr)
  | both (l o : Expr)
  | all
  | allOffset (o : Expr)
inductive From where
  | none
  | one (t : Table)
  | many (l : Tables) (t : Table)
inductive Tables where
  | one (t : Table)
  | snoc (l : Tables) (t : Table)
/-- A table that is not a join. -/
inductive TableN where
  | name (t : TName) (a : TAlias)
  | query (s : Query) (a : TAlias)
inductive Table where
  | base (t : TableN)
  | natural (l : Table) (r : TableN)
  | on (l : Table) (j : JoinType) (r : Table) (c : Expr)
  | using (l : Table) (j : JoinType) (r : Table) (cols : Names)
/-- A query as a statement: with a `WITH` clause, or a set operation whose first operand is in parentheses. -/
inductive Query where
  | paren (w : With) (s : PSel)
  | plain (w : With) (s : Sel)
  | set (w : With) (s : PSel) (op : SetOp) (r : Within) (o : Order) (l : Limit)
inductive With where
  | none
  | some (l : Withs)
inductive Withs where
  | one (n : Name) (s : PSel)
  | snoc (l : Withs) (n : Name) (s : PSel)
end

/-- Expressions that may be operands without parentheses. -/
def Expr.isOpnd : Expr → Bool
  | .logic .. | .inList .. | .inQuery .. | .between .. | .exist .. => false
  | _ => true

/-- The levels of the loosest operators on the left and the right edge of an expression. -/
def Expr.lev : Expr → Nat × Nat
  | .neg e => (closed, min 8 (bif e.isOpnd && tightR 8 e.lev.1 then e.lev.2 else closed))
  | .not e => (closed, min 2 (bif e.isOpnd && tightR 2 e.lev.1 then e.lev.2 else closed))
  | .isNull true e => (min 6 (bif e.isOpnd && tightL 6 e.lev.2 then e.lev.1 else closed), closed)
  | .isNull false e => (min 7 (bif e.isOpnd && tightL 7 e.lev.2 then e.lev.1 else closed), closed)
  | .isNotNull e => (min 7 (bif e.isOpnd && tightL 7 e.lev.2 then e.lev.1 else closed), closed)
  | .index e _ => (min 13 (bif e.isOpnd && tightL 13 e.lev.2 then e.lev.1 else closed), closed)
  | .bin o a b => (min o.tokLevel (bif a.isOpnd && tightL o.tokLevel a.lev.2 then a.lev.1 else closed),
                   min o.level (bif b.isOpnd && tightR o.level b.lev.1 then b.lev.2 else closed))
  | .logic o a b => (min o.level (bif tightL o.level a.lev.2 then a.lev.1 else closed), min o.level (bif tightR o.level b.lev.1 then b.lev.2 else closed))
  | .inList false e _ => (bif e.isOpnd then e.lev.1 else closed, closed)
  | .inList true e _ => (min 2 (bif e.isOpnd && tightL 2 e.lev.2 then e.lev.1 else closed), closed)
  | .inQuery false e _ => (bif e.isOpnd then e.lev.1 else closed, closed)
  | .inQuery true e _ => (min 2 (bif e.isOpnd && tightL 2 e.lev.2 then e.lev.1 else closed), closed)
  | .between e _ hi => (bif e.isOpnd then e.lev.1 else closed, bif hi.isOpnd then hi.lev.2 else closed)
  | _ => (closed, closed)

/-- The left, the right operand of an operator of level `p` needs no parentheses. -/
def Expr.fitL (p : Nat) (e : Expr) : Bool := e.isOpnd && tightL p e.lev.2
def Expr.fitR (p : Nat) (e : Expr) : Bool := e.isOpnd && tightR p e.lev.1
/-- The same for `AND` and `OR`, which connect arbitrary expressions. -/
def Expr.fitLogL (p : Nat) (e : Expr) : Bool := tightL p e.lev.2
def Expr.fitLogR (p : Nat) (e : Expr) : Bool := tightR p e.lev.1

/-- With parentheses unless `bare`. -/
def par (bare : Bool) (ws : List Word) : List Word := bif bare then ws else cat [kw T.LPAREN, ws, kw T.RPAREN]

/-- `NOT`, if `no`. -/
def notKw : Bool → List Word
  | false => []
  | true => kw T.NOT
def distinctKw : Bool → List Word
  | false => []
  | true => kw T.DISTINCT
def topWords : Option Int → List Word
  | none => []
  | some n => cat [kw T.TOP, [.int n]]

mutual
def Expr.words : Expr → List Word
  | .lit l => l.words
  | .param k => [.par k]
  | .col none n => nm n
  | .col (some t) n => cat [nm t, kw T.DOT, nm n]
  | .star none => kw T.STAR
  | .star (some t) => cat [nm t, kw T.DOT, kw T.STAR]
  | .paren e => cat [kw T.LPAREN, e.words, kw T.RPAREN]
  | .query s => cat [kw T.LPAREN, s.words, kw T.RPAREN]
  | .neg e => cat [kw T.HYPHEN, par (e.fitR 8) e.words]
  | .not e => cat [kw T.NOT, par (e.fitR 2) e.words]
  | .isNull true e => cat [par (e.fitL 6) e.words, kw T.ISNULL]
  | .isNull false e => cat [par (e.fitL 7) e.words, kw T.IS, kw T.NULL]
  | .isNotNull e => cat [par (e.fitL 7) e.words, kw T.IS, kw T.NOT, kw T.NULL]
  | .bin o a b => cat [par (a.fitL o.tokLevel) a.words, o.words, par (b.fitR o.level) b.words]
  | .logic o a b => cat [par (a.fitLogL o.level) a.words, Sql.kw o.kw, par (b.fitLogR o.level) b.words]
  | .inList false e l => cat [par e.isOpnd e.words, kw T.IN, kw T.LPAREN, l.words, kw T.RPAREN]
  | .inList true e l => cat [par (e.fitL 2) e.words, kw T.NOT, kw T.IN, kw T.LPAREN, l.words, kw T.RPAREN]
  | .inQuery false e s => cat [par e.isOpnd e.words, kw T.IN, kw T.LPAREN, s.words, kw T.RPAREN]
  | .inQuery true e s => cat [par (e.fitL 2) e.words, kw T.NOT, kw T.IN, kw T.LPAREN, s.words, kw T.RPAREN]
  | .between e lo hi => cat [par e.isOpnd e.words, kw T.BETWEEN, par lo.isOpnd lo.words, kw T.AND, par hi.isOpnd hi.words]
  | .exist false s => cat [kw T.EXISTS, kw T.LPAREN, s.words, kw T.RPAREN]
  | .exist true s => cat [kw T.NOT, kw T.EXISTS, kw T.LPAREN, s.words, kw T.RPAREN]
  | .case x l .none => cat [kw T.CASE, x.words, l.words, kw T.END]
  | .case x l (.some e) => cat [kw T.CASE, x.words, l.words, kw T.ELSE, e.words, kw T.END]
  | .call none f a w => cat [nm f, kw T.LPAREN, a.words, kw T.RPAREN, w.words]
  | .call (some s) f a w => cat [nm s, kw T.DOT, nm f, kw T.LPAREN, a.words, kw T.RPAREN, w.words]
  | .extract f e => cat [kw T.EXTRACT, kw T.LPAREN, Sql.kw f.kw, kw T.FROM, e.words, kw T.RPAREN]
  | .cast e t => cat [kw T.CAST, kw T.LPAREN, e.words, kw T.AS, t.words, kw T.RPAREN]
  | .array l => cat [kw T.ARRAY, kw T.LBRACKET, l.words, kw T.RBRACKET]
  | .index e n => cat [par (e.fitL 13) e.words, kw T.LBRACKET, [.int n], kw T.RBRACKET]
def OExpr.words : OExpr → List Word
  | .none => []
  | .some e => e.words
def Items.words : Items → List Word
  | .one e a => cat [e.words, a.words]
  | .snoc l e a => cat [l.words, kw T.COMMA, e.words, a.words]
def Whens.words : Whens → List Word
  | .one w t => cat [kw T.WHEN, w.words, kw T.THEN, t.words]
  | .snoc l w t => cat [l.words, kw T.WHEN, w.words, kw T.THEN, t.words]
def Args.words : Args → List Word
  | .none => []
  | .some d l => cat [distinctKw d, l.words]
def Window.words : Window → List Word
  | .none => []
  | .over p o f => cat [kw T.OVER, kw T.LPAREN, p.words, o.words, f.words, kw T.RPAREN]
def Partition.words : Partition → List Word
  | .none => []
  | .by l => cat [kw T.PARTITION, kw T.BY, l.words]
def Order.words : Order → List Word
  | .none => []
  | .by l => cat [kw T.ORDER, kw T.BY, l.words]
def Orders.words : Orders → List Word
  | .one e d n => cat [e.words, d.words, n.words]
  | .snoc l e d n => cat [l.words, kw T.COMMA, e.words, d.words, n.words]
def Sel.words : Sel → List Word
  | .plain c o l k => cat [c.words, o.words, l.words, k.words]
  | .set c op r o l k => cat [c.words, op.words, r.words, o.words, l.words, k.words]
def PSel.words : PSel → List Word
  | .one s => cat [kw T.LPAREN, s.words, kw T.RPAREN]
  | .more s => cat [kw T.LPAREN, s.words, kw T.RPAREN]
def Within.words : Within → List Word
  | .paren s => s.words
  | .clause c => c.words
  | .set c op r => cat [c.words, op.words, r.words]
def Clause.words : Clause → List Word
  | .mk t d l f w g => cat [kw T.SELECT, topWords t, distinctKw d, l.words, f.words, (match w with | .none => [] | .some e => cat [kw T.WHERE, e.words]), g.words]
def Group.words : Group → List Word
  | .none => []
  | .by l .none => cat [kw T.GROUP, kw T.BY, l.words]
  | .by l (.some e) => cat [kw T.GROUP, kw T.BY, l.words, kw T.HAVING, e.words]
def Limit.words : Limit → List Word
  | .none => []
  | .limit e => cat [kw T.LIMIT, e.words]
  | .offset e => cat [kw T.OFFSET, e.words]
  | .both l o => cat [kw T.LIMIT, l.words, kw T.OFFSET, o.words]
  | .all => cat [kw T.LIMIT, kw T.ALL]
  | .allOffset o => cat [kw T.LIMIT, kw T.ALL, kw T.OFFSET, o.words]
def From.words : From → List Word
  | .none => []
  | .one t => cat [kw T.FROM, t.words]
  | .many l t => cat [kw T.FROM, l.words, kw T.COMMA, t.words]
def Tables.words : Tables → List Word
  | .one t => t.words
  | .snoc l t => cat [l.words, kw T.COMMA, t.words]
def TableN.words : TableN → List Word
  | .name t a => cat [t.words, a.words]
  | .query s a => cat [kw T.LPAREN, s.words, kw T.RPAREN, a.words]
def Table.words : Table → List Word
  | .base t => t.words
  | .natural l r => cat [l.words, kw T.NATURAL, kw T.JOIN, r.words]
  | .on l j r c => cat [l.words, j.words, kw T.JOIN, r.words, kw T.ON, c.words]
  | .using l j r cols => cat [l.words, j.words, kw T.JOIN, r.words, kw T.USING, kw T.LPAREN, cols.words, kw T.RPAREN]
def Query.words : Query → List Word
  | .paren w s => cat [w.words, s.words]
  | .plain w s => cat [w.words, s.words]
  | .set w s op r o l => cat [w.words, s.words, op.words, r.words, o.words, l.words]
def With.words : With → List Word
  | .none => []
  | .some l => cat [kw T.WITH, l.words]
def Withs.words : Withs → List Word
  | .one n s => cat [nm n, kw T.AS, s.words]
  | .snoc l n s => cat [l.words, kw T.COMMA, nm n, kw T.AS, s.words]
end

end Verif.Sql
