import Verif.Sql.Stmt
import Verif.Api.Print
/-!
# What is printed for abstract SQL (specification)

The lines that `printStatementInfo` and its relatives (src/util/sqlhelper.h) show for a statement, as functions of the statement as it is written and of the indentation.
There are no objects, pointers or enumerators here.
-/
namespace Verif.Sql
open Verif.Print (Line)

/-- A line with a text, a number, a number in floating point. -/
abbrev ln (b : Bytes) (n : Nat) : List Line := [⟨n, .text b⟩]
abbrev lnInt (i : Int) (n : Nat) : List Line := [⟨n, .int i⟩]
abbrev lnFlt (b : Bytes) (n : Nat) : List Line := [⟨n, .flt b⟩]

def Names.show : Names → Nat → List Line
  | .one a, n => ln a n
  | .snoc l a, n => l.show n ++ ln a n

/-! ## Literals and types -/

def Field.text : Field → Bytes
  | .second => b!"SECOND" | .minute => b!"MINUTE" | .hour => b!"HOUR" | .day => b!"DAY" | .month => b!"MONTH" | .year => b!"YEAR"
/-- The number and the unit. -/
def Interval.amount : Interval → Int
  | .short i _ _ | .str _ i _ _ | .strUnit _ i _ _ _ _ => i
def Interval.unit : Interval → Field
  | .short _ f _ | .str _ _ f _ | .strUnit _ _ _ f _ _ => f
def Interval.show (i : Interval) (n : Nat) : List Line := ln b!"INTERVAL" n ++ lnInt i.amount (n + 1) ++ ln i.unit.text (n + 1)
def Num.show : Num → Nat → List Line
  | .int i, n => lnInt i n
  | .float b, n => lnFlt b n
/-- `TRUE` and `FALSE` are shown as 1 and 0, a date without `DATE`. -/
def Lit.show : Lit → Nat → List Line
  | .str b, n => ln b n
  | .bool true, n => lnInt 1 n
  | .bool false, n => lnInt 0 n
  | .num x, n => x.show n
  | .null, n => ln b!"NULL" n
  | .date b _, n => ln b n
  | .interval i, n => i.show n

def SimpleType.shown : SimpleType → Bytes
  | .bigint => b!"BIGINT" | .boolean => b!"BOOLEAN" | .date => b!"DATE" | .datetime => b!"DATETIME" | .double => b!"DOUBLE" | .float => b!"FLOAT" | .int => b!"INT"
  | .integer => b!"INT" | .long => b!"LONG" | .real => b!"REAL" | .smallint => b!"SMALLINT" | .text => b!"TEXT" | .timestamp => b!"DATETIME"
/-- The precision and the scale are not shown. -/
def ColType.text : ColType → Bytes
  | .simple t => t.shown
  | .char n => b!"CHAR(" ++ Print.showInt n ++ b!")"
  | .varchar n | .characterVarying n => b!"VARCHAR(" ++ Print.showInt n ++ b!")"
  | .decimal | .decimal1 _ | .decimal2 _ _ => b!"DECIMAL"
  | .time | .time1 _ => b!"TIME"

/-! ## Small parts of queries -/

def Alias.show : Alias → Nat → List Line
  | .none, _ => []
  | .as a, n | .bare a, n => ln b!"Alias" (n + 1) ++ ln a (n + 2)
def TAlias.show : TAlias → Nat → List Line
  | .plain a, n => a.show n
  | .cols a l, n => ln b!"Alias" (n + 1) ++ ln a (n + 2) ++ l.show (n + 3)

def Dir.show : Dir → Nat → List Line
  | .none, n | .asc, n => ln b!"ascending" n
  | .desc, n => ln b!"descending" n

def FrameType.text : FrameType → Bytes
  | .range => b!"RANGE" | .rows => b!"ROWS" | .groups => b!"GROUPS"
def Bound.text : Bound → Bytes
  | .unboundedPreceding => b!"UNBOUNDED PRECEDING"
  | .preceding n => Print.showInt n ++ b!" PRECEDING"
  | .unboundedFollowing => b!"UNBOUNDED FOLLOWING"
  | .following n => Print.showInt n ++ b!" FOLLOWING"
  | .currentRow => b!"CURRENT ROW"
/-- What is not written is the default. -/
def Frame.text : Frame → Bytes
  | .none => b!"RANGE BETWEEN UNBOUNDED PRECEDING AND CURRENT ROW"
  | .start t b => t.text ++ b!" BETWEEN " ++ b.text ++ b!" AND CURRENT ROW"
  | .between t b e => t.text ++ b!" BETWEEN " ++ b.text ++ b!" AND " ++ e.text

/-- `ALL` is not shown. -/
def SetOp.text (op : SetOp) : Bytes := match op.type with
  | .union => b!"Union:" | .intersect => b!"Intersect:" | .except => b!"Except:"

def LockMode.text : LockMode → Bytes
  | .update => b!"FOR UPDATE" | .noKeyUpdate => b!"FOR NO KEY UPDATE" | .share => b!"FOR SHARE" | .keyShare => b!"FOR KEY SHARE"
def LockWait.show : LockWait → Nat → List Line
  | .none, _ => []
  | .nowait, n => ln b!"Waiting policy: " n ++ ln b!"NOWAIT" (n + 1)
  | .skipLocked, n => ln b!"Waiting policy: " n ++ ln b!"SKIP LOCKED" (n + 1)
def Lock.show : Lock → Nat → List Line
  | ⟨m, none, w⟩, n => ln b!"Type" n ++ ln m.text (n + 1) ++ w.show n
  | ⟨m, some l, w⟩, n => ln b!"Type" n ++ ln m.text (n + 1) ++ (ln b!"Target tables:" n ++ l.show (n + 1)) ++ w.show n
def LockList.show : LockList → Nat → List Line
  | .one k, n => k.show n
  | .snoc l k, n => l.show n ++ k.show n
def Locks.show : Locks → Nat → List Line
  | .none, _ => []
  | .some l, n => ln b!"Lock Info:" n ++ l.show (n + 1)

/-- `==` is shown as `=`, `||` as `CONCAT`. -/
def BinOp.text : BinOp → Bytes
  | .minus => b!"-" | .plus => b!"+" | .slash => b!"/" | .star => b!"*" | .percent => b!"%" | .caret => b!"^" | .like => b!"LIKE" | .notLike => b!"NOT LIKE"
  | .ilike => b!"ILIKE" | .concat => b!"CONCAT" | .eq => b!"=" | .eq2 => b!"=" | .ne => b!"!=" | .lt => b!"<" | .gt => b!">" | .le => b!"<=" | .ge => b!">="
def LogOp.text : LogOp → Bytes
  | .and => b!"AND" | .or => b!"OR"

/-! ## Expressions and queries -/

/-- The parts of what is shown of a query, as functions of the indentation of the query. -/
structure Page where
  fields : Nat → List Line
  sources : Nat → List Line
  search : Nat → List Line
  group : Nat → List Line
  locks : Nat → List Line
  sets : Nat → List Line
  order : Nat → List Line
  limit : Nat → List Line
  offset : Nat → List Line
/-- A query: its parts in this order. -/
def Page.show (p : Page) (n : Nat) : List Line :=
  ln b!"SelectStatement" n ++ ln b!"Fields:" (n + 1) ++ p.fields (n + 2) ++ p.sources (n + 1) ++ p.search (n + 1) ++ p.group (n + 1) ++ p.locks (n + 1) ++ p.sets (n + 1) ++
  p.order (n + 1) ++ p.limit (n + 1) ++ p.offset (n + 1)

/-- Nothing. -/
abbrev silent (_ : Nat) : List Line := []
/-- A heading and, below it, what it is the heading of. -/
abbrev headed (h : Bytes) (x : Nat → List Line) (n : Nat) : List Line := ln h n ++ x (n + 1)
/-- The negation of what is shown by `x`, if `no`. -/
def shownNot (no : Bool) (x : Nat → List Line) : Nat → List Line := if no then headed b!"NOT" x else x

mutual
/-- An expression without its alias. -/
def Expr.show : Expr → Nat → List Line
  | .lit l, n => l.show n
  | .param k, n => lnInt k n
  | .col none c, n => ln c n
  | .col (some t) c, n => ln c n ++ ln b!"Table:" (n + 1) ++ ln t (n + 2)
  /- the table is not shown -/
  | .star _, n => ln b!"*" n
  | .paren e, n => e.show n
  | .query s, n => s.page.show n
  | .neg e, n => headed b!"-" e.show n
  | .not e, n => headed b!"NOT" e.show n
  | .isNull _ e, n => headed b!"IS NULL" e.show n
  | .isNotNull e, n => headed b!"NOT" (headed b!"IS NULL" e.show) n
  | .bin o a b, n => ln o.text n ++ a.show (n + 1) ++ b.show (n + 1)
  | .logic o a b, n => ln o.text n ++ a.show (n + 1) ++ b.show (n + 1)
  | .inList no e l, n => shownNot no (headed b!"IN" fun m => e.show m ++ l.show m) n
  /- the query is not shown -/
  | .inQuery no e _, n => shownNot no (headed b!"IN" e.show) n
  | .between e lo hi, n => headed b!"BETWEEN" (fun m => e.show m ++ lo.show m ++ hi.show m) n
  /- the query is not shown -/
  | .exist no _, n => shownNot no (ln b!"EXISTS") n
  /- with `ELSE`, the branches are not shown -/
  | .case x l .none, n => headed b!"CASE" (fun m => x.show m ++ l.show m) n
  | .case x _ (.some e), n => headed b!"CASE" (fun m => x.show m ++ e.show m) n
  /- the schema and `DISTINCT` are not shown -/
  | .call _ f a w, n => headed f (fun m => a.show m ++ w.show m) n
  | .extract f e, n => headed b!"EXTRACT" (fun m => ln f.text m ++ e.show m) n
  | .cast e t, n => headed b!"CAST" (fun m => ln t.text m ++ e.show m) n
  /- without a heading -/
  | .array l, n => l.show (n + 1)
  | .index e i, n => e.show (n + 1) ++ lnInt i n
def OExpr.show : OExpr → Nat → List Line
  | .none, _ => []
  | .some e, n => e.show n
def Items.show : Items → Nat → List Line
  | .one e a, n => e.show n ++ a.show n
  | .snoc l e a, n => l.show n ++ (e.show n ++ a.show n)
def Whens.show : Whens → Nat → List Line
  | .one w t, n => ln b!"CASE LIST ELEMENT" n ++ w.show (n + 1) ++ t.show (n + 1)
  | .snoc l w t, n => l.show n ++ (ln b!"CASE LIST ELEMENT" n ++ w.show (n + 1) ++ t.show (n + 1))
def Args.show : Args → Nat → List Line
  | .none, _ => []
  | .some _ l, n => l.show n
def Window.show : Window → Nat → List Line
  | .none, _ => []
  | .over p o f, n => headed b!"OVER" (fun m => p.show m ++ o.show b!"ORDER BY" m ++ ln f.text m) n
def Partition.show : Partition → Nat → List Line
  | .none, _ => []
  | .by l, n => headed b!"PARTITION BY" l.show n
/-- With a heading. -/
def Order.show : Order → Bytes → Nat → List Line
  | .none, _, _ => []
  | .by l, h, n => headed h l.show n
/-- `NULLS FIRST` and `NULLS LAST` are not shown. -/
def Orders.show : Orders → Nat → List Line
  | .one e d _, n => e.show n ++ d.show n
  | .snoc l e d _, n => l.show n ++ (e.show n ++ d.show n)
def Sel.page : Sel → Page
  | .plain c o l k =>
    { c.page with
      order := o.show b!"OrderBy:", locks := k.show,
      limit := (match l with | .none => c.page.limit | _ => l.showLimit b!"Limit:"),
      offset := (match l with | .none => c.page.offset | _ => l.showOffset b!"Offset:") }
  | .set c op r o l k =>
    { c.page with
      locks := k.show,
      sets := fun n => ln op.text n ++ r.page.show (n + 1) ++ o.show b!"SetResultOrderBy:" n ++ (l.showLimit b!"SetResultLimit:" n ++ l.showOffset b!"SetResultOffset:" n) }
def PSel.page : PSel → Page
  | .one s => s.page
  | .more s => s.page
def Within.page : Within → Page
  | .paren s => s.page
  | .clause c => c.page
  | .set c op r => { c.page with sets := fun n => ln op.text n ++ r.page.show (n + 1) }
/-- `TOP` is shown like `LIMIT`; `DISTINCT` is not shown. -/
def Clause.page : Clause → Page
  | .mk t _ l f w g =>
    { fields := l.show, sources := f.show, search := (match w with | .none => silent | .some e => headed b!"Search Conditions:" e.show), group := g.show,
      locks := silent, sets := silent, order := silent, limit := (match t with | none => silent | some i => headed b!"Limit:" (lnInt i)), offset := silent }
def Group.show : Group → Nat → List Line
  | .none, _ => []
  | .by l .none, n => headed b!"GroupBy:" l.show n
  | .by l (.some h), n => headed b!"GroupBy:" l.show n ++ headed b!"Having:" h.show n
/-- With a heading. `LIMIT ALL` is not shown. -/
def Limit.showLimit : Limit → Bytes → Nat → List Line
  | .limit e, h, n | .both e _, h, n => headed h e.show n
  | _, _, _ => []
def Limit.showOffset : Limit → Bytes → Nat → List Line
  | .offset e, h, n | .both _ e, h, n | .allOffset e, h, n => headed h e.show n
  | _, _, _ => []
def From.show : From → Nat → List Line
  | .none, _ => []
  | .one t, n => headed b!"Sources:" t.show n
  | .many l t, n => headed b!"Sources:" (fun m => l.show m ++ t.show m) n
def Tables.show : Tables → Nat → List Line
  | .one t, n => t.show n
  | .snoc l t, n => l.show n ++ t.show n
def TableN.show : TableN → Nat → List Line
  | .name ⟨none, t⟩ a, n => ln t n ++ a.show n
  | .name ⟨some s, t⟩ a, n => ln t n ++ headed b!"Schema" (ln s) (n + 1) ++ a.show n
  | .query q a, n => q.page.show n ++ a.show n
/-- The kind of join and the columns of `USING` are not shown. -/
def Table.show : Table → Nat → List Line
  | .base t, n => t.show n
  | .natural l r, n => ln b!"Join Table" n ++ headed b!"Left" l.show (n + 1) ++ headed b!"Right" r.show (n + 1) ++ ln b!"Join Condition" (n + 1)
  | .on l _ r c, n => ln b!"Join Table" n ++ headed b!"Left" l.show (n + 1) ++ headed b!"Right" r.show (n + 1) ++ headed b!"Join Condition" c.show (n + 1)
  | .using l _ r _, n => ln b!"Join Table" n ++ headed b!"Left" l.show (n + 1) ++ headed b!"Right" r.show (n + 1) ++ ln b!"Join Condition" (n + 1)
/-- `WITH` is not shown. -/
def Query.page : Query → Page
  | .paren _ s => s.page
  | .plain _ s => s.page
  | .set _ s op r o l =>
    { s.page with sets := fun n => s.page.sets n ++
        (ln op.text n ++ r.page.show (n + 1) ++ o.show b!"SetResultOrderBy:" n ++ (l.showLimit b!"SetResultLimit:" n ++ l.showOffset b!"SetResultOffset:" n)) }
end

/-! ## Statements -/

def Ext.show : Ext → Nat → List Line
  | .lit l, n => l.show n
  | .negNum x, n => headed b!"-" x.show n
  | .negInterval i, n => headed b!"-" i.show n
def XLit.show : XLit → Nat → List Line
  | .plain e, n => e.show n
  | .cast e t, n => headed b!"CAST" (fun m => ln t.text m ++ e.show m) n
def XLits.show : XLits → Nat → List Line
  | .one x, n => x.show n
  | .snoc l x, n => l.show n ++ x.show n
def colsShow : Option Names → Nat → List Line
  | none, _ => []
  | some l, n => headed b!"Columns" l.show n
def TxCmd.text : TxCmd → Bytes
  | .begin => b!"BEGIN" | .rollback => b!"ROLLBACK" | .commit => b!"COMMIT"

/-- Schemas, columns, constraints and the query of a `CREATE` are not shown; of the statements that are not listed, nothing is. -/
def Stmt.show : Stmt → List Line
  | .query q => q.page.show 0
  | .createFile _ t _ _ p => ln b!"CreateStatement" 0 ++ ln t.name 1 ++ ln p 1
  | .createTable _ t _ | .createAs _ t _ | .createIndex _ _ t _ | .createView _ t _ _ => ln b!"CreateStatement" 0 ++ ln t.name 1
  | .insertValues t c l => ln b!"InsertStatement" 0 ++ ln t.name 1 ++ colsShow c 1 ++ headed b!"Values" l.show 1
  | .insertQuery t c s => ln b!"InsertStatement" 0 ++ ln t.name 1 ++ colsShow c 1 ++ s.page.show 1
  | .transaction c _ => ln b!"TransactionStatement" 0 ++ ln c.text 1
  | _ => []

/-- The type of a file. -/
def formatText (w : Name) : Bytes :=
  if Sem.eqNoCase w b!"csv" then b!"CSV" else if Sem.eqNoCase w b!"tbl" then b!"TBL" else b!"BINARY"
/-- The type given last; if there is none, it is told from the name of the file. -/
def CopyOpts.formatText : CopyOpts → Bytes
  | .one (.format w _ _) => Sql.formatText w
  | .one _ => b!"AUTO"
  | .snoc _ (.format w _ _) => Sql.formatText w
  | .snoc l _ => l.formatText
def CopyWith.formatText : CopyWith → Bytes
  | .none => b!"AUTO"
  | .opts _ l _ => l.formatText

/-- The hints, and the schemas and options of `COPY` are not shown. -/
def Item.show : Item → List Line
  | .stmt s _ => s.show
  | .importFile w _ _ p t => ln b!"ImportStatement" 0 ++ ln p 1 ++ ln (formatText w) 1 ++ ln t.name 1
  | .copyFrom t p o .none => ln b!"ImportStatement" 0 ++ ln p 1 ++ ln o.formatText 1 ++ ln t.name 1
  | .copyFrom t p o (.some e) => ln b!"ImportStatement" 0 ++ ln p 1 ++ ln o.formatText 1 ++ ln t.name 1 ++ headed b!"WHERE:" e.show 1
  | .copyTo t p o => ln b!"ExportStatement" 0 ++ ln p 1 ++ ln o.formatText 1 ++ ln t.name 1
  | .copyQuery s p o => ln b!"ExportStatement" 0 ++ ln p 1 ++ ln o.formatText 1 ++ s.page.show 1
  | _ => []

end Verif.Sql
