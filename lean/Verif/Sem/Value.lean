import Verif.Util
/-!
# Semantic values

The values on bison's value stack (the `%union`, src/parser/bison_parser.y:99-172) and the objects they point to.
A pointer to a heap object that is owned by its holder is modelled by the object itself, tagged with its address;
updating an object through its owning pointer is updating the value.  This is exact as long as no address occurs
twice among the values in use, which is proved (C32, C33).
-/
namespace Verif.Sem

/-- The classes allocated by the parser (src/sql/*.h), and the two `std::pair`s of the `%union`. -/
inductive Cls where
  | Expr | FrameBound | FrameDescription | WindowDescription
  | OrderDescription | LimitDescription | GroupByDescription | WithDescription | SetOperation | LockingClause
  | SelectStatement | Alias | TableRef | JoinDefinition
  | TableConstraint | ReferencesSpecification | ForeignKeyConstraint | ColumnDefinition | ColumnConstraints | CreateStatement
  | CsvOptions | ImportExportOptions | ImportStatement | ExportStatement | InsertStatement | DeleteStatement
  | UpdateClause | UpdateStatement | DropStatement | DropColumnAction | AlterStatement
  | ExecuteStatement | PrepareStatement | ShowStatement | TransactionStatement
  | IntPair | CsvOptionPair
deriving DecidableEq, Repr

/-- Values.
* `undef`: an indeterminate value (uninitialised, or a pointer that was moved from or freed);
* `null`: the null pointer;
* `int n`: an integer, a `bool` or an enumerator;
* `pos n`: an integer computed from the scanner position (`yylloc`);
* `idx n`: an integer computed from the number of parameters read so far (`yyloc.param_list.size()`);
* `raw b`: a `double`, given by the text it was read from, or a local `char` buffer;
* `str a b`: a heap-allocated C string at address `a` with bytes `b`;
* `vec a vs`: a heap-allocated `std::vector` (or `std::unordered_set`);
* `obj a c fs`: a heap-allocated object of class `c`, its fields in the order of declaration, base class first;
* `tup fs`: a struct held by value (`TableName`, `ColumnType`). -/
inductive V where
  | undef
  | null
  | int (n : Int)
  | pos (n : Int)
  | idx (n : Nat)
  | raw (b : Bytes)
  | str (a : Nat) (b : Bytes)
  | vec (a : Nat) (vs : List V)
  | obj (a : Nat) (c : Cls) (fs : List V)
  | tup (fs : List V)
deriving Repr

mutual
/-- The addresses owned by a value. -/
def V.addrs : V → List Nat
  | .str a _ => [a]
  | .vec a vs => a :: addrsL vs
  | .obj a _ fs => a :: addrsL fs
  | .tup fs => addrsL fs
  | _ => []
def addrsL : List V → List Nat
  | [] => []
  | v :: vs => v.addrs ++ addrsL vs
end

/-- A selector: field `i` of an object or struct; the last element of a vector. -/
inductive Sel where
  | fld (i : Nat)
  | back
deriving DecidableEq, Repr

/-- Follow selectors. `none`: a null or indeterminate pointer is dereferenced, or the value has another type. -/
def V.get : V → List Sel → Option V
  | v, [] => some v
  | .obj _ _ fs, .fld i :: p => match fs[i]? with
    | some w => w.get p
    | none => none
  | .tup fs, .fld i :: p => match fs[i]? with
    | some w => w.get p
    | none => none
  | .vec _ vs, .back :: p => match vs.getLast? with
    | some w => w.get p
    | none => none
  | _, _ :: _ => none
termination_by structural _ p => p

/-- Replace what the selectors lead to. -/
def V.put : V → List Sel → V → Option V
  | _, [], x => some x
  | .obj a c fs, .fld i :: p, x => match fs[i]? with
    | some w => match w.put p x with
      | some w' => some (.obj a c (fs.set i w'))
      | none => none
    | none => none
  | .tup fs, .fld i :: p, x => match fs[i]? with
    | some w => match w.put p x with
      | some w' => some (.tup (fs.set i w'))
      | none => none
    | none => none
  | .vec a vs, .back :: p, x => match vs.getLast? with
    | some w => match w.put p x with
      | some w' => some (.vec a (vs.dropLast ++ [w']))
      | none => none
    | none => none
  | _, _ :: _, _ => none
termination_by structural _ p => p

/-! ## Destructors -/

/-- How a destructor treats a field. `keep`: not at all; `str`: `free`; `del`: `delete` (of an object: run its
destructor; of a vector: only the vector itself); `vec e`: if not null, treat every element by `e`, then `delete`
the vector; `vecNN e`: the same without checking for null; `fields hs`: treat the fields of the object by `hs`,
then `delete` it, the class having no destructor; `tup hs`: a struct held by value. -/
inductive How where
  | keep | str | del
  | vec (e : How)
  | vecNN (e : How)
  | fields (hs : List How)
  | tup (hs : List How)
deriving Repr

/-- A list of C strings, of objects. -/
abbrev How.strs : How := .vec .str
abbrev How.objs : How := .vec .del

/-- The base class destructor `~SQLStatement` (src/sql/SQLStatement.cpp:9-16) on `stringLength`, `hints`, `type_`. -/
abbrev stmtDtor : List How := [.keep, .objs, .keep]

/-- What the destructor of a class does to the fields. -/
def dtor : Cls → List How
  /- src/sql/Expr.cpp:64-81 -/
  | .Expr => [.keep, .del, .del, .objs, .del, .str, .str, .str, .str, .keep, .keep, .keep, .keep, .keep, .keep, .keep, .keep, .del]
  | .FrameBound => [.keep, .keep, .keep]
  /- src/sql/Expr.cpp:17-20 -/
  | .FrameDescription => [.keep, .del, .del]
  /- src/sql/Expr.cpp:26-42 -/
  | .WindowDescription => [.objs, .objs, .del]
  /- src/sql/statements.cpp:258 -/
  | .OrderDescription => [.keep, .del, .keep]
  /- src/sql/statements.cpp:263-266 -/
  | .LimitDescription => [.del, .del]
  /- src/sql/statements.cpp:271-280 -/
  | .GroupByDescription => [.objs, .del]
  /- src/sql/statements.cpp:282-285 -/
  | .WithDescription => [.str, .del]
  /- src/sql/statements.cpp:428-438 -/
  | .SetOperation => [.keep, .keep, .del, .objs, .del]
  /- no destructor -/
  | .LockingClause => [.keep, .keep, .keep]
  /- src/sql/statements.cpp:301-348 -/
  | .SelectStatement => stmtDtor ++ [.del, .keep, .objs, .del, .del, .objs, .objs, .objs, .del, .vec (.fields [.keep, .keep, .strs])]
  /- src/sql/statements.cpp:370-378 -/
  | .Alias => [.str, .strs]
  /- src/sql/statements.cpp:384-398 -/
  | .TableRef => [.keep, .str, .str, .del, .del, .objs, .del]
  /- src/sql/statements.cpp:413-424 -/
  | .JoinDefinition => [.del, .del, .del, .strs, .keep]
  /- src/sql/CreateStatement.cpp:31-36 -/
  | .TableConstraint => [.keep, .vecNN .str]
  /- src/sql/CreateStatement.cpp:42-51 -/
  | .ReferencesSpecification => [.str, .str, .strs]
  /- src/sql/CreateStatement.cpp:56, 31-36 -/
  | .ForeignKeyConstraint => [.keep, .vecNN .str, .del]
  /- src/sql/CreateStatement.cpp:66-75 -/
  | .ColumnDefinition => [.del, .str, .keep, .keep, .objs]
  /- no destructor -/
  | .ColumnConstraints => [.keep, .keep]
  /- src/sql/CreateStatement.cpp:103-137 -/
  | .CreateStatement => stmtDtor ++ [.keep, .keep, .str, .str, .str, .str, .strs, .objs, .objs, .strs, .del]
  /- src/sql/statements.cpp:156-160 -/
  | .CsvOptions => [.str, .str, .str]
  /- src/sql/statements.cpp:189-192 -/
  | .ImportExportOptions => [.keep, .str, .del]
  /- src/sql/statements.cpp:205-212 -/
  | .ImportStatement => stmtDtor ++ [.keep, .str, .str, .str, .del, .str, .del]
  /- src/sql/statements.cpp:146-153 -/
  | .ExportStatement => stmtDtor ++ [.keep, .str, .str, .str, .del, .str, .del]
  /- src/sql/statements.cpp:224-242 -/
  | .InsertStatement => stmtDtor ++ [.keep, .str, .str, .strs, .objs, .del]
  /- src/sql/statements.cpp:79-83 -/
  | .DeleteStatement => stmtDtor ++ [.str, .str, .del]
  /- no destructor -/
  | .UpdateClause => [.keep, .keep]
  /- src/sql/statements.cpp:353-365 -/
  | .UpdateStatement => stmtDtor ++ [.del, .vec (.fields [.str, .del]), .del]
  /- src/sql/statements.cpp:89-93 -/
  | .DropStatement => stmtDtor ++ [.keep, .keep, .str, .str, .str]
  /- src/sql/statements.cpp:104 -/
  | .DropColumnAction => [.keep, .str, .keep]
  /- src/sql/statements.cpp:109-113 -/
  | .AlterStatement => stmtDtor ++ [.str, .keep, .str, .del]
  /- src/sql/statements.cpp:124-133 -/
  | .ExecuteStatement => stmtDtor ++ [.str, .objs]
  /- src/sql/PrepareStatement.cpp:8-11 -/
  | .PrepareStatement => stmtDtor ++ [.str, .str]
  /- src/sql/statements.cpp:247-250 -/
  | .ShowStatement => stmtDtor ++ [.keep, .str, .str]
  /- src/sql/statements.cpp:119 -/
  | .TransactionStatement => stmtDtor ++ [.keep]
  | .IntPair => [.keep, .keep]
  | .CsvOptionPair => [.keep, .keep]

/-- Both components concatenated. -/
def cat2 (x y : Option (List Nat × List Nat)) : Option (List Nat × List Nat) :=
  match x, y with
  | some (f, l), some (f', l') => some (f ++ f', l ++ l')
  | _, _ => none

mutual
/-- Treat a value: the addresses freed, and those that become unreachable without being freed. `none`: undefined
behaviour (an indeterminate or null pointer is used, or a pointer to something else). -/
def treat : How → V → Option (List Nat × List Nat)
  | .keep, v => some ([], v.addrs)
  | .str, .null => some ([], [])
  | .str, .str a _ => some ([a], [])
  | .del, .null => some ([], [])
  | .del, .obj a c fs => cat2 (some ([a], [])) (treatFs (dtor c) fs)
  | .del, .vec a vs => some ([a], addrsL vs)
  | .vec _, .null => some ([], [])
  | .vec e, .vec a vs => cat2 (some ([a], [])) (treatEl e vs)
  | .vecNN e, .vec a vs => cat2 (some ([a], [])) (treatEl e vs)
  | .fields hs, .obj a _ fs => cat2 (some ([a], [])) (treatFs hs fs)
  | .tup hs, .tup fs => treatFs hs fs
  | _, _ => none
def treatFs : List How → List V → Option (List Nat × List Nat)
  | [], [] => some ([], [])
  | h :: hs, v :: vs => cat2 (treat h v) (treatFs hs vs)
  | _, _ => none
def treatEl : How → List V → Option (List Nat × List Nat)
  | _, [] => some ([], [])
  | e, v :: vs => cat2 (treat e v) (treatEl e vs)
end

end Verif.Sem
