import Verif.Lex.Lexer
/-!
# Counting the moves of the scanner

The same loops as in `Verif.Lex.Scan` and `Verif.Lex.Lexer`, counting the moves of the automaton (a move is a look-up in `yy_nxt`, preceded by at most 8 look-ups in
`yy_chk`, see `yyNext`).
-/
namespace Verif.Lex

/-- The moves of the `do ... while` loop of flex_lexer.cpp:3209-3228, see `matchLoop`. -/
def matchMoves : Bytes → Nat → Nat
  | [], _ => 0
  | b :: rest, s => match yy_ec[b]? with
    | none => 0
    | some c => match yyNext s c with
      | none => 1
      | some s' => if s' = 1367 then 1 else 1 + matchMoves rest s'

/-- The moves for one match, see `scan`: at the end of the buffer `yy_get_previous_state` (flex_lexer.cpp:4501-4526) makes a move for every byte since the
start of the match once more, unless there is none. -/
def scanMoves (sc : SC) (text : Bytes) : Nat :=
  matchMoves (text ++ [0, 0]) (startState sc) +
  match matchLoop (text ++ [0, 0]) (startState sc) 0 none with
  | some (s, _) => if yy_accept[s]? = some 190 then text.length else 0
  | none => 0

/-- The moves of all calls of `hsql_lex`, up to and including the first that returns 0, see `yylexFuel` and `lexFuel`; at most `f` matches are made. -/
def lexMoves (fpr : Int) : Nat → LexSt → Nat
  | 0, _ => 0
  | f + 1, st => scanMoves st.sc st.rest +
    match scan st.sc st.rest with
    | some (.rule r n) => match lexAction fpr st.sc st.buf r (st.rest.take n) with
      | some (.skip sc buf) => lexMoves fpr f ⟨sc, buf, st.rest.drop n⟩
      | some (.ret sc buf c _) => if c = 0 then 0 else lexMoves fpr f ⟨sc, buf, st.rest.drop n⟩
      | none => 0
    | _ => 0

end Verif.Lex
