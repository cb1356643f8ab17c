import Verif.Base.C

/-!
# A part of the POSIX shell's command language

Command lines made of plain characters, blanks, semicolons, single quotes and backslashes (IEEE Std 1003.1, Shell Command Language 2.2.1, 2.2.2, 2.3,
2.6.5, 2.9).  Any other character outside single quotes may be special to the shell; lines with such a character are not described.
-/

set_option autoImplicit false

namespace Judger.Spec.Shell

/-- A character that never has a special meaning inside a word (except '=' in the first word of a command, and '!' as a word of its own), among them
every byte of a character beyond ASCII.  (A shell that is not typed to keeps no history, so '!' stays what it is.) -/
def safe (c : Char) : Bool :=
  c.isAlphanum || decide (128 ≤ c.toNat) || ['_', '-', '.', '/', '=', ':', ',', '+', '@', '%', '^', ']', '!'].contains c

def blank (c : Char) : Bool := c == ' ' || c == '\t'

/-- How the next character is read: as it is, inside single quotes, or after a backslash. -/
inductive Reading where
  | bare | single | escaped
deriving Repr, DecidableEq

/-- The commands of a line with their words: `cur` is the word being read, if one has begun; `ws` are the words before it in the same command.  `none`: not
described here. -/
def lex : Reading → Option CStr → List CStr → CStr → Option (List (List CStr))
  | .bare, cur, ws, [] => some [ws ++ cur.toList]
  | _, _, _, [] => none
  | .single, cur, ws, c :: r => if c = '\'' then lex .bare cur ws r else lex .single (some (cur.getD [] ++ [c])) ws r
  | .escaped, cur, ws, c :: r => if c = '\n' then none else lex .bare (some (cur.getD [] ++ [c])) ws r
  | .bare, cur, ws, c :: r =>
    if safe c then lex .bare (some (cur.getD [] ++ [c])) ws r
    else if blank c then lex .bare none (ws ++ cur.toList) r
    else if c = ';' then (lex .bare none [] r).map ((ws ++ cur.toList) :: ·)
    else if c = '\'' then lex .single (some (cur.getD [])) ws r
    else if c = '\\' then lex .escaped (some (cur.getD [])) ws r
    else none

/-- The simple commands a line runs, each with its words; `none` for a line that is not described here (special characters, an
empty command, an assignment, the word '!'). -/
def commands (s : CStr) : Option (List (List CStr)) :=
  match lex .bare none [] s with
  | none => none
  | some cs => if cs.all (fun ws => ws.head?.any (fun w => !w.contains '=' && w != ['!'])) then some cs else none

example : commands c!"ls -l  a.txt; reboot" = some [[c!"ls", c!"-l", c!"a.txt"], [c!"reboot"]] := by decide
example : commands c!"echo 'it''s; $5' a\\ b ''" = some [[c!"echo", c!"its; $5", c!"a b", []]] := by decide
example : commands c!"ls $HOME" = none := by decide

/-- A text in single quotes; a single quote in it ends the quotes, is escaped, and begins them again. -/
def quote (t : CStr) : CStr := '\'' :: (t.flatMap (fun c => if c = '\'' then c!"'\\''" else [c]) ++ c!"'")

example : quote c!"it's" = c!"'it'\\''s'" := by decide

end Judger.Spec.Shell
