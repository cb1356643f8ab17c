import Verif.Spec.Json

/-!
# JSON texts

The whole of RFC 8259: which values a text denotes.  Numbers and strings keep the characters they are written with.  With `lax`, the three
words that Python's `json` accepts besides.
-/

set_option autoImplicit false

namespace Judger.Spec.JsonText

/-- section 6 -/
def NumText (t : CStr) : Prop :=
  ∃ sign int frac exp : CStr, t = sign ++ (int ++ (frac ++ exp)) ∧ (sign = [] ∨ sign = ['-']) ∧
    (int = ['0'] ∨ ∃ d ds, int = d :: ds ∧ d ≠ '0' ∧ ∀ c ∈ int, (Json.digit c).isSome = true) ∧
    (frac = [] ∨ ∃ ds, frac = '.' :: ds ∧ ds ≠ [] ∧ ∀ c ∈ ds, (Json.digit c).isSome = true) ∧
    (exp = [] ∨ ∃ e s ds, exp = e :: (s ++ ds) ∧ (e = 'e' ∨ e = 'E') ∧ (s = [] ∨ s = ['+'] ∨ s = ['-']) ∧ ds ≠ [] ∧
      ∀ c ∈ ds, (Json.digit c).isSome = true)

/-- The characters with which a number can go on after a digit. -/
def goesOn (c : Char) : Bool := (Json.digit c).isSome || c == '.' || c == 'e' || c == 'E'

def hexDigit (c : Char) : Bool := (Json.digit c).isSome || ('a' ≤ c && c ≤ 'f') || ('A' ≤ c && c ≤ 'F')

/-- section 7: what stands between the quotation marks -/
inductive StrBody : CStr → Prop
  | nil : StrBody []
  | plain (c : Char) (r : CStr) (h1 : c ≠ '"') (h2 : c ≠ '\\') (h3 : 32 ≤ c.toNat) (hr : StrBody r) : StrBody (c :: r)
  | escape (c : Char) (r : CStr) (h : c ∈ c!"\"\\/bfnrt") (hr : StrBody r) : StrBody ('\\' :: c :: r)
  | unicode (a b c d : Char) (r : CStr) (h : ∀ x ∈ [a, b, c, d], hexDigit x = true) (hr : StrBody r) :
      StrBody ('\\' :: 'u' :: a :: b :: c :: d :: r)

inductive Tok where
  | lbrace | rbrace | lbrack | rbrack | comma | colon
  | str (body : CStr)
  | num (text : CStr)
  | word (text : CStr)

/-- section 3 -/
def IsWord (lax : Bool) (t : CStr) : Prop :=
  t ∈ [c!"true", c!"false", c!"null"] ∨ (lax = true ∧ t ∈ [c!"NaN", c!"Infinity", c!"-Infinity"])

def punct : Char → Option Tok
  | '{' => some .lbrace
  | '}' => some .rbrace
  | '[' => some .lbrack
  | ']' => some .rbrack
  | ',' => some .comma
  | ':' => some .colon
  | _ => none

/-- section 2: the tokens of a text.  A number goes as far as it can. -/
inductive Lexes (lax : Bool) : CStr → List Tok → Prop
  | nil : Lexes lax [] []
  | blank (c : Char) (r : CStr) (ts : List Tok) (h : c ∈ c!" \t\n\r") (hr : Lexes lax r ts) : Lexes lax (c :: r) ts
  | punct (c : Char) (t : Tok) (r : CStr) (ts : List Tok) (h : punct c = some t) (hr : Lexes lax r ts) : Lexes lax (c :: r) (t :: ts)
  | str (body r : CStr) (ts : List Tok) (h : StrBody body) (hr : Lexes lax r ts) : Lexes lax ('"' :: (body ++ '"' :: r)) (.str body :: ts)
  | num (t r : CStr) (ts : List Tok) (h : NumText t) (hm : ∀ c ∈ r.head?, goesOn c = false) (hr : Lexes lax r ts) : Lexes lax (t ++ r) (.num t :: ts)
  | word (t r : CStr) (ts : List Tok) (h : IsWord lax t) (hr : Lexes lax r ts) : Lexes lax (t ++ r) (.word t :: ts)

/-- A value as it is written. -/
inductive Value where
  | word (text : CStr)
  | num (text : CStr)
  | str (body : CStr)
  | arr (items : List Value)
  | obj (members : List (CStr × Value))

/-! sections 3, 4, 5 -/

mutual
inductive IsValue : List Tok → Value → Prop
  | word (t : CStr) : IsValue [.word t] (.word t)
  | num (t : CStr) : IsValue [.num t] (.num t)
  | str (s : CStr) : IsValue [.str s] (.str s)
  | arrEmpty : IsValue [.lbrack, .rbrack] (.arr [])
  | arr (ts : List Tok) (vs : List Value) (h : AreItems ts vs) : IsValue (.lbrack :: (ts ++ [.rbrack])) (.arr vs)
  | objEmpty : IsValue [.lbrace, .rbrace] (.obj [])
  | obj (ts : List Tok) (ms : List (CStr × Value)) (h : AreMembers ts ms) : IsValue (.lbrace :: (ts ++ [.rbrace])) (.obj ms)

inductive AreItems : List Tok → List Value → Prop
  | one (ts : List Tok) (v : Value) (h : IsValue ts v) : AreItems ts [v]
  | more (ts us : List Tok) (v : Value) (vs : List Value) (h : IsValue ts v) (hr : AreItems us vs) : AreItems (ts ++ .comma :: us) (v :: vs)

inductive AreMembers : List Tok → List (CStr × Value) → Prop
  | one (k : CStr) (ts : List Tok) (v : Value) (h : IsValue ts v) : AreMembers (.str k :: .colon :: ts) [(k, v)]
  | more (k : CStr) (ts us : List Tok) (v : Value) (ms : List (CStr × Value)) (h : IsValue ts v) (hr : AreMembers us ms) :
      AreMembers (.str k :: .colon :: (ts ++ .comma :: us)) ((k, v) :: ms)
end

/-- The text denotes the value. -/
def Denotes (lax : Bool) (t : CStr) (v : Value) : Prop := ∃ ts, Lexes lax t ts ∧ IsValue ts v

open Classical in
/-- A value the text denotes, if it denotes one. -/
noncomputable def parse (lax : Bool) (t : CStr) : Option Value := if h : ∃ v, Denotes lax t v then some h.choose else none

/-- The value of a member of an object; of several with the same name the last counts, as in JSON.parse of JavaScript and json.loads of Python. -/
def Value.get (name : CStr) : Value → Option Value
  | .obj ms => (ms.reverse.find? (·.1 = name)).map (·.2)
  | _ => none

/-- An object of integers. -/
def Value.ofInts (ms : List (CStr × Int)) : Value := .obj (ms.map fun m => (m.1, .num (showInt m.2)))

/-- A number that is zero: before the exponent there is no digit but '0'. -/
def zeroText (t : CStr) : Bool := (t.takeWhile fun c => c != 'e' && c != 'E').all fun c => c == '-' || c == '.' || c == '0'

/-- The value is the number zero. -/
def Value.IsZero (v : Value) : Prop := ∃ t, v = .num t ∧ zeroText t = true

end Judger.Spec.JsonText
