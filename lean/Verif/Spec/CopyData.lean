import Verif.Text
/-! The data after `COPY .. FROM STDIN`. -/
namespace SqlParse


/-- The line `\.`, with the text `rest` after it. -/
def EndLine (t rest : List Char) : Prop := t = '\\' :: '.' :: '\n' :: rest ∨ (t = ['\\', '.'] ∧ rest = [])

/-- The text ends with a newline. -/
def EndsNL (u : List Char) : Prop := ∃ u', u = u' ++ ['\n']

/-- Blank space, other than newline. -/
def isBlankNotNL (c : Char) : Bool := c == ' ' || c == '\t' || c == '\r' || c == Char.ofNat 12

/-- If `text` follows the delimiter after `COPY .. FROM STDIN` then `lead` comes before the data, the data is `d`, and the
parser goes on with `rest`: blank space is dropped, then the rest of the line if it is empty, then comes the data, up to the
first line that is `\.`, or to the end if there is none. -/
def CopyData (text lead d rest : List Char) : Prop :=
  ∃ blanks nl tail, lead = blanks ++ nl ∧ text = blanks ++ (nl ++ d ++ tail) ∧ (∀ c ∈ blanks, isBlankNotNL c = true) ∧
    (∀ c ∈ (nl ++ d ++ tail).head?, isBlankNotNL c = false) ∧
    (nl = ['\n'] ∨ nl = [] ∧ ∀ c ∈ (d ++ tail).head?, c ≠ '\n') ∧
    ((EndsNL (nl ++ d) ∧ EndLine tail rest ∧
      ∀ u t r, nl ++ d ++ tail = u ++ t → EndsNL u → EndLine t r → (nl ++ d).length ≤ u.length) ∨
     (tail = [] ∧ rest = [] ∧ ¬ ∃ u t r, nl ++ d = u ++ t ∧ EndsNL u ∧ EndLine t r))

end SqlParse
