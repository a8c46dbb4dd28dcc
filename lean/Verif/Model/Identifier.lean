import Verif.Text
/-! Model of /repo/src/identifier.rs and of the string comparison of the Rust standard library it uses. -/
namespace SqlParse

/-- The bytes of a `&str`: its UTF-8 encoding (`String.utf8EncodeChar` is core Lean's encoder). -/
def strBytes (s : List Char) : List Nat := s.flatMap fun c => (String.utf8EncodeChar c).map UInt8.toNat

/-- `<[u8] as Ord>::cmp`: lexicographic. -/
def cmpBytes : List Nat → List Nat → Ordering
  | [], [] => .eq
  | [], _ :: _ => .lt
  | _ :: _, [] => .gt
  | a :: as, b :: bs => if a < b then .lt else if b < a then .gt else cmpBytes as bs

/-- `<str as Ord>::cmp`: `self.as_bytes().cmp(other.as_bytes())`. -/
def strCmp (a b : List Char) : Ordering := cmpBytes (strBytes a) (strBytes b)

/-- `<str as PartialEq>::eq`: `self.as_bytes() == other.as_bytes()`. -/
def strEq (a b : List Char) : Bool := decide (strBytes a = strBytes b)

/-- identifier.rs:20-25 `struct Identifier` -/
structure Identifier where
  value : List Char
  span : Span

/-- identifier.rs:27-31 `impl PartialEq for Identifier` -/
def Identifier.eq (a b : Identifier) : Bool := strEq a.value b.value

/-- identifier.rs:40-44 `impl Ord for Identifier` -/
def Identifier.cmp (a b : Identifier) : Ordering := strCmp a.value b.value

/-- identifier.rs:34-38 `impl PartialOrd for Identifier` -/
def Identifier.partialCmp (a b : Identifier) : Option Ordering := some (a.cmp b)

/-- identifier.rs:52-56, 70-76 `impl Borrow<str>` and `Deref`, identifier.rs:64-67 `as_str` -/
def Identifier.asStr (a : Identifier) : List Char := a.value

/-- identifier.rs:60-62 `new` -/
def Identifier.new (value : List Char) (span : Span) : Identifier := ⟨value, span⟩

/-- identifier.rs:46-50 `Display` (without width or alignment) -/
def Identifier.display (a : Identifier) : List Char := a.value

end SqlParse
