import Verif.Spec.Api
import Verif.Spec.Lexical
/-!
Vocabulary for the round trip properties: ways to write names and string literals, and how to read them off the AST.
-/
namespace SqlParse

/-- `w` is a way to write the name `v`: as a word that is not reserved; in back quotes (MariaDB, SQLite); or in double
quotes (PostgreSQL).  The value of the name is always what is between the quotes. -/
inductive NameText (o : Opts) : (w v : List Char) → Prop where
  | word {w : List Char} (hn : w ≠ []) (hw : ∀ c ∈ w, isWord c = true) (hd : ∀ c ∈ w.head?, isDig c = false)
      (hr : (Keyword.ofStr (upper w)).reserved = false) : NameText o w w
  | backQuoted {v : List Char} (hd : o.dialect ≠ .postgreSQL) (hv : ∀ c ∈ v, isWord c = true ∨ c = '-') :
      NameText o ('`' :: (v ++ ['`'])) v
  | doubleQuoted {v : List Char} (hd : o.dialect = .postgreSQL) (hv : QuoteBody '"' v) : NameText o ('"' :: (v ++ ['"'])) v

/-- Texts one after the other, with `sep` between them. -/
def sepText (sep : List Char) : List (List Char) → List Char
  | [] => []
  | [w] => w
  | w :: ws => w ++ (sep ++ sepText sep ws)

/-- `NamesText o ws vs`: a nonempty list of names `vs`, written as `ws`. -/
inductive NamesText (o : Opts) : (ws vs : List (List Char)) → Prop where
  | one {w v : List Char} (h : NameText o w v) : NamesText o [w] [v]
  | cons {w v : List Char} {ws vs : List (List Char)} (h : NameText o w v) (hs : NamesText o ws vs) : NamesText o (w :: ws) (v :: vs)

/-- A nonempty list of dotted names: their parts, and how these are written. -/
inductive DottedTexts (o : Opts) : (wss vss : List (List (List Char))) → Prop where
  | one {ws vs : List (List Char)} (h : NamesText o ws vs) : DottedTexts o [ws] [vs]
  | cons {ws vs : List (List Char)} {wss vss : List (List (List Char))} (h : NamesText o ws vs) (hs : DottedTexts o wss vss) :
      DottedTexts o (ws :: wss) (vs :: vss)

/-- The text of an identifier node. -/
def identText : Ast → Option (List Char)
  | .ident v _ => some v
  | _ => none

/-- The parts of a qualified name: those before the last one are stored with the span of the dot. -/
def qualifiedParts : Ast → List (Option (List Char))
  | .node .QualifiedName [.list l, i] =>
    l.map (fun p => match p with | .node .Tuple [j, .span _] => identText j | _ => none) ++ [identText i]
  | _ => [none]

/-- What a DROP TABLE statement drops: is there IF EXISTS, and the names. -/
def droppedTables : SAst → Option (Bool × List (List (Option (List Char))))
  | ⟨.node .DropTable [.span _, .none, .span _, ie, .list l, .none]⟩ =>
    match ie with
    | .none => some (false, l.map qualifiedParts)
    | .some (.span _) => some (true, l.map qualifiedParts)
    | _ => none
  | _ => none

/-- The parts of the name in TRUNCATE TABLE. -/
def truncatedTable : SAst → List (Option (List Char))
  | ⟨.node .TruncateTable [.span _, .some (.span _), n]⟩ => qualifiedParts n
  | _ => [none]

/-- The value of the only string in `SELECT 'text'`. -/
def selectedString : SAst → Option (List Char)
  | ⟨.node .Select (.span _ :: .list [] :: .list [.node .SelectExpr [.sstring v _, .none]] :: _)⟩ => some v
  | _ => none

/-- The text between quotes `q`, with the quotes in it doubled. -/
def quoted (q : Char) (text : List Char) : List Char :=
  q :: (text.flatMap (fun c => if c = q then [q, q] else [c]) ++ [q])

/-- What is between the quotes `q` of a string literal, and the text it stands for: a doubled quote stands for one quote,
and `\\c` for `esc c`. -/
inductive Denotes (esc : Char → Char) (q : Char) : (body text : List Char) → Prop where
  | nil : Denotes esc q [] []
  | plain (c : Char) {l t : List Char} (h1 : c ≠ '\\') (h2 : c ≠ q) (h : Denotes esc q l t) : Denotes esc q (c :: l) (c :: t)
  | double {l t : List Char} (h : Denotes esc q l t) : Denotes esc q (q :: q :: l) (q :: t)
  | escape (d : Char) {l t : List Char} (h : Denotes esc q l t) : Denotes esc q ('\\' :: d :: l) (esc d :: t)

/-- Texts in which every double quote comes right after a single quote, and every single quote right before a double quote
or at the end. -/
inductive Paired : List Char → Prop where
  | nil : Paired []
  | last : Paired ['\'']
  | plain (c : Char) {l : List Char} (h1 : c ≠ '\'') (h2 : c ≠ '"') (h : Paired l) : Paired (c :: l)
  | pair {l : List Char} (h : Paired l) : Paired ('\'' :: '"' :: l)

end SqlParse
