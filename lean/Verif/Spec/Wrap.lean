import Mathlib.Data.Nat.Notation
/-!
# C parameter structs, as text

A grammar for the structs that hold the parameters of a functional: declarations of scalars and arrays, with comments anywhere.
-/
namespace Verif.Spec

/-- A member: its name, and its dimensions, each with the spaces after it. -/
structure Member where
  /-- spaces before the name -/
  lead : ℕ
  name : List Char
  /-- spaces after the name -/
  gap : ℕ
  /-- `[digits]`, and the spaces after it -/
  dims : List (List Char × ℕ)

/-- The text of a member. -/
def Member.text (m : Member) : List Char :=
  List.replicate m.lead ' ' ++ m.name ++ List.replicate m.gap ' ' ++ m.dims.flatMap fun d => '[' :: d.1 ++ ']' :: List.replicate d.2 ' '

/-- A declaration `[const] type name[dims], …, name[dims];`, with the space before and after it. -/
structure Decl where
  before : List Char
  /-- `const`, and the number of spaces after it besides the first -/
  const : Option ℕ
  type : List Char
  first : Member
  others : List Member
  after : List Char

/-- `const` and spaces. -/
def constText : Option ℕ → List Char
  | some k => "const ".toList ++ List.replicate k ' '
  | none => []

/-- The text of a declaration.  There is a space between the type and the first member. -/
def Decl.text (d : Decl) : List Char :=
  d.before ++ constText d.const ++ d.type ++ ' ' :: d.first.text ++
    (d.others.flatMap fun m => ',' :: m.text) ++ d.after ++ [';']

/-- The members of a declaration. -/
def Decl.names (d : Decl) : List (List Char) := d.first.name :: d.others.map Member.name

/-- A C identifier consists of these. -/
def IdentChar (c : Char) : Prop := ('a' ≤ c ∧ c ≤ 'z') ∨ ('A' ≤ c ∧ c ≤ 'Z') ∨ ('0' ≤ c ∧ c ≤ '9') ∨ c = '_'

instance : DecidablePred IdentChar := fun _ => inferInstanceAs (Decidable (_ ∨ _))

/-- White space of C. -/
def WsChar (c : Char) : Prop := c = ' ' ∨ c = '\n' ∨ c = '\t' ∨ c = '\r'

/-- A member of the grammar. -/
structure Member.OK (m : Member) : Prop where
  name : m.name ≠ []
  chars : ∀ c ∈ m.name, IdentChar c
  dims : ∀ d ∈ m.dims, ∀ c ∈ d.1, '0' ≤ c ∧ c ≤ '9'

/-- A declaration of the grammar. -/
structure Decl.OK (d : Decl) : Prop where
  before : ∀ c ∈ d.before, WsChar c
  after : ∀ c ∈ d.after, WsChar c
  type : d.type ≠ []
  chars : ∀ c ∈ d.type, IdentChar c
  notConst : d.type ≠ "const".toList
  first : d.first.OK
  others : ∀ m ∈ d.others, m.OK

/-- A piece of a text: a comment, or something else. -/
inductive Piece
  | code (t : List Char)
  | comment (t : List Char)

/-- The text of a piece. -/
def Piece.text : Piece → List Char
  | .code t => t
  | .comment t => "/*".toList ++ t ++ "*/".toList

/-- The text of a piece without comments. -/
def Piece.bare : Piece → List Char
  | .code t => t
  | .comment _ => []

/-- A comment does not contain its own end. -/
def Piece.OK : Piece → Prop
  | .code _ => True
  | .comment t => ¬ "*/".toList <:+: t

/-- The text between the braces of a struct: declarations with comments anywhere, and white space at the end. -/
structure BodyText (ds : List Decl) (body : List Char) : Prop where
  ok : ∀ d ∈ ds, d.OK
  split : ∃ ps : List Piece, ∃ tail : List Char, (∀ p ∈ ps, p.OK) ∧ (∀ c ∈ tail, WsChar c) ∧ body = ps.flatMap Piece.text ∧
    ps.flatMap Piece.bare = ds.flatMap Decl.text ++ tail

/-- How libxc writes the head of an init function, after its name. -/
def initHead : List Char := "_init(xc_func_type *p)".toList
/-- How libxc allocates the parameters, before the name of the struct. -/
def allocHead : List Char := "libxc_malloc(sizeof(".toList

/-- An init function that allocates its parameters: the text before it, its name without `_init`, the text up to the allocation, and the struct. -/
structure InitDef where
  gap : List Char
  name : List Char
  body : List Char
  struct : List Char

/-- The text of an init function up to the name of the struct. -/
def InitDef.text (d : InitDef) : List Char := d.gap ++ (d.name ++ (initHead ++ (d.body ++ (allocHead ++ d.struct))))

/-- The names are identifiers, the gap contains no other init function, and the first allocation is the one shown. -/
structure InitDef.OK (d : InitDef) : Prop where
  name : ∀ c ∈ d.name, IdentChar c
  struct : ∀ c ∈ d.struct, IdentChar c
  gapFirst : ∃ c, d.gap.head? = some c ∧ ¬ IdentChar c
  gapLast : ∃ c, d.gap.getLast? = some c ∧ ¬ IdentChar c
  gap : ¬ initHead <:+: d.gap ++ (d.name ++ "_init".toList)
  body : ¬ allocHead <:+: d.body ++ allocHead.dropLast

end Verif.Spec
