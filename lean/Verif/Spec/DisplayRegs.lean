import Verif.Spec.Chip
/-!
# Reading the text of a register

A reader of texts like `Mode { wol_enabled: true, pb_enabled: false }`, which shares nothing with the code that prints, and the bits of the
registers by the names of the text.
-/
namespace Verif.Spec

/-- The words of a text, between single spaces. -/
def words : List Char → List (List Char)
  | [] => [[]]
  | c :: cs =>
    if c = ' ' then [] :: words cs else
    match words cs with
    | [] => [[c]]
    | w :: ws => (c :: w) :: ws

/-- A word without its last character, which has to be `c`. -/
def without (c : Char) (w : List Char) : Option (List Char) := if w.getLast? = some c then some w.dropLast else none

/-- The fields: `name:` and `value,` in turn; after the last value there is no comma but a closing brace. -/
def readFields : List (List Char) → Option (List (List Char × List Char))
  | f :: v :: rest => do
    let f ← without ':' f
    if rest = [['}']] then pure [(f, v)] else do
    let v ← without ',' v
    pure ((f, v) :: (← readFields rest))
  | _ => none

/-- The name of the structure and its fields. -/
def readStruct (t : List Char) : Option (List Char × List (List Char × List Char)) :=
  match words t with
  | n :: ['{'] :: rest => do pure (n, ← readFields rest)
  | _ => none

/-- The value that a text gives to a field. -/
def valueIn (t : List Char) (field : String) : Option (List Char) :=
  match readStruct t with
  | none => none
  | some (_, fs) => (fs.find? fun p => p.1 == field.toList).map (·.2)

/-- The text says that a field has a truth value. -/
def SaysBool (t : List Char) (field : String) (b : Bool) : Prop := valueIn t field = some (if b then "true".toList else "false".toList)

/-- The text says that a field has a value with that name. -/
def Says (t : List Char) (field value : String) : Prop := valueIn t field = some value.toList

/-- The names of the operation modes of the PHY by their code (datasheet, PHYCFGR bits 5–3; code 5 is not used, the driver takes it for
`Auto`). -/
def operationModeName : Nat → String
  | 0 => "HalfDuplex10bt"
  | 1 => "FullDuplex10bt"
  | 2 => "HalfDuplex100bt"
  | 3 => "FullDuplex100bt"
  | 4 => "HalfDuplex100btAuto"
  | 6 => "PowerDown"
  | _ => "Auto"

/-- The protocols of a socket by their code (datasheet, Sn_MR bits 3–0); the other codes are shown as numbers. -/
def protocolName : Nat → String
  | 0 => "Ok(Closed)"
  | 1 => "Ok(Tcp)"
  | 2 => "Ok(Udp)"
  | 3 => "Err(3)"
  | 4 => "Ok(Macraw)"
  | 5 => "Err(5)"
  | 6 => "Err(6)"
  | 7 => "Err(7)"
  | 8 => "Err(8)"
  | 9 => "Err(9)"
  | 10 => "Err(10)"
  | 11 => "Err(11)"
  | 12 => "Err(12)"
  | 13 => "Err(13)"
  | 14 => "Err(14)"
  | _ => "Err(15)"

end Verif.Spec
