import Mathlib.Data.List.Dedup
import Verif.Spec.Name

/-!
# The text of a name for people

Of the attributes only the labels and texts matter, in the order of the name.
-/

namespace Asn1.Names.Spec
open Asn1 Asn1.Names

/-- The labels that occur, each once, in the order of their first occurrences. (`dedup` keeps the last occurrences.) -/
def labelsOf (l : List (Str × Str)) : List Str := (l.map Prod.fst).reverse.dedup.reverse

/-- What is shown for one label: the label and all its texts, the last one first. -/
def labelText (l : List (Str × Str)) (label : Str) : Str :=
  label ++ ": ".toList ++ pyJoin ", ".toList (valuesOf label l).reverse

/-- The shown parts: country last, so they are in the order of the name if the name ends with the country, and in reverse order otherwise. -/
def shownParts (l : List (Str × Str)) : List Str :=
  if (l.map Prod.fst).getLast? = some "Country".toList then (labelsOf l).map (labelText l)
  else ((labelsOf l).map (labelText l)).reverse

/-- The parts are separated by commas, or by semicolons if there are commas in them. -/
def shownText (l : List (Str × Str)) : Str :=
  pyJoin (if ∃ p ∈ shownParts l, ',' ∈ p then "; ".toList else ", ".toList) (shownParts l)

/-- The words of a name such as `given_name`. -/
def nameWords : Str → List Str
  | [] => [[]]
  | c :: r =>
    match nameWords r with
    | [] => [[c]]
    | w :: ws => if c = '_' then [] :: w :: ws else (c :: w) :: ws

/-- A word as it stands in a label: with a capital letter, or in capitals if it is an abbreviation. -/
def labelWord (w : Str) : Str :=
  if w ∈ ["dn".toList, "tpm".toList, "id".toList] then w.map Char.toUpper else (w.take 1).map Char.toUpper ++ w.drop 1

/-- The words of a label. States and provinces are written with a slash. -/
def labelWords : List Str → List Str
  | [] => []
  | w :: ws =>
    if w = "state".toList ∧ ws.take 2 = ["or".toList, "province".toList] then "State/Province".toList :: (ws.drop 2).map labelWord else labelWord w :: labelWords ws

/-- The label of a type of attribute: its words without the word "name" where it goes without saying (it does not for names of people). -/
def labelOf (t : Str) : Str :=
  let words := nameWords t
  let spoken := if words.getLast? = some "name".toList ∧ words.head? ∈ ["country", "locality", "state", "organization", "organizational"].map (fun s => some s.toList)
    then words.dropLast else words
  pyJoin " ".toList (labelWords spoken)

end Asn1.Names.Spec
