import Verif.Spec.RecordOutput
/-!
# Specification of displayed values: C104, C105
-/
namespace MBus.Spec

/-- Values that are dates, times or bytes of the manufacturer. -/
def Temporal : DataType → Prop
  | .date .. | .dateTime .. | .dateTimeWithSeconds .. | .time .. | .manufacturerSpecific _ => True
  | _ => False

/-- The abbreviations of the months in calendar order. -/
def monthNames : List (List Char) :=
  ["Jan".toList, "Feb".toList, "Mar".toList, "Apr".toList, "May".toList, "Jun".toList, "Jul".toList,
    "Aug".toList, "Sep".toList, "Oct".toList, "Nov".toList, "Dec".toList]

/-- The text of a power of ten: nothing for the power 0. -/
def exponentText (scale : Int) : List Char := if scale = 0 then [] else 'e' :: decimalInt scale

/-- `text` is the reading `(significand)e<scale>`, followed by a unit in brackets, a quantity in
parentheses, both or nothing. -/
def Reading (text : List Char) (significand scale : Int) : Prop :=
  ∃ unit quantity, text = '(' :: decimalInt significand ++ ')' :: exponentText scale ++ unit ++ quantity ∧
    (unit = [] ∨ ∃ u, unit = '[' :: u ++ [']']) ∧ (quantity = [] ∨ ∃ q, quantity = '(' :: q ++ [')'])

/-- The text of a point of time: day, name of the month and year, then the time of day. -/
def pointText (day : Nat) (month : List Char) (year : Nat) (clock : List Char) : List Char :=
  decimal day ++ ['/'] ++ month ++ ['/'] ++ decimal year ++ [' '] ++ clock

/-- The text of a time of day; `second` is given as text. -/
def clockText (hour minute : Nat) (second : List Char) : List Char :=
  decimal hour ++ [':'] ++ decimal minute ++ [':'] ++ second

end MBus.Spec
