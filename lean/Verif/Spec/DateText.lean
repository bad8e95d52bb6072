import Verif.Model.DateText
/-!
How a date is written in a format.
-/
namespace Tcrm.DateText

/-- The decimal digit of a number below ten. -/
def numeral (n : ℕ) : Char := Char.ofNat (48 + n)

/-- A number below a hundred in two digits, one below ten thousand in four. -/
def two (n : ℕ) : Text := [numeral (n / 10), numeral (n % 10)]
def four (n : ℕ) : Text := [numeral (n / 1000), numeral (n / 100 % 10), numeral (n / 10 % 10), numeral (n % 10)]

/-- What a format says: a letter after a percent sign stands for a component (or the sign itself), blanks in a row for
blanks, any other character for itself. -/
inductive Means : Text → List Item → Prop
  | done : Means [] []
  | year {t f} : Means t f → Means ('%' :: 'Y' :: t) (.field .year :: f)
  | month {t f} : Means t f → Means ('%' :: 'm' :: t) (.field .month :: f)
  | day {t f} : Means t f → Means ('%' :: 'd' :: t) (.field .day :: f)
  | hour {t f} : Means t f → Means ('%' :: 'H' :: t) (.field .hour :: f)
  | minute {t f} : Means t f → Means ('%' :: 'M' :: t) (.field .minute :: f)
  | second {t f} : Means t f → Means ('%' :: 'S' :: t) (.field .second :: f)
  | percent {t f} : Means t f → Means ('%' :: '%' :: t) (.lit '%' :: f)
  | blank {t f} (n : ℕ) : (∀ t', t ≠ ' ' :: t') → Means t f → Means (List.replicate (n + 1) ' ' ++ t) (.blank :: f)
  | lit {t f} (c : Char) : c ≠ '%' → c ≠ ' ' → Means t f → Means (c :: t) (.lit c :: f)

/-- A date and time of the calendar. -/
def Real (d : DateTime) : Prop :=
  1 ≤ d.year ∧ d.year ≤ 9999 ∧ 1 ≤ d.month ∧ d.month ≤ 12 ∧ 1 ≤ d.day ∧
    d.day ≤ Dates.daysInMonth (Dates.isLeap d.year) d.month ∧ d.hour < 24 ∧ d.minute < 60 ∧ d.second < 60

/-- The text is the date written in the format: the year in four digits; the other components in two, or below ten in
one if no digit follows; a blank of the format as one or more blanks. -/
inductive Written (d : DateTime) : List Item → Text → Prop
  | done : Written d [] []
  | lit {c f t} : Written d f t → Written d (.lit c :: f) (c :: t)
  | blank {f t} (n : ℕ) : (∀ t', t ≠ ' ' :: t') → Written d f t → Written d (.blank :: f) (List.replicate (n + 1) ' ' ++ t)
  | year {f t} : Written d f t → Written d (.field .year :: f) (four d.year ++ t)
  | padded {f t} (k : Field) : k ≠ .year → Written d f t → Written d (.field k :: f) (two (d.get k) ++ t)
  | short {f t} (k : Field) : k ≠ .year → d.get k < 10 → (∀ c t', t = c :: t' → digit? c = none) → Written d f t →
      Written d (.field k :: f) (numeral (d.get k) :: t)

/-- The text is a decimal number, perhaps after a blank. -/
def Number (s : Text) (n : ℕ) : Prop :=
  ∃ ds : List ℕ, ds ≠ [] ∧ (∀ k ∈ ds, k < 10) ∧ (s = ds.map numeral ∨ s = ' ' :: ds.map numeral) ∧
    n = ds.foldl (fun v k => 10 * v + k) 0

/-- The text follows the format, with the numbers `g` for its directives. -/
inductive Denotes (g : Field → ℕ) : List Item → Text → Prop
  | done : Denotes g [] []
  | lit {c x f t} : c.toLower = x.toLower → Denotes g f t → Denotes g (.lit c :: f) (x :: t)
  | blank {f t} (n : ℕ) : Denotes g f t → Denotes g (.blank :: f) (List.replicate (n + 1) ' ' ++ t)
  | field {f t} (k : Field) (s : Text) : Number s (g k) → Denotes g f t → Denotes g (.field k :: f) (s ++ t)

/-- The date with the components that the format does not name set to 1 January 1900, 00:00:00. -/
def named (f : List Item) (d : DateTime) : DateTime :=
  let pick (k : Field) : ℕ := if Item.field k ∈ f then d.get k else unnamed k
  ⟨pick .year, pick .month, pick .day, pick .hour, pick .minute, pick .second⟩

end Tcrm.DateText
