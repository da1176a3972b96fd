import Verif.Spec.Options
/-! Specification vocabulary for C79: which moments exist, and how texts write them. -/
namespace Jq

/-- A leap year of the Gregorian calendar. -/
def LeapYear (y : Nat) : Prop := (4 ∣ y ∧ ¬ 100 ∣ y) ∨ 400 ∣ y

instance (y : Nat) : Decidable (LeapYear y) := inferInstanceAs (Decidable (_ ∨ _))

/-- The lengths of the months of a year, January first. -/
def monthLengths (y : Nat) : List Nat := [31, if LeapYear y then 29 else 28, 31, 30, 31, 30, 31, 31, 30, 31, 30, 31]

/-- There is such a moment in the years 1 to 9999. -/
structure DT.Exists (d : DT) : Prop where
  year : 1 ≤ d.year ∧ d.year ≤ 9999
  date : 1 ≤ d.month ∧ 1 ≤ d.day ∧ ∃ n, (monthLengths d.year)[d.month - 1]? = some n ∧ d.day ≤ n
  time : d.hour < 24 ∧ d.minute < 60 ∧ d.second < 60 ∧ d.us < 1000000

/-- `w` is decimal digits standing for `n`. -/
def Num (w : Str) (n : Nat) : Prop := w ≠ [] ∧ (∀ c ∈ w, '0' ≤ c ∧ c ≤ '9') ∧ decimal w = n

/-- One or two digits. -/
def Short (w : Str) (n : Nat) : Prop := w.length ≤ 2 ∧ Num w n

/-- A fraction of a second, in microseconds: nothing, or a dot and one to six digits. -/
inductive Fraction : Str → Nat → Prop where
  | none : Fraction [] 0
  | digits (ds : Str) (n : Nat) (hl : ds.length ≤ 6) (h : Num ds n) : Fraction ('.' :: ds) (n * 10 ^ (6 - ds.length))

/-- A day of the month: one or two digits, or a blank and one digit. -/
inductive DayField : Str → Nat → Prop where
  | digits (w : Str) (n : Nat) (h : Short w n) : DayField w n
  | blank (c : Char) (n : Nat) (h : Num [c] n) : DayField [' ', c] n

/-- The text `year-month-day hour:minute:second[.fraction]` of a moment. -/
def DT.WrittenIn (d : DT) (s : Str) : Prop :=
  ∃ y mo da sp h mi se fr : Str,
    s = y ++ '-' :: (mo ++ '-' :: (da ++ (sp ++ (h ++ ':' :: (mi ++ ':' :: (se ++ fr)))))) ∧
    (y.length = 4 ∧ Num y d.year) ∧ Short mo d.month ∧ DayField da d.day ∧ (sp ≠ [] ∧ ∀ c ∈ sp, isSpace c = true) ∧
    Short h d.hour ∧ Short mi d.minute ∧ Short se d.second ∧ Fraction fr d.us

/-- The fourteen digits `YYYYMMDDhhmmss` of a moment. -/
def DT.Digits14 (d : DT) (s : Str) : Prop :=
  ∃ y mo da h mi se : Str, s = y ++ (mo ++ (da ++ (h ++ (mi ++ se)))) ∧ (y.length = 4 ∧ Num y d.year) ∧
    (mo.length = 2 ∧ Num mo d.month) ∧ (da.length = 2 ∧ Num da d.day) ∧ (h.length = 2 ∧ Num h d.hour) ∧
    (mi.length = 2 ∧ Num mi d.minute) ∧ (se.length = 2 ∧ Num se d.second) ∧ d.us = 0

end Jq
