import Verif.Spec.Calendar
import Verif.Py.Dict
/-!
# Choice of a navigation message
-/
namespace Verif.Spec
open Verif.Py

/-- the loaded messages: system, satellite number, time of day (microseconds), values -/
abbrev Messages := Dict Char (Dict Int (Dict Nat (List PyFloat)))

/-- the messages contain one for the system, the satellite and the time of day -/
def Msg (m : Messages) (system : Char) (number : Int) (time : Nat) (v : List PyFloat) : Prop :=
  ∃ a b, m.get? system = some a ∧ a.get? number = some b ∧ b.get? time = some v

/-- time of day of an epoch in microseconds -/
def timeOfDay (t : DateTime) : Nat := t.hour * 3600000000 + t.minute * 60000000 + t.second * 1000000 + t.micro

/-- whole seconds between a message and an observation (positive: the observation is later) -/
def age (obs msg : Nat) : Int := (obs / 1000000 : Nat) - (msg / 1000000 : Nat)

/-- the message of time `τ` is the earliest of the satellite within `limit` seconds of the observation -/
def EarliestWithin (m : Messages) (system : Char) (number : Int) (limit : Int) (obs τ : Nat) : Prop :=
  (-limit ≤ age obs τ ∧ age obs τ ≤ limit) ∧
  ∀ τ' w, Msg m system number τ' w → -limit ≤ age obs τ' → age obs τ' ≤ limit → τ ≤ τ'

/-- age limits: GLONASS 15 minutes, SBAS 256 s, Galileo 3 hours, GPS and BeiDou 2 hours -/
def ageLimit (system : Char) : Option Int :=
  if system = 'R' then some 900 else if system = 'S' then some 256 else if system = 'E' then some 10800
  else if system = 'G' ∨ system = 'C' then some 7200 else none

/-- whole seconds from `start`, modulo one week -/
def WeekSecond (start t : DateTime) (s : Int) : Prop :=
  0 ≤ s ∧ s < 604800 ∧ ∃ weeks : Int, ∃ us, 0 ≤ us ∧ us < 1000000 ∧ instant t - instant start = (weeks * 604800 + s) * 1000000 + us

/-- the start of the weeks: GPS time, BeiDou (as used by the program: a Sunday of 2006), Galileo (13 s after the start of a GPS week) -/
def weekStart (system : Char) : DateTime :=
  if system = 'G' then ⟨1980, 1, 6, 0, 0, 0, 0⟩ else if system = 'C' then ⟨2006, 1, 1, 0, 0, 0, 0⟩ else ⟨1999, 8, 22, 0, 0, 13, 0⟩

/-- the message used for an observation of a satellite at time `e`, among the messages `L τ v` of the satellite (time of day, values): the one of exactly
that time of day if there is one; otherwise for GPS and BeiDou the first one of the day, for the others the first one within the age limit -/
inductive Chosen (L : Nat → List PyFloat → Prop) (system : Char) (e : DateTime) (τ : Nat) (v : List PyFloat) : Prop
  | exact : L τ v → τ = timeOfDay e → Chosen L system e τ v
  | first : (∀ w, ¬ L (timeOfDay e) w) → system = 'G' ∨ system = 'C' → L τ v → (∀ τ' w, L τ' w → τ ≤ τ') → Chosen L system e τ v
  | window (limit) : (∀ w, ¬ L (timeOfDay e) w) → system ≠ 'G' → system ≠ 'C' → ageLimit system = some limit → L τ v →
      (-limit ≤ age (timeOfDay e) τ ∧ age (timeOfDay e) τ ≤ limit) →
      (∀ τ' w, L τ' w → -limit ≤ age (timeOfDay e) τ' → age (timeOfDay e) τ' ≤ limit → τ ≤ τ') → Chosen L system e τ v

/-- the time argument that goes with it: the second of the week for GPS, BeiDou and Galileo, the seconds since the message for the others -/
def TimeArg (system : Char) (e : DateTime) (τ : Nat) (dt : Rat) : Prop :=
  if system = 'G' ∨ system = 'C' ∨ system = 'E' then ∃ s, WeekSecond (weekStart system) e s ∧ dt = (s : Rat) else dt = (age (timeOfDay e) τ : Rat)

end Verif.Spec
