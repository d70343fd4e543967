import Verif.Lemmas.Run
import Verif.Model.User

/-! # Concrete runs, evaluated by the kernel -/

set_option autoImplicit false

namespace Ramp

/-- The appliance is what `add_appliance` returns for these arguments, for a user that has no appliance yet. -/
def BuiltAs (args : AddArgs) (app : Appliance) : Prop := ∃ u, addAppliance true 1 366 {} args = (u, .ok app)

/-- The appliance returned by `add_appliance`, if any. -/
def builtBy (args : AddArgs) : Option Appliance := match (addAppliance true 1 366 {} args).2 with
  | .ok app => some app
  | .error _ => none

theorem builtBy_some {args : AddArgs} {app : Appliance} (h : builtBy args = some app) : BuiltAs args app := by
  unfold builtBy at h
  cases hr : addAppliance true 1 366 {} args with
  | mk u r =>
    rw [hr] at h
    cases r with
    | ok a => simp at h; subst h; exact ⟨u, hr⟩
    | error e => simp at h

/-- The bookings of a run on given draws. -/
def runOf (m : Sim (Appliance × Option RunInfo)) (rng : Rng) : Option (List Booking) := match m rng with
  | .ok ((_, some info), _) => some info.bookings
  | _ => none

theorem runOf_some {m : Sim (Appliance × Option RunInfo)} {rng : Rng} {l : List Booking} (h : runOf m rng = some l) :
    ∃ app' info, Returns m (app', some info) ∧ info.bookings = l := by
  unfold runOf at h
  cases hm : m rng with
  | error e => rw [hm] at h; simp at h
  | ok p =>
    obtain ⟨⟨a, o⟩, r⟩ := p
    rw [hm] at h
    cases o with
    | none => simp at h
    | some info => simp at h; exact ⟨a, info, ⟨rng, r, hm⟩, h⟩

theorem built_run {args : AddArgs} {depth profI : ℕ} {pref : ℤ} {peak : List ℤ} {dayType : ℤ} {power : ℚ} {rng : Rng}
    {l : List Booking}
    (h : (builtBy args).bind (fun app => runOf (generateLoadProfileInfo app depth pref profI peak dayType power) rng) = some l) :
    ∃ app app' info, BuiltAs args app ∧
      Returns (generateLoadProfileInfo app depth pref profI peak dayType power) (app', some info) ∧ info.bookings = l := by
  cases hb : builtBy args with
  | none => rw [hb] at h; simp at h
  | some app =>
    rw [hb] at h
    obtain ⟨app', info, h1, h2⟩ := runOf_some h
    exact ⟨app, app', info, builtBy_some hb, h1, h2⟩

/-- The same draw over and over. -/
def constantDraws (k : ℕ) : Rng := fun _ => ⟨0, le_rfl, by norm_num, k, 0⟩

end Ramp
