import Verif.Model.Clocks
import Verif.Model.Sonardyne
import Verif.Model.ImageParsers
import Verif.Model.Phins
import Verif.Spec.Clocks
import Mathlib.Tactic.Ring
import Mathlib.Tactic.Linarith
import Mathlib.Tactic.NormNum

/-! # C196: the clocks of all devices are treated alike -/

namespace Oplab.Props
open Oplab Oplab.Spec

/-- C196 (partial): for each kind of log, exactly when its times are the true ones. Missing: all times of the logs for which the condition does
not hold, see `C196_clocks_false`. -/
theorem C196_right_iff_partial (c : ClockSettings) (t : ℚ) :
    recordedTime .zoned c t = trueInstant c t ∧
    (recordedTime .ae2000 c t = trueInstant c t ↔ c.tz = 0) ∧
    (recordedTime .payload c t = trueInstant c t ↔ c.tz = 0) ∧
    (recordedTime .rdi c t = trueInstant c t ↔ c.tz = 0) ∧
    (recordedTime .rosbag c t = trueInstant c t ↔ c.off = -30 * c.tz) ∧
    (recordedTime .mrt c t = trueInstant c t ↔ c.here = 0) ∧
    (recordedTime .gga c t = trueInstant c t ↔ c.off = -1800 * c.here) ∧
    (recordedTime .voyis c t = trueInstant c t ↔ c.off = 0) ∧
    (recordedTime .alr c t = trueInstant c t ↔ c.off = 3600 * c.tz) ∧
    (recordedTime .naive c t = trueInstant c t ↔ c.off = 3600 * (c.tz - c.here)) := by
  simp only [recordedTime, trueInstant, ClockSettings.offsetS]
  refine ⟨by ring, ?_, ?_, ?_, ?_, ?_, ?_, ?_, ?_, ?_⟩ <;> constructor <;> intro h <;> linarith

/-- Non-vacuity: a device in the zone 9. -/
example : recordedTime .zoned ⟨9, 1, 0⟩ 40000 = 7601 ∧ recordedTime .rdi ⟨9, 1, 0⟩ 40000 = 72401 := by
  constructor <;> norm_num [recordedTime, ClockSettings.offsetS]

/-- C196 is false, by eighteen hours for the log of an RDI instrument in the zone of Japan. -/
theorem C196_clocks_false : ¬ ClocksRight ∧ ∀ off here t, recordedTime .rdi ⟨9, off, here⟩ t = trueInstant ⟨9, off, here⟩ t + 18 * 3600 := by
  refine ⟨?_, ?_⟩
  · intro h
    have := ((C196_right_iff_partial ⟨9, 0, 0⟩ 0).2.1).mp (h .ae2000 ⟨9, 0, 0⟩ 0)
    norm_num at this
  · intro off here t
    simp only [recordedTime, trueInstant, ClockSettings.offsetS]
    ring

/-- C196: the logs of a mission agree about every time exactly if the zone, the offset and the zone of the computer are all zero. -/
theorem C196_agree_iff (c : ClockSettings) : (∀ s s' t, recordedTime s c t = recordedTime s' c t) ↔ c.tz = 0 ∧ c.off = 0 ∧ c.here = 0 := by
  constructor
  · intro h
    have h1 := h .zoned .ae2000 0
    have h2 := h .zoned .voyis 0
    have h3 := h .zoned .mrt 0
    simp only [recordedTime] at h1 h2 h3
    refine ⟨by linarith, by linarith, by linarith⟩
  · rintro ⟨h1, h2, h3⟩ s s' t
    cases s <;> cases s' <;> simp only [recordedTime, ClockSettings.offsetS, h1, h2, h3] <;> ring

/-- Non-vacuity: all in universal time. -/
example : ∀ s s' t, recordedTime s ⟨0, 0, 0⟩ t = recordedTime s' ⟨0, 0, 0⟩ t := (C196_agree_iff _).mpr ⟨rfl, rfl, rfl⟩

/-- C196: the time between two entries of a log is the one the device measured. -/
theorem C196_differences (s : LogSource) (c : ClockSettings) (t u : ℚ) : recordedTime s c t - recordedTime s c u = t - u := by
  cases s <;> simp only [recordedTime] <;> ring

/-- C196: the rules above are those of the modelled parsers: a PHINS log (and likewise every parser that hands the zone to
`dateTimeToEpoch`), MRT and GGA exports, VOYIS images and times without a zone. -/
theorem C196_rules (c : ClockSettings) :
    (∀ (d : DateTime) ms t, d.us = 0 → phinsGet d.year d.month d.day c.tz c.off d.hour d.minute d.second ms = .ok t →
      t = recordedTime .zoned c (d.seconds + ms / 1000)) ∧
    (∀ t : ℚ, mrtTime c.here c.tz c.off t = recordedTime .mrt c t) ∧
    (∀ t : ℚ, ggaTime c.here c.tz c.off t = recordedTime .gga c t) ∧
    (∀ t : ℚ, t + voyisOffset c.tz c.off = recordedTime .voyis c t) ∧
    (∀ d : DateTime, naiveEpoch c.here d = recordedTime .naive c (d.seconds + d.us / 1000000)) ∧
    (∀ toFloat z, missionTimezone toFloat z = .ok c.tz → missionOffsetSeconds toFloat z c.off = .ok c.offsetS) := by
  refine ⟨?_, fun _ => rfl, fun _ => rfl, fun _ => rfl, fun _ => rfl, ?_⟩
  · rintro ⟨y, mo, da, h, mi, s, us⟩ ms t rfl ht
    simp only [phinsGet, dateTimeToEpoch] at ht
    split at ht
    · simp only [bind, Except.bind, Except.ok.injEq] at ht
      rw [← ht]
      simp only [recordedTime, Nat.cast_zero, zero_div, add_zero]
      ring
    · simp [bind, Except.bind] at ht
  · intro f z hz
    simp only [missionOffsetSeconds, hz, bind, Except.bind]
    rfl

/-- Non-vacuity: noon of 2 January 1970 in the zone 9, 250 ms later. -/
example : (phinsGet 1970 1 2 9 0 12 0 0 250).toOption = some (recordedTime .zoned ⟨9, 0, 0⟩ (86400 + 43200 + 1 / 4)) := by
  decide +kernel

end Oplab.Props
