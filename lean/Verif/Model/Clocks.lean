import Verif.Model.Time
import Verif.Model.SensorFrom

/-! # What each parser makes of the time its device wrote

The text conversions are in the models of the parsers; here only time zone and offset are treated. -/

namespace Oplab

/-- Settings of an entry of mission.yaml, `tz` hours and `off` seconds, and the zone of the computer, `here` hours. (mission.py L40-71,
sensors.py L230) -/
structure ClockSettings where
  tz : ℚ
  off : ℚ
  here : ℚ

/-- The parsers. (parse.py L254-645) -/
inductive LogSource where
  /-- parse_gaps.py L116-127, parse_phins.py L30-36, parse_NOC_nmea.py L65-68, parse_NOC_polpred.py L57-60, parse_tide_CTI.py L66-69,
  parse_usbl_dump.py L74-80, parse_acfr_images.py L43-47, parse_biocam_images.py L51-55, parse_ntnu_stereo.py L43-44,
  parse_seaxerocks_images.py L137-142 -/
  | zoned
  /-- parse_ae2000.py L115-123 -/
  | ae2000
  /-- parse_rdi.py L50-59, L100-110 -/
  | rdi
  /-- parse_rosbag.py L149-168, sensors.py L341 -/
  | rosbag
  /-- parse_sonardyne_mrt.py L30-38, L616-620, L703 -/
  | mrt
  /-- parse_sonardyne_mrt.py L758-762, L820-825 -/
  | gga
  /-- parse_voyis.py L54-58, L74 -/
  | voyis
  /-- parse_alr.py L26, parse_autosub.py L26 -/
  | alr
  /-- sensors.py L230 (NTNU DVL), L655, L891, L1276 (EIVA), parse_koyo21rov.py L86-100 -/
  | naive
  /-- generic_csv_payload_parser.py L19 -/
  | payload
deriving DecidableEq

/-- mission.py L70-71 `offset_s`: the time zone in seconds plus the offset. -/
def ClockSettings.offsetS (c : ClockSettings) : ℚ := c.tz * 60 * 60 + c.off

/-- The time that is recorded if the device wrote `t` (its date and time of day as seconds, as if in universal time). -/
def recordedTime (s : LogSource) (c : ClockSettings) (t : ℚ) : ℚ :=
  match s with
  | .zoned => t - c.tz * 3600 + c.off
  | .ae2000 => t + c.off
  | .rdi => t + c.offsetS
  | .rosbag => t - (c.tz * 60 + c.offsetS)
  | .mrt => t - c.here * 3600 + (-c.tz * 60 * 60 + c.off)
  | .gga => t - c.here * 3600 + (-c.tz * 60 * 60 - c.off)
  | .voyis => t + (-c.tz * 60 * 60 - c.off)
  | .alr => t
  | .naive => t - c.here * 3600
  | .payload => t + c.off

end Oplab
