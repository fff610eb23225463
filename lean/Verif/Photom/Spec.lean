import Mathlib.Geometry.Euclidean.Angle.Unoriented.Basic
import Mathlib.Analysis.InnerProductSpace.PiL2
import Mathlib.Analysis.SpecialFunctions.Trigonometric.Basic

/-!
# Specification vocabulary for photometry and sky positions (independent of the model)
-/

namespace Sorcha.Photom.Spec
open Real

/-- Length of the trail of an object moving with `u`, `v` degrees per day along the two axes during an exposure of `t`
seconds, in units of the seeing `s` (arcseconds): a degree is 3600 arcseconds, a day 86400 seconds. -/
noncomputable def trailLength (u v s t : ℝ) : ℝ := √(u ^ 2 + v ^ 2) * 3600 / 86400 * t / s

/-- Fit parameters of Veres and Chesley (2017) for the two kinds of loss. -/
inductive Loss : String → ℝ → ℝ → Prop
  | trail : Loss "trailedSource" 0.761 1.162
  | detect : Loss "circularPSF" 0.420 0.003

/-- The point of the unit sphere with right ascension `ra` and declination `dec` (degrees). -/
noncomputable def direction (ra dec : ℝ) : EuclideanSpace ℝ (Fin 3) :=
  !₂[cos (dec * π / 180) * cos (ra * π / 180), cos (dec * π / 180) * sin (ra * π / 180), sin (dec * π / 180)]

/-- Angle in degrees between two directions. -/
noncomputable def separation (ra1 dec1 ra2 dec2 : ℝ) : ℝ :=
  InnerProductGeometry.angle (direction ra1 dec1) (direction ra2 dec2) * 180 / π

/-- Fraction of the light (in millionths) that reaches the focal plane at a distance (in hundredths of a degree) from the optical axis, as tabulated for the
LSST camera. -/
def throughput : List (ℕ × ℕ) := [
  (0, 623885), (2, 623885), (4, 623885), (6, 623885), (8, 623885), (10, 623885), (12, 623885), (14, 623885),
  (16, 623885), (18, 623885), (20, 623885), (22, 623885), (24, 623885), (26, 623885), (28, 623885), (30, 623885),
  (32, 623885), (34, 623885), (36, 623885), (38, 623885), (40, 623885), (42, 623885), (44, 623885), (46, 623885),
  (48, 623885), (50, 623885), (52, 623885), (54, 623885), (56, 623885), (58, 623885), (60, 623885), (62, 623885),
  (64, 623885), (66, 623822), (68, 623759), (70, 623632), (72, 623442), (74, 623316), (76, 623000), (78, 622494),
  (80, 622367), (82, 621861), (84, 621671), (86, 621292), (88, 621039), (90, 620659), (92, 620216), (94, 619963),
  (96, 619394), (98, 619204), (100, 618635), (102, 618319), (104, 618066), (106, 617496), (108, 617117),
  (110, 616737), (112, 616168), (114, 615535), (116, 614840), (118, 614207), (120, 613385), (122, 612436),
  (124, 611614), (126, 610602), (128, 609716), (130, 608957), (132, 608071), (134, 606996), (136, 605668),
  (138, 604972), (140, 603770), (142, 602758), (144, 601177), (146, 599595), (148, 598140), (150, 595673),
  (152, 594282), (154, 592447), (156, 590613), (158, 588526), (160, 586312), (162, 584287), (164, 582137),
  (166, 580113), (168, 578025), (170, 576064), (172, 573344), (174, 570561), (176, 563730), (178, 545322),
  (180, 521412), (182, 492757), (184, 460624), (186, 429565), (188, 404959), (190, 383073), (192, 356190),
  (194, 317161), (196, 279777), (198, 241824), (200, 201974)]

end Sorcha.Photom.Spec
