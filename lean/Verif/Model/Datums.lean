import Mathlib.Data.Rat.Defs
/-!
# The ellipsoids of examples/datums.py
-/
namespace Nmea.Datum

/-- The `a` and `f` of every entry of `DATUMS`, in order (examples/datums.py 19-1012); the decimal literals as exact
rationals. The names and the shifts `dx`, `dy`, `dz` are not modelled. -/
def datums : List (ℚ × ℚ) := [
  (6378024855 / 1000, 293464999995854 / 1000000000000),
  (6378029, 298299999956546 / 1000000000000),
  (6377886, 297000000022571 / 1000000000000),
  (63780676 / 10, 294978698229674 / 1000000000000),
  (63780676 / 10, 294978698229674 / 1000000000000),
  (6378114, 298250000043564 / 1000000000000),
  (6378024855 / 1000, 293464999995854 / 1000000000000),
  (6378024855 / 1000, 293464999995854 / 1000000000000),
  (6377886, 297000000022571 / 1000000000000),
  (6377886, 297000000022571 / 1000000000000),
  (6377886, 297000000022571 / 1000000000000),
  (6377886, 297000000022571 / 1000000000000),
  (6377886, 297000000022571 / 1000000000000),
  (6378114, 298250000043564 / 1000000000000),
  (63780676 / 10, 294978698229674 / 1000000000000),
  (6377886, 297000000022571 / 1000000000000),
  (63780676 / 10, 294978698229674 / 1000000000000),
  (6377886, 297000000022571 / 1000000000000),
  (6378876845 / 1000, 299152812838242 / 1000000000000),
  (6377886, 297000000022571 / 1000000000000),
  (6377886, 297000000022571 / 1000000000000),
  (63780676 / 10, 294978698229674 / 1000000000000),
  (63780676 / 10, 294978698229674 / 1000000000000),
  (6377886, 297000000022571 / 1000000000000),
  (6378024855 / 1000, 293464999995854 / 1000000000000),
  (63780676 / 10, 294978698229674 / 1000000000000),
  (63780676 / 10, 294978698229674 / 1000000000000),
  (6378024855 / 1000, 293464999995854 / 1000000000000),
  (63780676 / 10, 294978698229674 / 1000000000000),
  (6377886, 297000000022571 / 1000000000000),
  (6377886, 297000000022571 / 1000000000000),
  (6377886, 297000000022571 / 1000000000000),
  (6377886, 297000000022571 / 1000000000000),
  (63780676 / 10, 294978698229674 / 1000000000000),
  (6377886, 297000000022571 / 1000000000000),
  (6378876845 / 1000, 299152812838242 / 1000000000000),
  (6377886, 297000000022571 / 1000000000000),
  (6377886, 297000000022571 / 1000000000000),
  (6377886, 297000000022571 / 1000000000000),
  (6377886, 297000000022571 / 1000000000000),
  (6377886, 297000000022571 / 1000000000000),
  (6377886, 297000000022571 / 1000000000000),
  (6377886, 297000000022571 / 1000000000000),
  (6377886, 297000000022571 / 1000000000000),
  (6377886, 297000000022571 / 1000000000000),
  (6378137, 298257223563 / 1000000000),
  (63780676 / 10, 294978698229674 / 1000000000000),
  (63780676 / 10, 294978698229674 / 1000000000000),
  (6378876845 / 1000, 299152812838242 / 1000000000000),
  (6378137, 298257223563 / 1000000000),
  (6377886, 297000000022571 / 1000000000000),
  (6377886, 297000000022571 / 1000000000000),
  (6377886, 297000000022571 / 1000000000000),
  (6377886, 297000000022571 / 1000000000000),
  (6377886, 297000000022571 / 1000000000000),
  (6378997655 / 1000, 300801699992346 / 1000000000000),
  (6377886, 297000000022571 / 1000000000000),
  (6378933811 / 1000, 299324964577565 / 1000000000000),
  (6377886, 297000000022571 / 1000000000000),
  (6377886, 297000000022571 / 1000000000000),
  (6378997655 / 1000, 300801699992346 / 1000000000000),
  (6377886, 297000000022571 / 1000000000000),
  (6378969937 / 1000, 300801699992346 / 1000000000000),
  (63780676 / 10, 294978698229674 / 1000000000000),
  (6377886, 297000000022571 / 1000000000000),
  (6378024855 / 1000, 293464999995854 / 1000000000000),
  (63780676 / 10, 294978698229674 / 1000000000000),
  (6378024855 / 1000, 293464999995854 / 1000000000000),
  (6377886, 297000000022571 / 1000000000000),
  (6378024855 / 1000, 293464999995854 / 1000000000000),
  (6378876845 / 1000, 299152812838242 / 1000000000000),
  (6378024855 / 1000, 293464999995854 / 1000000000000),
  (63780676 / 10, 294978698229674 / 1000000000000),
  (6377886, 297000000022571 / 1000000000000),
  (63780676 / 10, 294978698229674 / 1000000000000),
  (6378024855 / 1000, 293464999995854 / 1000000000000),
  (6378137, 298257223563 / 1000000000),
  (6378024855 / 1000, 293464999995854 / 1000000000000),
  (6377886, 297000000022571 / 1000000000000),
  (6378137, 298257222139682 / 1000000000000),
  (63780676 / 10, 294978698229674 / 1000000000000),
  (6377886, 297000000022571 / 1000000000000),
  (6378074, 298299999956546 / 1000000000000),
  (63780676 / 10, 294978698229674 / 1000000000000),
  (63780676 / 10, 294978698229674 / 1000000000000),
  (63780676 / 10, 294978698229674 / 1000000000000),
  (63780676 / 10, 294978698229674 / 1000000000000),
  (6378024855 / 1000, 293464999995854 / 1000000000000),
  (6378710604 / 1000, 299324964577565 / 1000000000000),
  (6377886, 297000000022571 / 1000000000000),
  (6377886, 297000000022571 / 1000000000000),
  (6378876845 / 1000, 299152812838242 / 1000000000000),
  (6377886, 297000000022571 / 1000000000000),
  (6377886, 297000000022571 / 1000000000000),
  (63780676 / 10, 294978698229674 / 1000000000000),
  (6378029, 298299999956546 / 1000000000000),
  (6377886, 297000000022571 / 1000000000000),
  (6377886, 297000000022571 / 1000000000000),
  (6377886, 297000000022571 / 1000000000000),
  (6378029, 298299999956546 / 1000000000000),
  (6378997655 / 1000, 300801699992346 / 1000000000000),
  (6378114, 298250000043564 / 1000000000000),
  (6377886, 297000000022571 / 1000000000000),
  (6377886, 297000000022571 / 1000000000000),
  (6377886, 297000000022571 / 1000000000000),
  (6378790135 / 1000, 299152812838242 / 1000000000000),
  (6377886, 297000000022571 / 1000000000000),
  (6378137, 298257223563 / 1000000000),
  (6378114, 298250000043564 / 1000000000000),
  (6378119, 298299999956546 / 1000000000000),
  (6377886, 297000000022571 / 1000000000000),
  (6377886, 297000000022571 / 1000000000000),
  (6377886, 297000000022571 / 1000000000000),
  (6378997655 / 1000, 300801699992346 / 1000000000000),
  (6378997655 / 1000, 300801699992346 / 1000000000000),
  (6378876845 / 1000, 299152812838242 / 1000000000000),
  (6377886, 297000000022571 / 1000000000000),
  (6378024855 / 1000, 293464999995854 / 1000000000000),
  (6378024855 / 1000, 293464999995854 / 1000000000000),
  (6378004, 297000000022571 / 1000000000000),
  (6378139, 298259999999113 / 1000000000000),
  (6378137, 298257223563 / 1000000000),
  (6377886, 297000000022571 / 1000000000000),
  (6377886, 297000000022571 / 1000000000000)]

end Nmea.Datum
