import Verif.Symmetry.Coded
import Verif.Symmetry.Database

/-!
# The check of every entry of the database, evaluated by the kernel
-/

namespace Verif.Symmetry

set_option maxRecDepth 100000

theorem check_db1 : db1.all check = true := by decide +kernel
theorem check_db2 : db2.all check = true := by decide +kernel
theorem check_db3 : db3.all check = true := by decide +kernel
theorem check_db4 : db4.all check = true := by decide +kernel
theorem check_db5 : db5.all check = true := by decide +kernel

/-- The whole table of names: each of the four ways to name a group finds it. -/
theorem lookup_table : (database.all fun e =>
    (match lookup database (.int e.number) with | .ok e' => decide (e' = e) | .error _ => false) &&
    (match lookup database (.str e.key) with | .ok e' => decide (e' = e) | .error _ => false) &&
    (match lookup database (.str e.hm) with | .ok e' => decide (e' = e) | .error _ => false) &&
    (match lookup database (.str e.fullName) with | .ok e' => decide (e' = e) | .error _ => false)) = true := by
  decide +kernel

end Verif.Symmetry
