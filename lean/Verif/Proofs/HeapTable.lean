import Verif.Spec.HeapApi
import Verif.Proofs.HeapSound
/-! # The checker accepts the library -/
namespace M4rie.Res

theorem table_checked (fix : Bool) : ∀ f, ∀ s ∈ api fix f, checkFn (table fix) (api fix) f s = true := by
  intro f
  rw [← List.all_eq_true (p := fun s => checkFn (table fix) (api fix) f s)]
  cases fix <;> cases f <;> decide +kernel

end M4rie.Res
