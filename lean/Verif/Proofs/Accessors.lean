import Verif.Spec.Accessors
/-!
# Lemmas about accessors
-/
set_option autoImplicit false
namespace Amqp

theorem named {α : Type} {mem : Env → Dec α} {mk : α → Frame} {name : String} {code : UInt64}
    {symbol : String} (h : Alternative Frame.decode mem mk code symbol)
    (hn : ∀ v, (mk v).name = name) : Named mem mk name code symbol := by
  refine ⟨hn, fun env u payload d hu hd rest f => ?_⟩
  rw [h env u payload d hu hd]
  cases mem env (0x00 :: (u ++ payload)) with
  | ok p =>
    obtain ⟨r, v⟩ := p
    refine ⟨fun e => ?_, fun ⟨w, e1, e2⟩ => ?_⟩
    · cases e; exact ⟨v, rfl, rfl⟩
    · cases e1; rw [e2]
  | err e => exact ⟨fun e => (by cases e), fun ⟨_, e, _⟩ => (by cases e)⟩
  | panic e => exact ⟨fun e => (by cases e), fun ⟨_, e, _⟩ => (by cases e)⟩

end Amqp
