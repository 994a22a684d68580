import Verif.Basic
/-!
# Comparing builds

The same program may be built with or without overflow checks and run with a
smaller or larger stack.
-/
set_option autoImplicit false
namespace Amqp

/-- `b` is a build like `a`, perhaps with a larger stack, perhaps without the
overflow checks of `a`. -/
def Env.Relaxed (a b : Env) : Prop :=
  a.stackDepth ≤ b.stackDepth ∧ (b.overflowChecks = true → a.overflowChecks = true)

/-- A panic of build `a` that build `b` need not have: for want of stack where `b`
has more, on overflow where `b` does not check. -/
def Env.Spares (a b : Env) (p : Panic) : Prop :=
  p = .stackOverflow ∧ a.stackDepth < b.stackDepth ∨
  p = .overflow ∧ a.overflowChecks = true ∧ b.overflowChecks = false

/-- The outcome `x` in build `a` and the outcome `y` in build `b` are the same,
or `x` is a panic that `b` need not have. -/
def SameOutcome {ε α : Type} (a b : Env) (x y : Res ε α) : Prop :=
  y = x ∨ ∃ p, a.Spares b p ∧ x = .panic p

end Amqp
