import Verif.Spec.TableWork
import Verif.Props.Hashing
/-!
# Colliding keys

Lemmas for C77: the number of comparisons of a run of insertions, the pigeonhole
principle, and families of distinct keys.
-/
set_option autoImplicit false
namespace Amqp
open StrRepr (HashWrite strHash)

section
variable {K V H : Type} [HashKey K] {hasher : Option (List HashWrite) → H}

theorem TableStep.insert {k : K} {v : V} {l l' : List (K × V)} {n : Nat}
    (h : TableStep hasher k v l l' n) : TableInsert hasher k v l l' := by
  cases h with
  | replaced l1 l2 _ e _ he hp _ _ => exact .replaced l1 l2 _ e he hp
  | added _ _ cs os hp hc ho hl =>
    refine .added _ _ (fun e he hh => ?_) hl
    rcases List.mem_append.1 (hp.mem_iff.1 he) with h1 | h1
    · exact hc e h1
    · exact absurd hh (ho e h1)

theorem TableWork.run {l pairs l' : List (K × V)} {n : Nat}
    (h : TableWork hasher l pairs l' n) : TableRun hasher l pairs l' := by
  induction h with
  | done l => exact .done l
  | step l m n k v t c d hs _ ih => exact .step l m n k v t hs.insert ih

theorem TableStep.le {k : K} {v : V} {l l' : List (K × V)} {n : Nat}
    (h : TableStep hasher k v l l' n) : n ≤ l.length ∧ l'.length ≤ l.length + 1 := by
  cases h with
  | replaced l1 l2 _ e _ he hp _ hn =>
    refine ⟨hn, ?_⟩
    rw [hp.length_eq]; simp
  | added _ _ cs os hp hc ho hl =>
    refine ⟨?_, ?_⟩
    · rw [hp.length_eq]; simp
    · rw [hl.length_eq]; simp

theorem TableWork.le {l pairs l' : List (K × V)} {n : Nat} (h : TableWork hasher l pairs l' n) :
    2 * n ≤ pairs.length * (2 * l.length + pairs.length - 1) := by
  induction h with
  | done l => simp
  | step l m n k v t c d hs _ ih =>
    obtain ⟨h1, h2⟩ := hs.le
    simp only [List.length_cons]
    have h3 : t.length * (2 * m.length + t.length - 1) ≤ t.length * (2 * l.length + t.length + 1) :=
      Nat.mul_le_mul_left _ (by omega)
    have h4 : (t.length + 1) * (2 * l.length + (t.length + 1) - 1) =
        t.length * (2 * l.length + t.length + 1) + 2 * l.length := by
      rw [show 2 * l.length + (t.length + 1) - 1 = 2 * l.length + t.length by omega,
        Nat.add_mul, Nat.one_mul, Nat.mul_add t.length (2 * l.length + t.length) 1]
      omega
    omega

theorem TableStep.keys {k : K} {v : V} {l l' : List (K × V)} {n : Nat}
    (h : TableStep hasher k v l l' n) : ∀ e ∈ l, ∃ f ∈ l', f.1 = e.1 := by
  intro e he
  cases h with
  | replaced l1 l2 _ f _ hf hp _ _ =>
    rcases List.mem_append.1 he with h1 | h1
    · exact ⟨e, hp.mem_iff.2 (by simp [h1]), rfl⟩
    · rcases List.mem_cons.1 h1 with rfl | h1
      · exact ⟨(e.1, v), hp.mem_iff.2 (by simp), rfl⟩
      · exact ⟨e, hp.mem_iff.2 (by simp [h1]), rfl⟩
  | added _ _ cs os hp hc ho hl => exact ⟨e, hl.mem_iff.2 (by simp [he]), rfl⟩

theorem TableWork.keys {l pairs l' : List (K × V)} {n : Nat} (h : TableWork hasher l pairs l' n) :
    ∀ e ∈ l, ∃ f ∈ l', f.1 = e.1 := by
  induction h with
  | done l => exact fun e he => ⟨e, he, rfl⟩
  | step l m n k v t c d hs _ ih =>
    intro e he
    obtain ⟨f, hf, e1⟩ := hs.keys e he
    obtain ⟨g, hg, e2⟩ := ih f hf
    exact ⟨g, hg, e2.trans e1⟩

/-- A table whose keys all have one hash has compared every two of them. -/
theorem TableWork.ge {l pairs l' : List (K × V)} {n : Nat} {x : H}
    (h : TableWork hasher l pairs l' n) (hx : ∀ e ∈ l', hasher (HashKey.hash e.1) = x) :
    l'.length * (l'.length - 1) ≤ 2 * n + l.length * (l.length - 1) := by
  induction h with
  | done l => omega
  | step l m n k v t c d hs hw ih =>
    have h1 := ih hx
    suffices h2 : m.length * (m.length - 1) ≤ 2 * c + l.length * (l.length - 1) by omega
    have hm : ∀ e ∈ m, hasher (HashKey.hash e.1) = x := fun e he => by
      obtain ⟨f, hf, e1⟩ := hw.keys e he
      rw [← e1]; exact hx f hf
    cases hs with
    | replaced l1 l2 _ e _ he hp _ _ =>
      rw [hp.length_eq]; simp
    | added _ _ cs os hp hc ho hl =>
      have hk := hm (k, v) (hl.mem_iff.2 (by simp))
      have hos : os = [] := by
        cases os with
        | nil => rfl
        | cons e os =>
          refine absurd ?_ (ho e (by simp))
          have he : e ∈ l := hp.mem_iff.2 (by simp)
          exact (hm e (hl.mem_iff.2 (by simp [he]))).trans hk.symm
      subst hos
      have e2 : l.length = cs.length := by rw [hp.length_eq]; simp
      have e1 : m.length = cs.length + 1 := by rw [hl.length_eq, List.length_cons, e2]
      rw [e1, e2, Nat.add_sub_cancel]
      cases hcs : cs.length with
      | zero => simp
      | succ a =>
        simp only [Nat.add_sub_cancel]
        rw [Nat.add_mul, Nat.one_mul, Nat.mul_add]; omega

/-- Keys of different hashes need not be compared. -/
theorem work_free : ∀ (pairs l : List (K × V)),
    (l ++ pairs).Pairwise (fun a b => hasher (HashKey.hash a.1) ≠ hasher (HashKey.hash b.1)) →
    ∃ l', TableWork hasher l pairs l' 0
  | [], l, _ => ⟨l, .done l⟩
  | (k, v) :: t, l, h => by
    obtain ⟨l', h'⟩ := work_free t (l ++ [(k, v)]) (by simpa using h)
    refine ⟨l', .step l (l ++ [(k, v)]) l' k v t 0 0 ?_ h'⟩
    refine TableStep.added l _ [] l (List.Perm.refl _) (by simp) (fun e he hh => ?_)
      (List.perm_append_comm (l₁ := l) (l₂ := [(k, v)]))
    exact (List.pairwise_append.1 h).2.2 e he (k, v) (by simp) hh

/-- Every sequence of insertions can be carried out. -/
theorem work_exists : ∀ (pairs l : List (K × V)), ∃ l' n, TableWork hasher l pairs l' n
  | [], l => ⟨l, 0, .done l⟩
  | (k, v) :: t, l => by
    by_cases h : ∃ e ∈ l, HKey.keq k e.1 = true
    · obtain ⟨e, he, hq⟩ := h
      obtain ⟨l1, l2, rfl⟩ := List.append_of_mem he
      obtain ⟨l', n, h'⟩ := work_exists t (l1 ++ (e.1, v) :: l2)
      exact ⟨l', 1 + n, .step _ _ _ k v t 1 n
        (.replaced l1 l2 _ e 1 hq (List.Perm.refl _) (Nat.le_refl _) (by simp; omega)) h'⟩
    · obtain ⟨l', n, h'⟩ := work_exists t ((k, v) :: l)
      refine ⟨l', l.length + n, .step _ _ _ k v t l.length n
        (.added l _ l [] (by simp) (fun e he => ?_) (by simp) (List.Perm.refl _)) h'⟩
      cases hq : HKey.keq k e.1 with
      | false => rfl
      | true => exact absurd ⟨e, he, hq⟩ h
end

/-! ### The pigeonhole principle -/

theorem pigeonhole (g : Nat → Nat) (n : Nat) : ∀ (M : Nat) (l : List Nat), (∀ i ∈ l, g i < M) →
    M * n < l.length → ∃ h, n < (l.filter fun i => g i == h).length
  | 0, l, h, hl => by
    cases l with
    | nil => simp at hl
    | cons a t => exact absurd (h a (by simp)) (by omega)
  | M + 1, l, h, hl => by
    by_cases hM : n < (l.filter fun i => g i == M).length
    · exact ⟨M, hM⟩
    · have e : l.length = (l.filter fun i => g i == M).length +
          (l.filter fun i => !(g i == M)).length := by
        rw [← List.countP_eq_length_filter, ← List.countP_eq_length_filter,
          List.length_eq_countP_add_countP (fun i => g i == M)]
        congr 1
        exact List.countP_congr (fun i _ => by simp)
      obtain ⟨x, hx⟩ := pigeonhole g n M (l.filter fun i => !(g i == M))
        (fun i hi => by
          have h1 := List.mem_filter.1 hi
          have h2 := h i h1.1
          have h3 : g i ≠ M := by simpa using h1.2
          omega)
        (by rw [Nat.add_mul] at hl; omega)
      refine ⟨x, Nat.lt_of_lt_of_le hx ?_⟩
      exact (List.Sublist.filter _ List.filter_sublist).length_le

/-- Among enough numbers there are `n` different ones with the same value. -/
theorem same_value {H : Type} (g : Nat → H) (code : H → Nat) (M n : Nat)
    (hc : ∀ a b, code a = code b → a = b) (hM : ∀ a, code a < M) :
    ∃ (l : List Nat) (x : H), l.length = n ∧ l.Nodup ∧
      ∀ i ∈ l, i < M * n + 1 ∧ g i = x := by
  obtain ⟨h, hh⟩ := pigeonhole (fun i => code (g i)) n M (List.range (M * n + 1))
    (fun i _ => hM _) (by simp)
  cases hl : (List.range (M * n + 1)).filter fun i => code (g i) == h with
  | nil => rw [hl] at hh; simp at hh
  | cons a t =>
    have hm : ∀ i ∈ a :: t, i < M * n + 1 ∧ code (g i) = h := fun i hi => by
      rw [← hl] at hi
      have := List.mem_filter.1 hi
      exact ⟨by simpa using this.1, by simpa using this.2⟩
    have hn : (a :: t).Nodup := by
      rw [← hl]; exact List.nodup_range.sublist List.filter_sublist
    rw [hl] at hh
    refine ⟨(a :: t).take n, g a, ?_, hn.sublist (List.take_sublist _ _), fun i hi => ?_⟩
    · rw [List.length_take]; omega
    · have h1 := hm i (List.mem_of_mem_take hi)
      exact ⟨h1.1, hc _ _ (h1.2.trans (hm a (by simp)).2.symm)⟩

/-! ### Texts with a given number -/

/-- The `n` lowest digits of a number in base 128, as characters of ASCII. -/
def digits : Nat → Nat → Bytes
  | 0, _ => []
  | n + 1, i => UInt8.ofNat (i % 128) :: digits n (i / 128)

theorem digits_length : ∀ n i, (digits n i).length = n
  | 0, _ => rfl
  | n + 1, i => by simp [digits, digits_length n]

theorem digits_valid : ∀ n i, validUtf8 (digits n i) = true
  | 0, _ => rfl
  | n + 1, i => by
    rw [digits, validUtf8.eq_def]
    simp only
    rw [if_pos, digits_valid n]
    rw [UInt8.toNat_ofNat']
    omega

theorem digits_inj : ∀ n i j, i < 128 ^ n → j < 128 ^ n → digits n i = digits n j → i = j
  | 0, i, j, hi, hj, _ => by simp at hi hj; omega
  | n + 1, i, j, hi, hj, h => by
    rw [digits, digits] at h
    injection h with h1 h2
    have h3 := congrArg UInt8.toNat h1
    rw [UInt8.toNat_ofNat', UInt8.toNat_ofNat'] at h3
    rw [Nat.pow_succ] at hi hj
    have h4 := digits_inj n (i / 128) (j / 128) (Nat.div_lt_of_lt_mul (by omega))
      (Nat.div_lt_of_lt_mul (by omega)) h2
    omega

/-- A symbol of fourteen characters with the given number. -/
def numbered (i : Nat) : Symbol := ⟨⟨digits 14 i, digits_valid _ _⟩⟩

theorem numbered_inj {i j : Nat} (hi : i < 128 ^ 14) (hj : j < 128 ^ 14)
    (h : numbered i = numbered j) : i = j := by
  refine digits_inj 14 i j hi hj ?_
  have := congrArg (fun s : Symbol => s.str.bytes) h
  exact this

end Amqp
