import Verif.Spec.Crashes
import Verif.Proofs.LenientLists
import Verif.Proofs.PanicLaws
/-!
# What makes a decoder panic: values

Support for C84.
-/
set_option autoImplicit false
namespace Amqp
open Dec
open Standard (Rep)

variable {env : Env}

mutual
theorem hashOk_eq : ∀ v : Variant, v.hashOk = !v.holdsMap
  | .list l => by simp [Variant.hashOk, Variant.holdsMap, hashOkList_eq l]
  | .map _ => rfl
  | .described _ v => by simp [Variant.hashOk, Variant.holdsMap, hashOk_eq v]
  | .null | .boolean _ | .ubyte _ | .ushort _ | .uint _ | .ulong _ | .byte _ | .short _ | .int _
  | .long _ | .float _ | .double _ | .char _ | .timestamp _ | .uuid _ | .binary _
  | .string _ | .symbol _ | .staticSymbol _ => by simp [Variant.hashOk, Variant.holdsMap]
theorem hashOkList_eq : ∀ l : List Variant, hashOkList l = !holdsMapList l
  | [] => rfl
  | v :: t => by simp [hashOkList, holdsMapList, hashOk_eq v, hashOkList_eq t, Bool.not_or]
end

/-- The keys that can be hashed are those that contain no map. -/
theorem hashes_plain : (fun k : Variant => HKey.hashOk k = true) = fun k => k.holdsMap = false :=
  funext fun k => by
    show (k.hashOk = true) = _
    rw [hashOk_eq, Bool.not_eq_true']

theorem ite_panic {α : Type} {P : Prop} [Decidable P] {x y : Dec α} {i : Bytes} {p : Panic}
    (h : (if P then x else y) i = .panic p) : (P ∧ x i = .panic p) ∨ (¬ P ∧ y i = .panic p) := by
  by_cases hp : P
  · rw [if_pos hp] at h; exact .inl ⟨hp, h⟩
  · rw [if_neg hp] at h; exact .inr ⟨hp, h⟩

/-- The decoder panics on exactly `C`. -/
def Faults {α : Type} (d : Dec α) (C : Fault) : Prop := ∀ i p, d i = .panic p ↔ C p i

section
variable {α β : Type} {d : Dec α} {C : Fault}

theorem Faults.congr (h : Faults d C) {D : Fault} (hd : ∀ p i, C p i ↔ D p i) : Faults d D :=
  fun i p => by rw [h i p]; exact hd p i

theorem Faults.of_safe (h : Safe d) : Faults d Crash.never :=
  fun i p => ⟨fun hp => absurd hp (h i p), nofun⟩

theorem Faults.pure (a : α) : Faults (Pure.pure a : Dec α) Crash.never :=
  fun _ _ => ⟨nofun, nofun⟩

theorem Faults.map (f : α → β) (h : Faults d C) : Faults (f <$> d) C :=
  fun i p => by rw [map_eq_panic]; exact h i p

theorem Faults.bind {L : Rep α} {f : α → Dec β} {D : α → Fault} (h : Faults d C) (ht : Takes d L)
    (hf : ∀ a, Faults (f a) (D a)) :
    Faults (d >>= f) fun p i => C p i ∨ ∃ a b r, i = b ++ r ∧ L a b ∧ D a p r := by
  intro i p
  rw [bind_eq_panic, h i p]
  constructor
  · rintro (h1 | ⟨r, a, h1, h2⟩)
    · exact .inl h1
    · obtain ⟨b, rfl, hb⟩ := (ht _ _ _).1 h1
      exact .inr ⟨a, b, r, rfl, hb, (hf a _ _).1 h2⟩
  · rintro (h1 | ⟨a, b, r, rfl, hb, h2⟩)
    · exact .inl h1
    · exact .inr ⟨r, a, (ht _ _ _).2 ⟨b, rfl, hb⟩, (hf a _ _).2 h2⟩

theorem Faults.decodeN {L : Rep α} (h : Faults d C) (ht : Takes d L) :
    ∀ n, Faults (Amqp.decodeN d n) (Crash.items L C n)
  | 0 => (Faults.pure _).congr fun p i => ⟨nofun, fun h => by cases h with | mk g hg _ _ => cases hg⟩
  | n + 1 => by
    refine (h.bind ht fun x => ((Faults.decodeN h ht n).bind (ht.decodeN n) fun xs =>
      Faults.pure (x :: xs))).congr fun p i => ⟨?_, ?_⟩
    · rintro (h1 | ⟨a, b, r, rfl, hb, h1 | ⟨_, _, _, _, _, h1⟩⟩)
      · exact .mk [] (Nat.succ_pos _) (by simp) h1
      · cases h1 with
        | @mk good p tail hg hi ht =>
          have := Crash.items.mk (n := n + 1) (L := L) ((a, b) :: good) (p := p) (tail := tail)
            (by simp; omega) (by
              intro g hg
              rcases List.mem_cons.1 hg with rfl | hg
              · exact hb
              · exact hi g hg) ht
          simpa using this
      · exact h1.elim
    · intro h1
      cases h1 with
      | @mk good p tail hg hi ht =>
        cases good with
        | nil => exact .inl ht
        | cons g good =>
          refine .inr ⟨g.1, g.2, good.flatMap Prod.snd ++ tail, by simp, hi g (by simp), .inl ?_⟩
          exact .mk good (by simpa using hg) (fun x hx => hi x (by simp [hx])) ht

theorem Faults.withSlice (h : Faults d C) (n : Nat) : Faults (Amqp.withSlice n d) fun p i =>
    (i.length < n ∧ p = .sliceIndex) ∨ ∃ body rest, i = body ++ rest ∧ body.length = n ∧ C p body := by
  intro i p
  unfold Amqp.withSlice
  by_cases hl : i.length < n
  · rw [if_pos hl]
    constructor
    · intro h; injection h with h; exact .inl ⟨hl, h.symm⟩
    · rintro (⟨_, rfl⟩ | ⟨b, r, rfl, hb, _⟩)
      · rfl
      · simp at hl; omega
  · rw [if_neg hl]
    have key : (match d (i.take n) with
        | .ok (_, a) => .ok (i.drop n, a)
        | .err e => .err e
        | .panic p => .panic p : Res ParseError (Bytes × α)) = .panic p ↔ d (i.take n) = .panic p := by
      cases d (i.take n) <;> simp
    refine key.trans ((h _ _).trans ?_)
    constructor
    · intro hc
      exact .inr ⟨i.take n, i.drop n, (List.take_append_drop n i).symm, by simp; omega, hc⟩
    · rintro (⟨h1, _⟩ | ⟨b, r, rfl, hb, hc⟩)
      · exact absurd h1 hl
      · rw [List.take_left' hb]; exact hc
end

section
variable {K V : Type} [HKey K]

theorem Faults.mapLoop {kd : Dec K} {vd : Dec V} {LK : Rep K} {LV : Rep V} {CK CV : Fault}
    (hk : Faults kd CK) (hv : Faults vd CV) (tk : Takes kd LK) (tv : Takes vd LV) :
    ∀ n acc, Faults (Amqp.mapLoop kd vd n acc)
      (Crash.entries LK CK LV CV (fun k => HKey.hashOk k = true) n)
  | 0, acc => (Faults.pure acc).congr fun p i => ⟨nofun, fun h => by
      cases h with
      | key _ hg => cases hg
      | value _ hg => cases hg
      | hash _ _ hg => cases hg⟩
  | n + 1, acc => by
    have last : ∀ k v, Faults (if HKey.hashOk k = true then
        Amqp.mapLoop kd vd n (insertEntry HKey.keq k v acc) else Dec.abort .unimplemented) fun p i =>
        (HKey.hashOk k = true ∧ Crash.entries LK CK LV CV (fun k => HKey.hashOk k = true) n p i) ∨
        (¬ HKey.hashOk k = true ∧ p = .unimplemented) := by
      intro k v i p
      by_cases hh : HKey.hashOk k = true
      · rw [if_pos hh, Faults.mapLoop hk hv tk tv n _ i p]
        simp [hh]
      · rw [if_neg hh]
        constructor
        · intro h; injection h with h; exact .inr ⟨hh, h.symm⟩
        · rintro (⟨h, _⟩ | ⟨_, rfl⟩)
          · exact absurd h hh
          · rfl
    refine (hk.bind tk fun k => hv.bind tv fun v => last k v).congr fun p i => ⟨?_, ?_⟩
    · rintro (h1 | ⟨k, u, r, rfl, hu, h1 | ⟨v, w, r', rfl, hw, ⟨hh, h1⟩ | ⟨hh, rfl⟩⟩⟩)
      · exact .key [] (Nat.succ_pos _) (by simp) h1
      · exact .value [] (Nat.succ_pos _) (by simp) hu h1
      · have hc : ∀ {good : List ((K × Bytes) × (V × Bytes))},
            (∀ g ∈ good, LK g.1.1 g.1.2 ∧ LV g.2.1 g.2.2 ∧ HKey.hashOk g.1.1 = true) →
            ∀ g ∈ (((k, u), (v, w)) :: good), LK g.1.1 g.1.2 ∧ LV g.2.1 g.2.2 ∧
              HKey.hashOk g.1.1 = true := by
          intro good hi g hg
          rcases List.mem_cons.1 hg with rfl | hg
          · exact ⟨hu, hw, hh⟩
          · exact hi g hg
        cases h1 with
        | @key good p tail hg hi ht =>
          have := Crash.entries.key (n := n + 1) (CK := CK) (CV := CV)
            (LK := LK) (LV := LV) (hashes := fun k => HKey.hashOk k = true) (((k, u), (v, w)) :: good)
            (by simp; omega) (hc hi) ht
          simpa using this
        | @value good k' p u' tail hg hi hk' ht =>
          have := Crash.entries.value (n := n + 1) (CK := CK) (CV := CV)
            (LK := LK) (LV := LV) (hashes := fun k => HKey.hashOk k = true) (((k, u), (v, w)) :: good)
            (by simp; omega) (hc hi) hk' ht
          simpa using this
        | @hash good k' v' u' w' tail hg hi hk' hv' ht =>
          have := Crash.entries.hash (n := n + 1) (CK := CK) (CV := CV)
            (LK := LK) (LV := LV) (hashes := fun k => HKey.hashOk k = true) (((k, u), (v, w)) :: good) tail
            (by simp; omega) (hc hi) hk' hv' ht
          simpa using this
      · exact .hash [] r' (Nat.succ_pos _) (by simp) hu hw hh
    · intro h1
      cases h1 with
      | @key good p tail hg hi ht =>
        cases good with
        | nil => exact .inl ht
        | cons g good =>
          obtain ⟨g1, g2, g3⟩ := hi g (by simp)
          refine .inr ⟨g.1.1, g.1.2, g.2.2 ++ ((good.flatMap fun g => g.1.2 ++ g.2.2) ++ tail), by simp, g1,
            .inr ⟨g.2.1, g.2.2, _, rfl, g2, .inl ⟨g3, ?_⟩⟩⟩
          exact .key good (by simpa using hg) (fun x hx => hi x (by simp [hx])) ht
      | @value good k' p u' tail hg hi hk' ht =>
        cases good with
        | nil => exact .inr ⟨k', u', tail, by simp, hk', .inl ht⟩
        | cons g good =>
          obtain ⟨g1, g2, g3⟩ := hi g (by simp)
          refine .inr ⟨g.1.1, g.1.2, g.2.2 ++ ((good.flatMap fun g => g.1.2 ++ g.2.2) ++ (u' ++ tail)), by simp, g1,
            .inr ⟨g.2.1, g.2.2, _, rfl, g2, .inl ⟨g3, ?_⟩⟩⟩
          exact .value good (by simpa using hg) (fun x hx => hi x (by simp [hx])) hk' ht
      | @hash good k' v' u' w' tail hg hi hk' hv' ht =>
        cases good with
        | nil => exact .inr ⟨k', u', w' ++ tail, by simp, hk', .inr ⟨v', w', tail, rfl, hv', .inr ⟨ht, rfl⟩⟩⟩
        | cons g good =>
          obtain ⟨g1, g2, g3⟩ := hi g (by simp)
          refine .inr ⟨g.1.1, g.1.2, g.2.2 ++ ((good.flatMap fun g => g.1.2 ++ g.2.2) ++ (u' ++ (w' ++ tail))), by simp, g1,
            .inr ⟨g.2.1, g.2.2, _, rfl, g2, .inl ⟨g3, ?_⟩⟩⟩
          exact .hash good tail (by simpa using hg) (fun x hx => hi x (by simp [hx])) hk' hv' ht
end

/-! ## Headers -/

theorem faults_subChecked (bits a b : Nat) : Faults (subChecked env bits a b) fun p _ =>
    p = .overflow ∧ env.overflowChecks = true ∧ a < b := by
  intro i p
  refine ⟨subChecked_panic, ?_⟩
  rintro ⟨rfl, ho, hl⟩
  unfold subChecked
  rw [if_neg (by omega), if_pos ho]; rfl

theorem faults_compound8 : Faults (decodeCompound8 env) fun p i => p = .overflow ∧
    env.overflowChecks = true ∧ ∃ s n rest k, i = s ++ n ++ rest ∧ Num 1 s k ∧ k < 1 ∧ n.length = 1 := by
  refine ((Faults.of_safe (Safe.takeN 2)).bind (takes_takeN 2) fun hdr =>
    ((faults_subChecked 8 (hdr.getD 0 0).toNat 1).bind (takes_subChecked env 1 _ (UInt8.toNat_lt _))
      fun size => Faults.pure (CompoundHeader.mk size (hdr.getD 1 0).toNat))).congr fun p i => ⟨?_, ?_⟩
  · rintro (h | ⟨a, b, r, rfl, ⟨rfl, hl⟩, ⟨rfl, ho, hlt⟩ | ⟨_, _, _, _, _, h⟩⟩)
    · exact h.elim
    · match b, hl with
      | [x, y], _ => exact ⟨rfl, ho, [x], [y], r, _, rfl, num_one x, hlt, rfl⟩
    · exact h.elim
  · rintro ⟨rfl, ho, s, n, r, k, rfl, hs, hk, hn⟩
    refine .inr ⟨s ++ n, s ++ n, r, rfl, ⟨rfl, by simp [hs.width, hn]⟩, .inl ⟨rfl, ho, ?_⟩⟩
    obtain ⟨x, rfl, rfl⟩ := hs.one
    exact hk

theorem faults_compound32 : Faults (decodeCompound32 env) fun p i => p = .overflow ∧
    env.overflowChecks = true ∧ ∃ s n rest k, i = s ++ n ++ rest ∧ Num 4 s k ∧ k < 4 ∧ n.length = 4 := by
  intro i p
  constructor
  · intro h
    rcases bind_eq_panic.1 h with h1 | ⟨r, w, h1, h2⟩
    · exact absurd h1 (Safe.takeN 8 i p)
    · obtain ⟨rfl, hw⟩ := takeN_ok h1
      rcases bind_eq_panic.1 h2 with h3 | ⟨_, _, _, h4⟩
      · obtain ⟨e1, e2, e3⟩ := subChecked_panic h3
        exact ⟨e1, e2, w.take 4, w.drop 4, r, _, by rw [List.take_append_drop],
          ⟨by simp [hw], unsigned_eq _⟩, e3, by simp [hw]⟩
      · cases h4
  · rintro ⟨rfl, ho, s, n, r, k, rfl, hs, hk, hn⟩
    refine bind_eq_panic.2 (.inr ⟨r, s ++ n, Reads.takeN (s ++ n) (by simp [hs.width, hn]) r,
      bind_eq_panic.2 (.inl ((faults_subChecked _ _ _ _ _).2 ⟨rfl, ho, ?_⟩))⟩)
    rw [List.take_left' hs.width, ← unsigned_eq, hs.value]; exact hk

theorem faults_header {c8 c32 : UInt8} {hd : UInt8 → Dec CompoundHeader}
    (h8 : hd c8 = decodeCompound8 env) (h32 : hd c32 = decodeCompound32 env)
    (ho : ∀ c, c ≠ c8 → c ≠ c32 → Safe (hd c)) :
    Faults (formatCode >>= hd) (Crash.header env c8 c32) := by
  intro i p
  constructor
  · intro hi
    cases i with
    | nil => cases hi
    | cons c t =>
    have h2 : hd c t = .panic p := hi
    by_cases e8 : c = c8
    · subst e8
      rw [h8] at h2
      obtain ⟨rfl, hov, s, n, r, k, rfl, hs, hk, hn⟩ := (faults_compound8 _ _).1 h2
      exact .mk r hov .narrow hs hk hn
    · by_cases e32 : c = c32
      · subst e32
        rw [h32] at h2
        obtain ⟨rfl, hov, s, n, r, k, rfl, hs, hk, hn⟩ := (faults_compound32 _ _).1 h2
        exact .mk r hov .wide hs hk hn
      · exact absurd h2 (ho c e8 e32 _ _)
  · intro h
    cases h with
    | @mk c w k s n rest hov hc hs hk hn =>
      show hd c (s ++ n ++ rest) = _
      cases hc with
      | narrow => rw [h8]; exact (faults_compound8 _ _).2 ⟨rfl, hov, s, n, rest, k, rfl, hs, hk, hn⟩
      | wide => rw [h32]; exact (faults_compound32 _ _).2 ⟨rfl, hov, s, n, rest, k, rfl, hs, hk, hn⟩

theorem faults_mapHeader : Faults (formatCode >>= decodeMapHeader env) (Crash.header env 0xc1 0xd1) :=
  faults_header rfl rfl fun c h1 h2 i p g => by
    rcases ite_panic g with ⟨e, _⟩ | ⟨_, g⟩
    · exact h1 e
    rcases ite_panic g with ⟨e, _⟩ | ⟨_, g⟩
    · exact h2 e
    · cases g

theorem faults_arrayHeader : Faults (formatCode >>= decodeArrayHeader env) (Crash.header env 0xe0 0xf0) :=
  faults_header rfl rfl fun c h1 h2 i p g => by
    rcases ite_panic g with ⟨e, _⟩ | ⟨_, g⟩
    · exact h1 e
    rcases ite_panic g with ⟨e, _⟩ | ⟨_, g⟩
    · exact h2 e
    · cases g

theorem faults_listHeader : Faults (formatCode >>= decodeListHeader env) (Crash.header env 0xc0 0xd0) :=
  faults_header rfl rfl fun c h1 h2 i p g => by
    rcases ite_panic g with ⟨_, g⟩ | ⟨_, g⟩
    · cases g
    rcases ite_panic g with ⟨e, _⟩ | ⟨_, g⟩
    · exact h1 e
    rcases ite_panic g with ⟨e, _⟩ | ⟨_, g⟩
    · exact h2 e
    · cases g

/-! ## Compound values -/

theorem faults_list {vd : Dec Variant} {L : Rep Variant} {C : Fault} (h : Faults vd C)
    (ht : Takes vd L) : Faults (formatCode >>= decodeListWith vd env) (Crash.list env L C) := by
  have e : (formatCode >>= decodeListWith vd env) = ((formatCode >>= decodeListHeader env) >>=
      fun h => decodeN vd h.count) := by
    rw [bind_assoc]; rfl
  rw [e]
  refine (faults_listHeader.bind (takes_listHeader env) fun hd => h.decodeN ht hd.count).congr
    fun p i => ⟨?_, ?_⟩
  · rintro (h1 | ⟨hd, b, r, rfl, ⟨rfl, rfl⟩ | hh, h1⟩)
    · exact .header h1
    · cases h1 with
      | mk g hg => cases hg
    · exact .item hh h1
  · intro h1
    cases h1 with
    | header h1 => exact .inl h1
    | item hh h1 => exact .inr ⟨⟨_, _⟩, _, _, rfl, .inr hh, h1⟩

theorem faults_map {K V : Type} [HKey K] {kd : Dec K} {vd : Dec V} {LK : Rep K} {LV : Rep V}
    {CK CV : Fault} (hk : Faults kd CK) (hv : Faults vd CV) (tk : Takes kd LK) (tv : Takes vd LV) :
    Faults (formatCode >>= decodeMapWith kd vd env)
      (Crash.map env LK CK LV CV fun k => HKey.hashOk k = true) := by
  have e : (formatCode >>= decodeMapWith kd vd env) = ((formatCode >>= decodeMapHeader env) >>=
      fun h => withSlice h.size (mapLoop kd vd (h.count / 2) [])) := by
    rw [bind_assoc]; rfl
  rw [e]
  refine (faults_mapHeader.bind (takes_mapHeader env) fun h =>
    (Faults.mapLoop hk hv tk tv (h.count / 2) []).withSlice h.size).congr fun p i => ⟨?_, ?_⟩
  · rintro (h1 | ⟨hd, b, r, rfl, hh, ⟨hl, rfl⟩ | ⟨body, rest, rfl, hl, h1⟩⟩)
    · exact .header h1
    · exact .short hh hl
    · exact .entry rest (hl ▸ hh) h1
  · intro h1
    cases h1 with
    | header h1 => exact .inl h1
    | short hh hl => exact .inr ⟨⟨_, _⟩, _, _, rfl, hh, .inl ⟨hl, rfl⟩⟩
    | entry rest hh h1 => exact .inr ⟨⟨_, _⟩, _, _, rfl, hh, .inr ⟨_, rest, rfl, rfl, h1⟩⟩

theorem faults_indexU8 : Faults indexU8 fun p i => p = .sliceIndex ∧ i = [] := by
  intro i p
  cases i with
  | nil =>
    constructor
    · intro h; injection h with h; exact ⟨h.symm, rfl⟩
    · rintro ⟨rfl, _⟩; rfl
  | cons c t => exact ⟨nofun, nofun⟩

theorem faults_decF {α : Type} [DecodeF α] {C : Fault} (h : PanicsOn α env C) (k : UInt8) :
    Faults (decF (α := α) env k) fun p i => C p (k :: i) := fun i p => h (k :: i) p

theorem panics_vec {α : Type} [DecodeF α] {L : Rep α} {C : Fault} (h : PanicsOn α env C)
    (ht : Accepts α env L) : PanicsOn (Vec α) env (Crash.array env L C) := by
  have e : decode (Vec α) env = ((formatCode >>= decodeArrayHeader env) >>= fun hd =>
      indexU8 >>= fun k => decodeN (decF env k) hd.count >>= fun items =>
        Pure.pure (⟨items⟩ : Vec α)) := by
    rw [bind_assoc]; rfl
  show Faults (decode (Vec α) env) _
  rw [e]
  refine (faults_arrayHeader.bind (takes_arrayHeader env) fun hd => faults_indexU8.bind takes_indexU8
    fun k => ((faults_decF h k).decodeN (takes_decF ht k) hd.count).bind
      ((takes_decF ht k).decodeN hd.count) fun items => Faults.pure (⟨items⟩ : Vec α)).congr
    fun p i => ⟨?_, ?_⟩
  · rintro (h1 | ⟨hd, b, r, rfl, hh, ⟨rfl, rfl⟩ | ⟨k, _, r', rfl, rfl, h1 | ⟨_, _, _, _, _, h1⟩⟩⟩)
    · exact .header h1
    · rw [List.append_nil]; exact .missing hh
    · exact .item k hh h1
    · exact h1.elim
  · intro h1
    cases h1 with
    | header h1 => exact .inl h1
    | missing hh => exact .inr ⟨⟨_, _⟩, _, [], by simp, hh, .inl ⟨rfl, rfl⟩⟩
    | item k hh h1 => exact .inr ⟨⟨_, _⟩, _, _, rfl, hh, .inr ⟨k, [k], _, rfl, rfl, .inl h1⟩⟩

/-! ## Scalars -/

theorem panics_never {α : Type} [DecodeF α] [SafeDec α] : PanicsOn α env Crash.never := by
  intro i p
  refine ⟨fun h => ?_, nofun⟩
  cases i with
  | nil => cases h
  | cons c t => exact absurd h (SafeDec.safe env c t p)

theorem faults_utcTimestamp (secs : Int) (nanos : Nat) : Faults (utcTimestamp secs nanos) fun p _ =>
    p = .timestampRange ∧ ¬ dtOk secs nanos = true := by
  intro i p
  unfold utcTimestamp
  by_cases h : dtOk secs nanos = true
  · rw [dif_pos h]; exact ⟨nofun, fun g => absurd h g.2⟩
  · rw [dif_neg h]
    constructor
    · intro g; injection g with g; exact ⟨g.symm, h⟩
    · rintro ⟨rfl, _⟩; rfl

theorem faults_millis (m : Int) : Faults (datetimeFromMillis m) fun p _ => p = .timestampRange ∧
    (m ≤ -8334632851200000 ∨ 8210298412800000 ≤ m) := by
  unfold datetimeFromMillis
  have h1 := Int.mul_tdiv_add_tmod m 1000
  have h2 : (0 ≤ m → 0 ≤ Int.tmod m 1000) := fun h => Int.tmod_nonneg _ h
  have h3 := Int.tmod_lt_of_pos m (b := 1000) (by decide)
  have h4 : -1000 < Int.tmod m 1000 := Int.lt_tmod_of_pos m (by decide)
  have h5 : m ≤ 0 → Int.tmod m 1000 ≤ 0 := fun h => by
    have g := Int.tmod_nonneg (a := -m) 1000 (by omega)
    rw [Int.neg_tmod] at g; omega
  generalize Int.tdiv m 1000 = s at *
  generalize Int.tmod m 1000 = q at *
  by_cases hs : s < 0
  · simp only [hs, if_true]
    refine (faults_utcTimestamp _ _).congr fun p _ => and_congr_right fun _ => ?_
    have hn : ((1000 + (m - s * 1000)) * 1000000).natAbs < 2000000000 := by omega
    simp only [dtOk, Bool.and_eq_true, decide_eq_true_eq, hn, and_true]
    simp only [minSecs, maxSecs]
    omega
  · simp only [hs, if_false]
    refine (faults_utcTimestamp _ _).congr fun p _ => and_congr_right fun _ => ?_
    have hn : ((m - s * 1000) * 1000000).natAbs < 2000000000 := by omega
    simp only [dtOk, Bool.and_eq_true, decide_eq_true_eq, hn, and_true]
    simp only [minSecs, maxSecs]
    omega

theorem panics_timestamp : PanicsOn DateTime env Crash.timestamp := by
  intro i p
  constructor
  · intro h
    cases i with
    | nil => cases h
    | cons c t =>
      have h : validateCode c FC.timestamp (readBE 8 >>= fun n =>
        datetimeFromMillis (UInt64.ofNat n).toInt64.toInt) t = .panic p := h
      rcases ite_panic h with ⟨_, g⟩ | ⟨hc, h⟩
      · cases g
      · obtain rfl : c = FC.timestamp := Decidable.not_not.1 hc
        rcases bind_eq_panic.1 h with g | ⟨r, n, g1, g2⟩
        · exact absurd (map_eq_panic.1 g) (Safe.takeN 8 _ _)
        · obtain ⟨b, rfl, hb⟩ := (takes_readBE 8 _ _ _).1 g1
          obtain ⟨rfl, hr⟩ := (faults_millis _ _ _).1 g2
          exact .mk r hb.snum64 hr
  · intro h
    cases h with
    | @mk m b rest hb hr =>
      obtain ⟨k, hk, e⟩ := hb.num
      have h1 : (UInt64.ofNat k).toNat = k := by
        rw [UInt64.toNat_ofNat']; exact Nat.mod_eq_of_lt hk.lt
      have h2 : (UInt64.ofNat k).toInt64.toInt = m := by rw [toInt64_cond, h1, e]
      show (readBE 8 >>= fun n => datetimeFromMillis (UInt64.ofNat n).toInt64.toInt) (b ++ rest) = _
      rw [bind_ok (hk.reads rest), h2]
      exact (faults_millis _ _ _).2 ⟨rfl, hr⟩

/-! ## Variants -/

theorem faults_variant : ∀ n, Faults (decVar env n) (Crash.nested env n)
  | 0 => fun i p => by
    cases i with
    | nil => exact ⟨nofun, fun h => absurd rfl h.2⟩
    | cons c t =>
      constructor
      · intro h; injection h with h; exact ⟨h.symm, nofun⟩
      · rintro ⟨rfl, _⟩; rfl
  | n + 1 => by
    have ih := faults_variant n
    have tk := takes_variant (env := env) n
    have hl := faults_list (env := env) ih tk
    have hm := faults_map (env := env) ih ih tk tk
    rw [hashes_plain] at hm
    intro i p
    constructor
    · intro h
      cases i with
      | nil => cases h
      | cons c t =>
      have h0 : decVariant env (n + 1) c t = .panic p := h
      clear h
      unfold decVariant at h0
      have sc : ∀ {α : Type} [DecodeF α] [SafeDec α] {mk : α → Variant},
          (mk <$> decF env c) t = .panic p → Crash.nested env (n + 1) p (c :: t) := by
        intro α _ _ mk h
        exact absurd (map_eq_panic.1 h) (SafeDec.safe env c t p)
      have li : ∀ {c : UInt8}, (Variant.list <$> decodeListWith (decVar env n) env c) t = .panic p →
          Crash.nested env (n + 1) p (c :: t) :=
        fun {c} h => .list ((hl (c :: t) p).1 (map_eq_panic.1 h))
      have mp : ∀ {c : UInt8}, (Variant.map <$> decodeMapWith (decVar env n) (decVar env n) env c) t
          = .panic p → Crash.nested env (n + 1) p (c :: t) :=
        fun {c} h => .map ((hm (c :: t) p).1 (map_eq_panic.1 h))
      rcases ite_panic h0 with ⟨rfl, h⟩ | ⟨_, h0⟩
      · cases h
      rcases ite_panic h0 with ⟨rfl, h⟩ | ⟨_, h0⟩
      · exact sc h
      rcases ite_panic h0 with ⟨rfl, h⟩ | ⟨_, h0⟩
      · cases h
      rcases ite_panic h0 with ⟨rfl, h⟩ | ⟨_, h0⟩
      · cases h
      rcases ite_panic h0 with ⟨rfl, h⟩ | ⟨_, h0⟩
      · cases h
      rcases ite_panic h0 with ⟨rfl, h⟩ | ⟨_, h0⟩
      · cases h
      rcases ite_panic h0 with ⟨rfl, h⟩ | ⟨_, h0⟩
      · exact sc h
      rcases ite_panic h0 with ⟨rfl, h⟩ | ⟨_, h0⟩
      · exact sc h
      rcases ite_panic h0 with ⟨rfl, h⟩ | ⟨_, h0⟩
      · exact sc h
      rcases ite_panic h0 with ⟨rfl, h⟩ | ⟨_, h0⟩
      · exact sc h
      rcases ite_panic h0 with ⟨rfl, h⟩ | ⟨_, h0⟩
      · exact sc h
      rcases ite_panic h0 with ⟨rfl, h⟩ | ⟨_, h0⟩
      · exact sc h
      rcases ite_panic h0 with ⟨rfl, h⟩ | ⟨_, h0⟩
      · exact sc h
      rcases ite_panic h0 with ⟨rfl, h⟩ | ⟨_, h0⟩
      · exact sc h
      rcases ite_panic h0 with ⟨rfl, h⟩ | ⟨_, h0⟩
      · exact sc h
      rcases ite_panic h0 with ⟨rfl, h⟩ | ⟨_, h0⟩
      · exact sc h
      rcases ite_panic h0 with ⟨rfl, h⟩ | ⟨_, h0⟩
      · exact sc h
      rcases ite_panic h0 with ⟨rfl, h⟩ | ⟨_, h0⟩
      · exact sc h
      rcases ite_panic h0 with ⟨rfl, h⟩ | ⟨_, h0⟩
      · exact sc h
      rcases ite_panic h0 with ⟨rfl, h⟩ | ⟨_, h0⟩
      · exact sc h
      rcases ite_panic h0 with ⟨rfl, h⟩ | ⟨_, h0⟩
      · exact sc h
      rcases ite_panic h0 with ⟨rfl, h⟩ | ⟨_, h0⟩
      · exact .timestamp ((panics_timestamp (env := env) _ p).1 (map_eq_panic.1 h))
      rcases ite_panic h0 with ⟨rfl, h⟩ | ⟨_, h0⟩
      · exact sc h
      rcases ite_panic h0 with ⟨rfl, h⟩ | ⟨_, h0⟩
      · exact sc h
      rcases ite_panic h0 with ⟨rfl, h⟩ | ⟨_, h0⟩
      · exact sc h
      rcases ite_panic h0 with ⟨rfl, h⟩ | ⟨_, h0⟩
      · exact sc h
      rcases ite_panic h0 with ⟨rfl, h⟩ | ⟨_, h0⟩
      · exact sc h
      rcases ite_panic h0 with ⟨rfl, h⟩ | ⟨_, h0⟩
      · exact sc h
      rcases ite_panic h0 with ⟨rfl, h⟩ | ⟨_, h0⟩
      · exact sc h
      rcases ite_panic h0 with ⟨rfl, h⟩ | ⟨_, h0⟩
      · cases h
      rcases ite_panic h0 with ⟨rfl, h⟩ | ⟨_, h0⟩
      · exact li h
      rcases ite_panic h0 with ⟨rfl, h⟩ | ⟨_, h0⟩
      · exact li h
      rcases ite_panic h0 with ⟨rfl, h⟩ | ⟨_, h0⟩
      · exact mp h
      rcases ite_panic h0 with ⟨rfl, h⟩ | ⟨_, h0⟩
      · exact mp h
      rcases ite_panic h0 with ⟨rfl, h⟩ | ⟨_, h0⟩
      · rcases bind_eq_panic.1 h with g | ⟨r, d, h1, h2⟩
        · exact absurd ((panics_never (env := env) _ p).1 g) id
        · obtain ⟨db, rfl, hdb⟩ := (accepts_descriptor _ _ _).1 h1
          rcases bind_eq_panic.1 h2 with g | ⟨_, _, _, h3⟩
          · exact .described hdb ((ih _ _).1 g)
          · cases h3
      · cases h0
    · intro h
      cases h with
      | timestamp h =>
        have := (panics_timestamp (env := env) _ p).2 h
        cases h with
        | mk rest hb hr => exact map_eq_panic (f := Variant.timestamp).2 this
      | list h =>
        have := (hl _ p).2 h
        cases h with
        | header h =>
          cases h with
          | mk rest ho hc => cases hc <;> exact map_eq_panic (f := Variant.list).2 this
        | item hh hi =>
          cases hh with
          | mk hc => cases hc <;> exact map_eq_panic (f := Variant.list).2 this
      | map h =>
        have := (hm _ p).2 h
        cases h with
        | header h =>
          cases h with
          | mk rest ho hc => cases hc <;> exact map_eq_panic (f := Variant.map).2 this
        | short hh hi =>
          cases hh with
          | mk hc => cases hc <;> exact map_eq_panic (f := Variant.map).2 this
        | entry rest hh hi =>
          cases hh with
          | mk hc => cases hc <;> exact map_eq_panic (f := Variant.map).2 this
      | @described d p db tail hdb hc =>
        have h1 := (accepts_descriptor (env := env) (db ++ tail) tail d).2 ⟨_, rfl, hdb⟩
        show (decode Descriptor env >>= fun d => decVar env n >>= fun v =>
          Pure.pure (Variant.described d v)) (db ++ tail) = _
        rw [bind_ok h1]
        exact bind_eq_panic.2 (.inl ((ih _ _).2 hc))

theorem panics_variant : PanicsOn Variant env (Crash.any env) := faults_variant env.stackDepth

/-! ## Types built from others -/

theorem panics_option {α : Type} [DecodeF α] {C : Fault} (h : PanicsOn α env C) :
    PanicsOn (Option α) env (Crash.nullable C) := by
  intro i p
  cases i with
  | nil =>
    refine ⟨nofun, fun h1 => ?_⟩
    cases h1 with
    | some h1 _ => exact absurd ((h [] p).2 h1) nofun
  | cons c t =>
    show (if c = FC.null then pure none else some <$> decF env c : Dec (Option α)) t = _ ↔ _
    by_cases hc : c = FC.null
    · rw [if_pos hc]
      refine ⟨nofun, fun h1 => ?_⟩
      cases h1 with
      | some _ h2 => exact absurd (by rw [hc]; rfl) h2
    · rw [if_neg hc, map_eq_panic]
      constructor
      · exact fun h1 => .some ((h (c :: t) p).1 h1) (by simpa [FC.null] using hc)
      · intro h1
        cases h1 with
        | some h1 _ => exact (h (c :: t) p).2 h1

theorem array_head {α : Type} {L : Rep α} {C : Fault} {p : Panic} {i : Bytes}
    (h : Crash.array env L C p i) : i.head? = some 0xe0 ∨ i.head? = some 0xf0 := by
  cases h with
  | header h => cases h with | mk _ _ hc => cases hc <;> simp
  | missing h => cases h with | mk hc => cases hc <;> simp
  | item k h => cases h with | mk hc => cases hc <;> simp

theorem panics_multiple {α : Type} [DecodeF α] {L : Rep α} {C : Fault} (h : PanicsOn α env C)
    (ht : Accepts α env L) : PanicsOn (Multiple α) env (Crash.multiple env L C) := by
  have hv := panics_vec h ht
  intro i p
  cases i with
  | nil =>
    refine ⟨nofun, fun h1 => ?_⟩
    cases h1 with
    | one h1 => exact absurd ((h [] p).2 h1) nofun
    | array h1 => exact absurd ((hv [] p).2 h1) nofun
  | cons c t =>
    show (if c = FC.array8 ∨ c = FC.array32 then
      (fun v : Vec α => (⟨v.items⟩ : Multiple α)) <$> decF env c
      else (fun x => ⟨[x]⟩) <$> decF env c : Dec (Multiple α)) t = _ ↔ _
    by_cases hc : c = FC.array8 ∨ c = FC.array32
    · rw [if_pos hc, map_eq_panic]
      constructor
      · exact fun h1 => .array ((hv (c :: t) p).1 h1)
      · intro h1
        cases h1 with
        | one _ h2 h3 =>
          rcases hc with rfl | rfl
          · exact absurd rfl h2
          · exact absurd rfl h3
        | array h1 => exact (hv (c :: t) p).2 h1
    · rw [if_neg hc, map_eq_panic]
      constructor
      · exact fun h1 => .one ((h (c :: t) p).1 h1) (by simpa [FC.array8] using fun e => hc (.inl e))
          (by simpa [FC.array32] using fun e => hc (.inr e))
      · intro h1
        cases h1 with
        | one h1 => exact (h (c :: t) p).2 h1
        | array h1 =>
          rcases array_head h1 with e | e
          · exact absurd (.inl (by simpa [FC.array8] using e)) hc
          · exact absurd (.inr (by simpa [FC.array32] using e)) hc

theorem panics_symbols : PanicsOn Symbols env (Crash.symbols env) := by
  refine Faults.congr (panics_multiple panics_never accepts_symbol) fun p i => ⟨?_, .array⟩
  intro h
  cases h with
  | one h => exact h.elim
  | array h => exact h

theorem panics_hmap {K V : Type} [HKey K] [DecodeF K] [DecodeF V] {LK : Rep K} {LV : Rep V}
    {CK CV : Fault} (hk : PanicsOn K env CK) (hv : PanicsOn V env CV) (tk : Accepts K env LK)
    (tv : Accepts V env LV) :
    PanicsOn (HMap K V) env (Crash.map env LK CK LV CV fun k => HKey.hashOk k = true) := by
  have e : decode (HMap K V) env =
      HMap.mk <$> (formatCode >>= decodeMapWith (decode K env) (decode V env) env) := by
    rw [map_eq_pure_bind, bind_assoc]
    funext i
    cases i with
    | nil => rfl
    | cons c t =>
      show (HMap.mk <$> decodeMapWith (decode K env) (decode V env) env c) t = _
      rw [map_eq_pure_bind]; rfl
  show Faults (decode (HMap K V) env) _
  rw [e]
  exact (faults_map hk hv tk tv).map HMap.mk

theorem panics_vlist : PanicsOn VList env (Crash.anyList env) := by
  have e : decode VList env = VList.mk <$> (formatCode >>= decodeListWith (decode Variant env) env) := by
    rw [map_eq_pure_bind, bind_assoc]
    funext i
    cases i with
    | nil => rfl
    | cons c t =>
      show (VList.mk <$> decodeListWith (decode Variant env) env c) t = _
      rw [map_eq_pure_bind]; rfl
  show Faults (decode VList env) _
  rw [e]
  exact (faults_list panics_variant accepts_variant).map VList.mk

theorem hashes_true {K : Type} [HKey K] (h : ∀ k : K, HKey.hashOk k = true) :
    (fun k : K => HKey.hashOk k = true) = fun _ => True := funext fun k => by simp [h]

theorem panics_map : PanicsOn Map env (Crash.anyMap env) := by
  have h := panics_hmap (env := env) (K := Variant) (V := Variant) panics_variant panics_variant
    accepts_variant accepts_variant
  rw [hashes_plain] at h
  exact h

theorem panics_fields : PanicsOn Fields env (Crash.symbolMap env) := by
  have h := panics_hmap (env := env) (K := Symbol) (V := Variant) panics_never panics_variant
    accepts_symbol accepts_variant
  rw [hashes_true fun _ => rfl] at h
  exact h

theorem panics_stringMap : PanicsOn StringVariantMap env (Crash.stringMap env) := by
  have h := panics_hmap (env := env) (K := RStr) (V := Variant) panics_never panics_variant
    accepts_string accepts_variant
  rw [hashes_true fun _ => rfl] at h
  exact h

theorem panics_filter : PanicsOn FilterSet env (Crash.filterSet env) := by
  have h := panics_hmap (env := env) (K := Symbol) (V := Option RStr) panics_never panics_never
    accepts_symbol (accepts_option accepts_string)
  rw [hashes_true fun _ => rfl] at h
  exact h

end Amqp
