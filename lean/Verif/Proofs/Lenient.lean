import Verif.Spec.Lenient
import Verif.Proofs.WireLaws
import Verif.Proofs.ForwardLaws
/-!
# What is read: values

Support for C72.
-/
set_option autoImplicit false
namespace Amqp
open Dec Lenient
open Standard (Rep)

/-- The decoder accepts exactly `L`. -/
def Takes {α : Type} (d : Dec α) (L : Rep α) : Prop :=
  ∀ i r a, d i = .ok (r, a) ↔ ∃ b, i = b ++ r ∧ L a b

section
variable {α β : Type} {d : Dec α} {L : Rep α}

theorem Takes.congr (h : Takes d L) {M : Rep α} (hm : ∀ a b, L a b ↔ M a b) : Takes d M :=
  fun i r a => by rw [h i r a]; simp only [hm]

theorem Takes.reads (h : Takes d L) {a : α} {b : Bytes} : Reads d b a ↔ L a b := by
  constructor
  · intro hr
    have := hr []
    obtain ⟨b', e, hl⟩ := (h _ _ _).1 this
    simp only [List.append_nil] at e
    exact e ▸ hl
  · exact fun hl more => (h _ _ _).2 ⟨b, rfl, hl⟩

theorem takes_of (hl : Local d) (h : ∀ a b, Reads d b a ↔ L a b) : Takes d L := by
  intro i r a
  constructor
  · intro hi
    obtain ⟨w, rfl, hw⟩ := hl i r a hi
    exact ⟨w, rfl, (h a w).1 hw⟩
  · rintro ⟨b, rfl, hb⟩
    exact (h a b).2 hb r

theorem Takes.map (f : α → β) (h : Takes d L) :
    Takes (f <$> d) fun y b => ∃ a, y = f a ∧ L a b := by
  intro i r y
  rw [map_eq_ok]
  constructor
  · rintro ⟨a, hi, rfl⟩
    obtain ⟨b, rfl, hb⟩ := (h _ _ _).1 hi
    exact ⟨b, rfl, a, rfl, hb⟩
  · rintro ⟨b, rfl, a, rfl, hb⟩
    exact ⟨a, (h _ _ _).2 ⟨b, rfl, hb⟩, rfl⟩

theorem Takes.bind {f : α → Dec β} {M : α → Rep β} (h : Takes d L) (hf : ∀ a, Takes (f a) (M a)) :
    Takes (d >>= f) fun y b => ∃ a u v, b = u ++ v ∧ L a u ∧ M a y v := by
  intro i r y
  rw [bind_eq_ok]
  constructor
  · rintro ⟨r', a, h1, h2⟩
    obtain ⟨u, rfl, hu⟩ := (h _ _ _).1 h1
    obtain ⟨v, rfl, hv⟩ := (hf _ _ _ _).1 h2
    exact ⟨u ++ v, by simp, a, u, v, rfl, hu, hv⟩
  · rintro ⟨_, rfl, a, u, v, rfl, hu, hv⟩
    rw [List.append_assoc]
    exact ⟨v ++ r, a, (h _ _ _).2 ⟨u, rfl, hu⟩, (hf _ _ _ _).2 ⟨v, rfl, hv⟩⟩

theorem Takes.pure (x : α) : Takes (Pure.pure x : Dec α) fun a b => a = x ∧ b = [] := by
  intro i r a
  constructor
  · intro h; obtain ⟨rfl, rfl⟩ := pure_cases h; exact ⟨[], rfl, rfl, rfl⟩
  · rintro ⟨_, rfl, rfl, rfl⟩; rfl

theorem Takes.decodeN (h : Takes d L) : ∀ n, Takes (Amqp.decodeN d n) fun l b =>
    ∃ items : List (α × Bytes), items.length = n ∧ (∀ p ∈ items, L p.1 p.2) ∧
      l = items.map Prod.fst ∧ b = items.flatMap Prod.snd
  | 0 => (Takes.pure []).congr fun l b => by
    constructor
    · rintro ⟨rfl, rfl⟩; exact ⟨[], rfl, by simp, rfl, rfl⟩
    · rintro ⟨items, hn, _, rfl, rfl⟩
      rw [List.length_eq_zero_iff.1 hn]; simp
  | n + 1 => by
    refine (h.bind fun x => ((Takes.decodeN h n).bind fun xs => Takes.pure (x :: xs))).congr
      fun l b => ?_
    constructor
    · rintro ⟨x, u, v, rfl, hx, xs, u', v', rfl, ⟨items, rfl, hi, rfl, rfl⟩, rfl, rfl⟩
      refine ⟨(x, u) :: items, by simp, ?_, by simp, by simp⟩
      intro p hp
      rcases List.mem_cons.1 hp with rfl | hp
      · exact hx
      · exact hi p hp
    · rintro ⟨items, hn, hi, rfl, rfl⟩
      cases items with
      | nil => cases hn
      | cons p items =>
        exact ⟨p.1, p.2, items.flatMap Prod.snd, by simp, hi p (by simp), items.map Prod.fst,
          items.flatMap Prod.snd, [], by simp,
          ⟨items, by simpa using hn, fun q hq => hi q (by simp [hq]), rfl, rfl⟩, by simp, rfl⟩

theorem Takes.withSlice (h : Takes d L) (n : Nat) : Takes (Amqp.withSlice n d) fun a b =>
    b.length = n ∧ ∃ u ignored, b = u ++ ignored ∧ L a u := by
  intro i r a
  unfold Amqp.withSlice
  constructor
  · intro hi
    by_cases hl : i.length < n
    · rw [if_pos hl] at hi; cases hi
    · rw [if_neg hl] at hi
      cases h1 : d (i.take n) with
      | err e => rw [h1] at hi; cases hi
      | panic e => rw [h1] at hi; cases hi
      | ok p =>
        obtain ⟨r', a'⟩ := p
        rw [h1] at hi
        injection hi with hi; injection hi with h2 h3
        subst h2 h3
        obtain ⟨u, e, hu⟩ := (h _ _ _).1 h1
        exact ⟨i.take n, (List.take_append_drop n i).symm, by simp; omega, u, r', e, hu⟩
  · rintro ⟨_, rfl, hn, u, p, rfl, hu⟩
    rw [if_neg (by simp at hn ⊢; omega), List.take_left' hn, List.drop_left' hn,
      (h _ _ _).2 ⟨u, rfl, hu⟩]
end

/-- From and to `Accepts`. -/
theorem accepts_iff {α : Type} [DecodeF α] {env : Env} {L : Rep α} :
    Accepts α env L ↔ Takes (decode α env) L := Iff.rfl

theorem accepts_of {α : Type} [DecodeF α] [LawfulDec α] {env : Env} {L : Rep α}
    (h : ∀ a b, Means env b a ↔ L a b) : Accepts α env L := takes_of (loc_decode env) h

/-! ## Maps -/

section
variable {K V : Type} [HKey K]

theorem firstKeys_hash {l : List (K × V)} (h : ∀ e ∈ l, HKey.hashOk e.1 = true) :
    ∀ k ∈ firstKeys l, HKey.hashOk k = true := by
  induction l with
  | nil => simp [firstKeys]
  | cons e t ih =>
    intro k hk
    rcases List.mem_cons.1 hk with rfl | hk
    · exact h e (by simp)
    · exact ih (fun e he => h e (by simp [he])) k (List.mem_filter.1 hk).1

theorem firstKeys_snoc [LawfulKey K] (e : K × V) (he : HKey.hashOk e.1 = true) :
    ∀ l : List (K × V), (∀ e ∈ l, HKey.hashOk e.1 = true) →
    firstKeys (l ++ [e]) = if (firstKeys l).any (fun k => HKey.keq e.1 k) = true then firstKeys l
      else firstKeys l ++ [e.1]
  | [], _ => by simp [firstKeys]
  | a :: t, h => by
    have ha := h a (by simp)
    have ht : ∀ e ∈ t, HKey.hashOk e.1 = true := fun e he => h e (by simp [he])
    have ih := firstKeys_snoc e he t ht
    show a.1 :: (firstKeys (t ++ [e])).filter _ = _
    rw [ih]
    by_cases hc : HKey.keq e.1 a.1 = true
    · have : (firstKeys (a :: t)).any (fun k => HKey.keq e.1 k) = true := by simp [firstKeys, hc]
      rw [if_pos this]
      split
      · rfl
      · simp [firstKeys, List.filter_append, hc]
    · by_cases hm : (firstKeys t).any (fun k => HKey.keq e.1 k) = true
      · rw [if_pos hm]
        have : (firstKeys (a :: t)).any (fun k => HKey.keq e.1 k) = true := by
          obtain ⟨k, hk, hek⟩ := List.any_eq_true.1 hm
          have hkh := firstKeys_hash ht k hk
          refine List.any_eq_true.2 ⟨k, List.mem_cons.2 (.inr (List.mem_filter.2 ⟨hk, ?_⟩)), hek⟩
          cases e' : HKey.keq k a.1 with
          | false => rfl
          | true => exact absurd (LawfulKey.trans he hkh ha hek e') hc
        rw [if_pos this]; rfl
      · rw [if_neg hm]
        have : ¬ (firstKeys (a :: t)).any (fun k => HKey.keq e.1 k) = true := by
          intro h1
          obtain ⟨k, hk, hek⟩ := List.any_eq_true.1 h1
          rcases List.mem_cons.1 hk with rfl | hk
          · exact hc hek
          · exact hm (List.any_eq_true.2 ⟨k, (List.mem_filter.1 hk).1, hek⟩)
        rw [if_neg this]
        simp [firstKeys, List.filter_append, hc]

theorem keys_insertEntry (k : K) (v : V) : ∀ l : List (K × V),
    (insertEntry HKey.keq k v l).map Prod.fst =
      if (l.map Prod.fst).any (fun q => HKey.keq k q) = true then l.map Prod.fst
      else l.map Prod.fst ++ [k]
  | [] => by simp [insertEntry]
  | (k', v') :: t => by
    have ih := keys_insertEntry k v t
    unfold insertEntry
    by_cases h : HKey.keq k k' = true
    · simp [h]
    · rw [if_neg h]
      simp only [List.map_cons, ih]
      simp only [List.any_cons, h, Bool.false_or]
      split <;> rfl

theorem keys_insertAll [LawfulKey K] (l : List (K × V)) (h : ∀ e ∈ l, HKey.hashOk e.1 = true) :
    (insertAll [] l).map Prod.fst = firstKeys l := by
  generalize hn : l.length = n
  induction n generalizing l with
  | zero => rw [List.length_eq_zero_iff.1 hn]; rfl
  | succ n ih =>
    rcases List.eq_nil_or_concat l with rfl | ⟨t, e, rfl⟩
    · cases hn
    · have ht : ∀ e ∈ t, HKey.hashOk e.1 = true := fun x hx => h x (by simp [hx])
      rw [List.concat_eq_append] at *
      rw [firstKeys_snoc e (h e (by simp)) t ht]
      unfold insertAll
      rw [List.foldl_append]
      show (insertEntry HKey.keq e.1 e.2 (insertAll [] t)).map Prod.fst = _
      rw [keys_insertEntry, ih t ht (by simpa using hn)]

theorem insertAll_hash {l : List (K × V)} : ∀ {acc : List (K × V)},
    (∀ e ∈ acc, HKey.hashOk e.1 = true) → (∀ e ∈ l, HKey.hashOk e.1 = true) →
    ∀ e ∈ insertAll acc l, HKey.hashOk e.1 = true := by
  induction l with
  | nil => exact fun ha _ => ha
  | cons x t ih =>
    intro acc ha hl
    exact ih (insertEntry_hash ha (hl x (by simp))) fun e he => hl e (by simp [he])

theorem filterMap_congr' {α β : Type} {f g : α → Option β} : ∀ {l : List α},
    (∀ a ∈ l, f a = g a) → l.filterMap f = l.filterMap g
  | [], _ => rfl
  | a :: t, h => by
    rw [List.filterMap_cons, List.filterMap_cons, h a (by simp),
      filterMap_congr' fun x hx => h x (by simp [hx])]

theorem entries_of_keys [LawfulKey K] {l : List (K × V)} (hn : NodupKeys l)
    (h : ∀ e ∈ l, HKey.hashOk e.1 = true) :
    l = (l.map Prod.fst).filterMap fun k => (valueOf k l).map fun v => (k, v) := by
  rw [List.filterMap_map]
  have : ∀ e ∈ l, (((fun k => (valueOf k l).map fun v => (k, v)) ∘ Prod.fst) e) = some e := by
    intro e he
    have hv : valueOf e.1 l = some e.2 :=
      (valueOf_mem h hn (h e he) e.2).2 ⟨e.1, he, LawfulKey.refl (h e he)⟩
    simp [hv]
  rw [filterMap_congr' this]
  simp

theorem insertAll_merged [LawfulKey K] (l : List (K × V)) (h : ∀ e ∈ l, HKey.hashOk e.1 = true) :
    insertAll [] l = merged l := by
  have hh := insertAll_hash (acc := []) (l := l) (by simp) h
  rw [entries_of_keys (insertAll_nodup l [] List.Pairwise.nil) hh, keys_insertAll l h]
  unfold merged
  apply filterMap_congr'
  intro k hk
  rw [insertAll_valueOf (firstKeys_hash h k hk) l [] (by simp) h]
  simp [valueOf]

theorem Takes.mapLoop {kd : Dec K} {vd : Dec V} {LK : Rep K} {LV : Rep V} (hk : Takes kd LK)
    (hv : Takes vd LV) : ∀ n acc, Takes (Amqp.mapLoop kd vd n acc) fun l b =>
    ∃ items : List ((K × Bytes) × (V × Bytes)), items.length = n ∧
      (∀ p ∈ items, LK p.1.1 p.1.2 ∧ LV p.2.1 p.2.2 ∧ HKey.hashOk p.1.1 = true) ∧
      l = insertAll acc (items.map fun p => (p.1.1, p.2.1)) ∧
      b = items.flatMap fun p => p.1.2 ++ p.2.2
  | 0, acc => (Takes.pure acc).congr fun l b => by
    constructor
    · rintro ⟨rfl, rfl⟩; exact ⟨[], rfl, by simp, rfl, rfl⟩
    · rintro ⟨items, hn, _, rfl, rfl⟩
      rw [List.length_eq_zero_iff.1 hn]; exact ⟨rfl, rfl⟩
  | n + 1, acc => by
    intro i r l
    constructor
    · intro h
      obtain ⟨r1, k, r2, v, h1, h2, hh, h3⟩ := mapLoop_succ h
      obtain ⟨ku, rfl, hku⟩ := (hk _ _ _).1 h1
      obtain ⟨vu, rfl, hvu⟩ := (hv _ _ _).1 h2
      obtain ⟨_, rfl, items, rfl, hi, rfl, rfl⟩ := (Takes.mapLoop hk hv n _ _ _ _).1 h3
      refine ⟨_, ?_, ((k, ku), (v, vu)) :: items, by simp, ?_, rfl, rfl⟩
      · simp
      · intro p hp
        rcases List.mem_cons.1 hp with rfl | hp
        · exact ⟨hku, hvu, hh⟩
        · exact hi p hp
    · rintro ⟨_, rfl, items, hn, hi, rfl, rfl⟩
      cases items with
      | nil => cases hn
      | cons p items =>
        obtain ⟨⟨k, ku⟩, ⟨v, vu⟩⟩ := p
        obtain ⟨h1, h2, h3⟩ := hi _ (List.mem_cons_self ..)
        have ih := (Takes.mapLoop hk hv n (insertEntry HKey.keq k v acc)
          ((items.flatMap fun p => p.1.2 ++ p.2.2) ++ r) r _).2
          ⟨_, rfl, items, by simpa using hn, fun q hq => hi q (by simp [hq]), rfl, rfl⟩
        unfold Amqp.mapLoop
        simp only [List.flatMap_cons, List.append_assoc]
        rw [bind_ok ((hk _ _ _).2 ⟨ku, rfl, h1⟩), bind_ok ((hv _ _ _).2 ⟨vu, rfl, h2⟩),
          if_pos h3]
        exact ih
end

/-! ## Headers -/

theorem takes_readBE (k : Nat) : Takes (readBE k) fun n b => Num k b n :=
  takes_of (Local.readBE k) fun n b => ⟨fun h => readBE_num (by simpa using h []), Num.reads⟩

theorem takes_takeN (k : Nat) : Takes (takeN k) fun n b => b = n ∧ b.length = k :=
  takes_of (Local.takeN k) fun n b => ⟨fun h => by
    obtain ⟨e, hl⟩ := takeN_ok (h []); simp only [List.append_nil] at e; exact ⟨e, e ▸ hl⟩,
    fun ⟨e, hl⟩ => e ▸ Reads.takeN b hl⟩

theorem takes_subChecked (env : Env) (w k : Nat) (hk : k < 256 ^ w) :
    Takes (subChecked env (8 * w) k w) fun size b => b = [] ∧ Taken env w k size := by
  have hp : 2 ^ (8 * w) = 256 ^ w := by rw [Nat.pow_mul]
  unfold subChecked
  by_cases h : w ≤ k
  · rw [if_pos h]
    refine (Takes.pure _).congr fun a b => ⟨?_, ?_⟩
    · rintro ⟨rfl, rfl⟩
      refine ⟨rfl, ?_⟩
      have := Taken.exact (env := env) (w := w) (k - w)
      rwa [Nat.add_sub_cancel' h] at this
    · rintro ⟨rfl, ht⟩
      cases ht with
      | exact => exact ⟨by omega, rfl⟩
      | wrapped _ hlt => omega
  · rw [if_neg h]
    cases ho : env.overflowChecks with
    | true =>
      intro i r a
      constructor
      · intro hi; cases hi
      · rintro ⟨b, _, _, ht⟩
        cases ht with
        | exact => omega
        | wrapped hf _ => rw [ho] at hf; cases hf
    | false =>
      refine (Takes.pure _).congr fun a b => ⟨?_, ?_⟩
      · rintro ⟨rfl, rfl⟩
        refine ⟨rfl, ?_⟩
        rw [hp, Nat.add_comm]
        exact .wrapped ho (by omega)
      · rintro ⟨rfl, ht⟩
        cases ht with
        | exact => omega
        | wrapped _ _ => exact ⟨by rw [hp, Nat.add_comm], rfl⟩

theorem takes_compound8 (env : Env) : Takes (decodeCompound8 env) fun h b =>
    ∃ s n k, b = s ++ n ∧ Num 1 s k ∧ Taken env 1 k h.size ∧ Num 1 n h.count := by
  refine (((takes_takeN 2).bind (f := fun hdr => subChecked env 8 (hdr.getD 0 0).toNat 1 >>=
    fun size => Pure.pure (CompoundHeader.mk size (hdr.getD 1 0).toNat)) fun hdr =>
    (takes_subChecked env 1 (hdr.getD 0 0).toNat (UInt8.toNat_lt _)).bind fun size =>
      Takes.pure (CompoundHeader.mk size (hdr.getD 1 0).toNat))).congr fun h b => ?_
  constructor
  · rintro ⟨hdr, u, v, rfl, ⟨rfl, hl⟩, size, u', v', rfl, ⟨rfl, ht⟩, rfl, rfl⟩
    match u, hl with
    | [x, y], _ => exact ⟨[x], [y], _, rfl, num_one x, ht, num_one y⟩
  · rintro ⟨s, n, k, rfl, hs, ht, hn⟩
    obtain ⟨x, rfl, rfl⟩ := hs.one
    obtain ⟨y, rfl, hy⟩ := hn.one
    exact ⟨[x, y], [x, y], [], rfl, ⟨rfl, rfl⟩, h.size, [], [], rfl, ⟨rfl, ht⟩,
      by cases h; simp at hy ⊢; exact hy.symm, rfl⟩

theorem takes_compound32 (env : Env) : Takes (decodeCompound32 env) fun h b =>
    ∃ s n k, b = s ++ n ∧ Num 4 s k ∧ Taken env 4 k h.size ∧ Num 4 n h.count := by
  refine takes_of (Local.decodeCompound32 env) fun h b => ⟨?_, ?_⟩
  · intro hr
    obtain ⟨r1, hdr, h1, h2⟩ := bind_eq_ok.1 (hr [])
    obtain ⟨r2, size, h3, h4⟩ := bind_eq_ok.1 h2
    obtain ⟨rfl, rfl⟩ := pure_cases h4
    obtain ⟨e, hl⟩ := takeN_ok h1
    obtain ⟨_, rfl, rfl, ht⟩ := (takes_subChecked env 4 _
      (by have := beDec_lt (hdr.take 4); simpa [hl] using this) _ _ _).1 h3
    simp only [List.append_nil] at e
    subst e
    exact ⟨b.take 4, b.drop 4, beDec (b.take 4), (List.take_append_drop 4 b).symm,
      ⟨by simp [hl], unsigned_eq _⟩, ht, ⟨by simp [hl], unsigned_eq _⟩⟩
  · rintro ⟨s, n, k, rfl, hs, ht, hn⟩ more
    have h1 : takeN 8 ((s ++ n) ++ more) = .ok (more, s ++ n) :=
      Reads.takeN (s ++ n) (by simp [hs.width, hn.width]) more
    unfold decodeCompound32
    rw [bind_ok h1, List.take_left' hs.width, List.drop_left' hs.width, ← unsigned_eq, ← unsigned_eq,
      hs.value, hn.value]
    have h2 := (takes_subChecked env 4 k hs.lt more more h.size).2 ⟨[], rfl, rfl, ht⟩
    rw [bind_ok h2]
    rfl

theorem takes_header {env : Env} {c8 c32 : UInt8} {hd : UInt8 → Dec CompoundHeader}
    (h8 : hd c8 = decodeCompound8 env) (h32 : hd c32 = decodeCompound32 env)
    (ho : ∀ c i r h, c ≠ c8 → c ≠ c32 → hd c i ≠ .ok (r, h)) :
    Takes (formatCode >>= hd) fun h b => Lenient.Header env c8 c32 b h.size h.count := by
  intro i r h
  constructor
  · intro hi
    obtain ⟨r1, c, h1, h2⟩ := bind_eq_ok.1 hi
    have := readU8_ok h1; subst this
    by_cases e8 : c = c8
    · subst e8
      rw [h8] at h2
      obtain ⟨_, rfl, s, n, k, rfl, hs, ht, hn⟩ := (takes_compound8 env _ _ _).1 h2
      exact ⟨c :: (s ++ n), rfl, .mk .narrow hs ht hn⟩
    · by_cases e32 : c = c32
      · subst e32
        rw [h32] at h2
        obtain ⟨_, rfl, s, n, k, rfl, hs, ht, hn⟩ := (takes_compound32 env _ _ _).1 h2
        exact ⟨c :: (s ++ n), rfl, .mk .wide hs ht hn⟩
      · exact absurd h2 (ho _ _ _ _ e8 e32)
  · rintro ⟨b, rfl, hb⟩
    generalize hsz : h.size = sz at hb
    generalize hct : h.count = ct at hb
    cases hb with
    | @mk c w k size count s n hc hs ht hn =>
      subst hsz hct
      show hd c ((s ++ n) ++ r) = _
      cases hc with
      | narrow => rw [h8]; exact (takes_compound8 env _ _ _).2 ⟨_, rfl, s, n, k, rfl, hs, ht, hn⟩
      | wide => rw [h32]; exact (takes_compound32 env _ _ _).2 ⟨_, rfl, s, n, k, rfl, hs, ht, hn⟩

theorem takes_mapHeader (env : Env) : Takes (formatCode >>= decodeMapHeader env) fun h b =>
    Lenient.Header env 0xc1 0xd1 b h.size h.count :=
  takes_header rfl rfl fun c i r h h1 h2 => by
    intro g
    rcases ite_cases g with ⟨e, _⟩ | ⟨_, g⟩
    · exact h1 e
    rcases ite_cases g with ⟨e, _⟩ | ⟨_, g⟩
    · exact h2 e
    · cases g

theorem takes_arrayHeader (env : Env) : Takes (formatCode >>= decodeArrayHeader env) fun h b =>
    Lenient.Header env 0xe0 0xf0 b h.size h.count :=
  takes_header rfl rfl fun c i r h h1 h2 => by
    intro g
    rcases ite_cases g with ⟨e, _⟩ | ⟨_, g⟩
    · exact h1 e
    rcases ite_cases g with ⟨e, _⟩ | ⟨_, g⟩
    · exact h2 e
    · cases g

/-- The two list headers with counts. -/
theorem takes_listHeader (env : Env) : Takes (formatCode >>= decodeListHeader env) fun h b =>
    (h = ⟨0, 0⟩ ∧ b = [0x45]) ∨ Lenient.Header env 0xc0 0xd0 b h.size h.count := by
  have key : Takes (formatCode >>= fun c => if c = FC.list0 then Dec.fail (.invalidFormatCode c)
      else decodeListHeader env c) fun h b => Lenient.Header env 0xc0 0xd0 b h.size h.count :=
    takes_header rfl rfl fun c i r h h1 h2 => by
      intro g
      rcases ite_cases g with ⟨_, g⟩ | ⟨h0, g⟩
      · cases g
      rcases ite_cases g with ⟨e, _⟩ | ⟨_, g⟩
      · exact h0 e
      rcases ite_cases g with ⟨e, _⟩ | ⟨_, g⟩
      · exact h1 e
      rcases ite_cases g with ⟨e, _⟩ | ⟨_, g⟩
      · exact h2 e
      · cases g
  intro i r h
  constructor
  · intro hi
    obtain ⟨r1, c, h1, h2⟩ := bind_eq_ok.1 hi
    have := readU8_ok h1; subst this
    by_cases h0 : c = FC.list0
    · subst h0
      obtain ⟨rfl, rfl⟩ := pure_cases (b := (⟨0, 0⟩ : CompoundHeader)) h2
      exact ⟨[0x45], rfl, .inl ⟨rfl, rfl⟩⟩
    · obtain ⟨b, e, hb⟩ := (key (c :: r1) r h).1 (by
        show (if c = FC.list0 then Dec.fail (.invalidFormatCode c) else decodeListHeader env c) r1 = _
        rw [if_neg h0]; exact h2)
      exact ⟨b, e, .inr hb⟩
  · rintro ⟨b, rfl, ⟨rfl, rfl⟩ | hb⟩
    · rfl
    · have := (key _ r _).2 ⟨b, rfl, hb⟩
      generalize hsz : h.size = sz at hb
      generalize hct : h.count = ct at hb
      cases hb with
      | @mk c w k size count s n hc hs ht hn =>
        cases hc <;> exact this

/-! ## Compound values -/

theorem takes_map {K V : Type} [HKey K] [LawfulKey K] {kd : Dec K} {vd : Dec V} {LK : Rep K}
    {LV : Rep V} (env : Env) (hk : Takes kd LK) (hv : Takes vd LV) :
    Takes (formatCode >>= decodeMapWith kd vd env) (Lenient.map env LK LV) := by
  have h1 := (takes_mapHeader env).bind fun h => (hk.mapLoop hv (h.count / 2) []).withSlice h.size
  have e : (formatCode >>= decodeMapWith kd vd env) = ((formatCode >>= decodeMapHeader env) >>=
      fun h => withSlice h.size (mapLoop kd vd (h.count / 2) [])) := by
    rw [bind_assoc]; rfl
  rw [e]
  refine h1.congr fun l b => ⟨?_, ?_⟩
  · rintro ⟨h, hdr, v, rfl, hh, hsz, u, pad, rfl, items, hn, hi, rfl, rfl⟩
    rw [insertAll_merged _ (by
      intro e he
      obtain ⟨p, hp, rfl⟩ := List.mem_map.1 he
      exact (hi p hp).2.2)]
    exact .mk items pad (hsz ▸ hh) hn.symm hi
  · rintro ⟨items, pad, hh, hn, hi⟩
    refine ⟨⟨_, _⟩, _, _, rfl, hh, rfl, _, pad, rfl, items, hn.symm, hi, ?_, rfl⟩
    rw [insertAll_merged]
    intro e he
    obtain ⟨p, hp, rfl⟩ := List.mem_map.1 he
    exact (hi p hp).2.2

theorem takes_list {vd : Dec Variant} {L : Rep Variant} (env : Env) (h : Takes vd L) :
    Takes (formatCode >>= decodeListWith vd env) (Lenient.list env L) := by
  have h1 := (takes_listHeader env).bind fun hd => h.decodeN hd.count
  have e : (formatCode >>= decodeListWith vd env) = ((formatCode >>= decodeListHeader env) >>=
      fun h => decodeN vd h.count) := by
    rw [bind_assoc]; rfl
  rw [e]
  refine h1.congr fun l b => ⟨?_, ?_⟩
  · rintro ⟨hd, hdr, v, rfl, ⟨rfl, rfl⟩ | hh, items, hn, hi, rfl, rfl⟩
    · have : items = [] := List.length_eq_zero_iff.1 hn
      subst this
      exact .empty
    · exact .mk items (hn ▸ hh) hi
  · intro hl
    cases hl with
    | empty => exact ⟨⟨0, 0⟩, [0x45], [], rfl, .inl ⟨rfl, rfl⟩, [], rfl, by simp, rfl, rfl⟩
    | mk items hh hi => exact ⟨⟨_, _⟩, _, _, rfl, .inr hh, items, rfl, hi, rfl, rfl⟩

theorem takes_indexU8 : Takes indexU8 fun x b => b = [x] := by
  intro i r x
  constructor
  · intro h
    cases i with
    | nil => cases h
    | cons c t => injection h with h; injection h with h1 h2; subst h1 h2; exact ⟨[c], rfl, rfl⟩
  · rintro ⟨_, rfl, rfl⟩; rfl

theorem takes_decF {α : Type} [DecodeF α] {env : Env} {L : Rep α} (h : Accepts α env L) (k : UInt8) :
    Takes (decF env k) fun a b => L a (k :: b) := by
  intro i r a
  show decode α env (k :: i) = _ ↔ _
  rw [h]
  constructor
  · rintro ⟨b, e, hb⟩
    cases b with
    | nil =>
      -- a decoder that reads nothing cannot read the format code
      exfalso
      have := (h [] [] a).2 ⟨[], rfl, hb⟩
      cases this
    | cons c b =>
      injection e with e1 e2
      subst e1 e2
      exact ⟨b, rfl, hb⟩
  · rintro ⟨b, rfl, hb⟩; exact ⟨k :: b, rfl, hb⟩

theorem accepts_vec {α : Type} [DecodeF α] {env : Env} {L : Rep α} (h : Accepts α env L) :
    Accepts (Vec α) env fun v => Lenient.array env L v.items := by
  have h1 := (takes_arrayHeader env).bind fun hd => takes_indexU8.bind fun k =>
    ((takes_decF h k).decodeN hd.count).bind fun items => Takes.pure (⟨items⟩ : Vec α)
  have e : decode (Vec α) env = ((formatCode >>= decodeArrayHeader env) >>= fun hd =>
      indexU8 >>= fun k => decodeN (decF env k) hd.count >>= fun items =>
        Pure.pure (⟨items⟩ : Vec α)) := by
    rw [bind_assoc]; rfl
  rw [accepts_iff, e]
  refine h1.congr fun l b => ⟨?_, ?_⟩
  · rintro ⟨hd, hdr, v, rfl, hh, k, u, v', rfl, rfl, l', u', v'', rfl, ⟨items, hn, hi, rfl, rfl⟩,
      rfl, rfl⟩
    have := Lenient.array.mk (env := env) (L := L) k items (hn ▸ hh) hi
    simpa using this
  · obtain ⟨l⟩ := l
    intro hl
    cases hl with
    | mk k items hh hi =>
      exact ⟨⟨_, _⟩, _, _, rfl, hh, k, [k], _, rfl, rfl, items.map Prod.fst,
        items.flatMap Prod.snd, [], by simp [List.flatMap], ⟨items, rfl, hi, rfl, rfl⟩, rfl, rfl⟩

end Amqp
