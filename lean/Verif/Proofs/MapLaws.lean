import Verif.Proofs.VariantDecode
import Verif.Spec.Maps
/-!
# Association laws of decoded maps
-/
set_option autoImplicit false
namespace Amqp
open Dec

instance : LawfulKey Variant := ⟨key_refl, key_symm, fun ha hb _ => key_trans ha hb⟩
instance : LawfulKey Symbol := ⟨fun _ => by simp [HKey.keq],
  fun _ _ h => by simp [HKey.keq] at h ⊢; exact h.symm,
  fun _ _ _ h1 h2 => by simp [HKey.keq] at h1 h2 ⊢; exact h1.trans h2⟩
instance : LawfulKey RStr := ⟨fun _ => by simp [HKey.keq],
  fun _ _ h => by simp [HKey.keq] at h ⊢; exact h.symm,
  fun _ _ _ h1 h2 => by simp [HKey.keq] at h1 h2 ⊢; exact h1.trans h2⟩

theorem keq_congr {K : Type} [HKey K] [LawfulKey K] {a b c : K} (ha : HKey.hashOk a = true)
    (hb : HKey.hashOk b = true) (hc : HKey.hashOk c = true) (h : HKey.keq b c = true) :
    HKey.keq a b = HKey.keq a c := by
  rw [Bool.eq_iff_iff]
  exact ⟨fun h1 => LawfulKey.trans ha hb hc h1 h,
    fun h1 => LawfulKey.trans ha hc hb h1 (LawfulKey.symm hb hc h)⟩

theorem valueOf_cons {K V : Type} [HKey K] (k : K) (e : K × V) (t : List (K × V)) :
    valueOf k (e :: t) = if HKey.keq k e.1 = true then some e.2 else valueOf k t := by
  unfold valueOf
  cases h : HKey.keq k e.1 <;> simp [h]

theorem valueOf_insert {K V : Type} [HKey K] [LawfulKey K] {k q : K} (v : V)
    {l : List (K × V)} (hl : ∀ e ∈ l, HKey.hashOk e.1 = true) (hk : HKey.hashOk k = true)
    (hq : HKey.hashOk q = true) :
    valueOf q (insertEntry HKey.keq k v l) =
      if HKey.keq q k = true then some v else valueOf q l := by
  induction l with
  | nil => simp [insertEntry, valueOf_cons]
  | cons e t ih =>
    obtain ⟨k', v'⟩ := e
    have hk' : HKey.hashOk k' = true := hl (k', v') (by simp)
    unfold insertEntry
    split
    · rename_i h
      rw [valueOf_cons, valueOf_cons, keq_congr hq hk hk' h]
      split <;> rfl
    · rename_i h
      rw [valueOf_cons, valueOf_cons, ih fun e he => hl e (by simp [he])]
      split
      · rename_i h1
        rw [if_neg]
        intro h2
        exact h (LawfulKey.trans hk hq hk' (LawfulKey.symm hq hk h2) h1)
      · rfl

/-- The entries the loop ends up with. -/
def insertAll {K V : Type} [HKey K] (acc l : List (K × V)) : List (K × V) :=
  l.foldl (fun a e => insertEntry HKey.keq e.1 e.2 a) acc

theorem mapLoop_insertAll {K V : Type} [HKey K] {kd : Dec K} {vd : Dec V} {ke : K → Bytes}
    {ve : V → Bytes} : ∀ (l acc : List (K × V)),
    (∀ e ∈ l, Reads kd (ke e.1) e.1) → (∀ e ∈ l, Reads vd (ve e.2) e.2) →
    (∀ e ∈ l, HKey.hashOk e.1 = true) →
    Reads (mapLoop kd vd l.length acc) (mapContent ke ve l) (insertAll acc l)
  | [], acc, _, _, _ => by intro more; rfl
  | (k, v) :: t, acc, hk, hv, hh => by
    intro more
    have h1 := hk (k, v) (by simp)
    have h2 := hv (k, v) (by simp)
    have h3 := hh (k, v) (by simp)
    have ih := mapLoop_insertAll t (insertEntry HKey.keq k v acc)
      (fun e he => hk e (by simp [he])) (fun e he => hv e (by simp [he]))
      (fun e he => hh e (by simp [he])) more
    show mapLoop kd vd (t.length + 1) acc (ke k ++ ve v ++ mapContent ke ve t ++ more) = _
    rw [List.append_assoc, List.append_assoc]
    unfold mapLoop
    rw [bind_ok (h1 _), bind_ok (h2 _), if_pos h3]
    exact ih

theorem insertEntry_hash {K V : Type} [HKey K] {k : K} {v : V} {l : List (K × V)}
    (hl : ∀ e ∈ l, HKey.hashOk e.1 = true) (hk : HKey.hashOk k = true) :
    ∀ e ∈ insertEntry HKey.keq k v l, HKey.hashOk e.1 = true := by
  intro e he
  rcases insertEntry_mem _ _ _ _ he with h | rfl | ⟨_, h⟩
  · exact hl e h
  · exact hk
  · obtain ⟨f, hf, e'⟩ := List.mem_map.1 h
    rw [← e']; exact hl f hf

theorem insertAll_valueOf {K V : Type} [HKey K] [LawfulKey K] {q : K}
    (hq : HKey.hashOk q = true) : ∀ (l acc : List (K × V)),
    (∀ e ∈ acc, HKey.hashOk e.1 = true) → (∀ e ∈ l, HKey.hashOk e.1 = true) →
    valueOf q (insertAll acc l) = (lastValueOf q l).or (valueOf q acc)
  | [], acc, _, _ => by simp [insertAll, lastValueOf]
  | (k, v) :: t, acc, ha, hl => by
    have hk := hl (k, v) (by simp)
    have ih := insertAll_valueOf hq t (insertEntry HKey.keq k v acc)
      (insertEntry_hash ha hk) (fun e he => hl e (by simp [he]))
    show valueOf q (insertAll (insertEntry HKey.keq k v acc) t) = _
    rw [ih, valueOf_insert v ha hk hq]
    unfold lastValueOf
    rw [List.reverse_cons, List.find?_append]
    cases h1 : List.find? (fun e => HKey.keq q e.1) t.reverse with
    | some e => simp
    | none => cases h2 : HKey.keq q k <;> simp [h2]

theorem insertAll_fresh {K V : Type} [HKey K] : ∀ (l acc : List (K × V)),
    NodupKeys (acc ++ l) → insertAll acc l = acc ++ l
  | [], acc, _ => by simp [insertAll]
  | (k, v) :: t, acc, h => by
    have h1 : insertEntry HKey.keq k v acc = acc ++ [(k, v)] := insertEntry_fresh _ _ _ _ fun e he =>
      (List.pairwise_append.1 h).2.2 e he (k, v) (by simp)
    show insertAll (insertEntry HKey.keq k v acc) t = _
    rw [h1, insertAll_fresh t _ (by simpa using h)]
    simp

theorem pos_of_roundTrips {α : Type} [Encode α] [DecodeF α] {env : Env} {a : α}
    (h : RoundTrips env a) : 0 < (enc a).length := by
  cases e : enc a with
  | nil => have := h []; rw [e] at this; cases this
  | cons => simp

theorem insertAll_nodup {K V : Type} [HKey K] : ∀ (l acc : List (K × V)), NodupKeys acc →
    NodupKeys (insertAll acc l)
  | [], _, h => h
  | e :: t, _, h => insertAll_nodup t _ (insertEntry_nodup e.1 e.2 h)

theorem mapLoop_nodup {K V : Type} [HKey K] {kd : Dec K} {vd : Dec V} :
    ∀ n (acc : List (K × V)) i r out, NodupKeys acc → (∀ e ∈ acc, HKey.hashOk e.1 = true) →
      mapLoop kd vd n acc i = .ok (r, out) → NodupKeys out ∧ ∀ e ∈ out, HKey.hashOk e.1 = true
  | 0, acc, i, r, out, ha, hh, h => by
    injection h with h; injection h with h1 h2
    subst h1 h2
    exact ⟨ha, hh⟩
  | n + 1, acc, i, r, out, ha, hh, h => by
    obtain ⟨r1, k, r2, v, _, _, hk, h⟩ := mapLoop_succ h
    exact mapLoop_nodup n _ _ _ _ (insertEntry_nodup k v ha) (insertEntry_hash hh hk) h

/-- Reading a map whose entries were written in the order `l`. -/
theorem reads_map {K V : Type} [HKey K] {kd : Dec K} {vd : Dec V} {ks : K → Nat} {vs : V → Nat}
    {ke : K → Bytes} {ve : V → Bytes} {l : List (K × V)} (env : Env)
    (key : ∀ e ∈ l, Reads kd (ke e.1) e.1 ∧ ks e.1 = (ke e.1).length ∧ 0 < ks e.1 ∧
      HKey.hashOk e.1 = true)
    (val : ∀ e ∈ l, Reads vd (ve e.2) e.2 ∧ vs e.2 = (ve e.2).length ∧ 0 < vs e.2)
    (small : mapContentSize ks vs l + 4 < 2 ^ 32) :
    ∃ c w, compoundHdr FC.map8 FC.map32 (mapContentSize ks vs l) (l.length * 2) ++
        mapContent ke ve l = c :: w ∧ (c = FC.map8 ∨ c = FC.map32) ∧
      Reads (decodeMapWith kd vd env c) w (insertAll [] l) := by
  have hc := mapContentSize_ge l (fun e he => (key e he).2.2.1) (fun e he => (val e he).2.2)
  obtain ⟨c, w, e, hc, hr⟩ := compoundHdr_reads (env := env) (c8 := FC.map8) (c32 := FC.map32)
    (hd := decodeMapHeader env) rfl rfl small hc
  refine ⟨c, w ++ mapContent ke ve l, by rw [e]; rfl, hc, ?_⟩
  have h1 := mapContent_length l (fun e he => (key e he).2.1) (fun e he => (val e he).2.1)
  have h2 := mapLoop_insertAll l [] (fun e he => (key e he).1) (fun e he => (val e he).1)
    (fun e he => (key e he).2.2.2)
  refine hr.bind ?_
  intro more
  have h3 := h2 []
  rw [List.append_nil] at h3
  simp only [withSlice]
  rw [h1, if_neg (by simp), List.take_left' rfl, List.drop_left' rfl,
    Nat.mul_div_cancel _ (by decide), h3]

theorem mapContentSize_perm {K V : Type} (ks : K → Nat) (vs : V → Nat) {l m : List (K × V)}
    (p : l.Perm m) : mapContentSize ks vs l = mapContentSize ks vs m := by
  induction p with
  | nil => rfl
  | cons e _ ih => obtain ⟨k, v⟩ := e; simp [mapContentSize, ih]
  | swap a b l =>
    obtain ⟨k, v⟩ := a
    obtain ⟨k', v'⟩ := b
    simp [mapContentSize]; omega
  | trans _ _ h1 h2 => exact h1.trans h2

theorem nodupKeys_perm {K V : Type} [HKey K] [LawfulKey K] {l m : List (K × V)}
    (p : l.Perm m) (hh : ∀ e ∈ l, HKey.hashOk e.1 = true) (h : NodupKeys l) : NodupKeys m := by
  -- distinctness is symmetric on hashable keys, so it survives permutation
  have : l.Pairwise fun a b => HKey.hashOk a.1 = true ∧ HKey.hashOk b.1 = true ∧
      HKey.keq b.1 a.1 = false := by
    refine List.Pairwise.imp_of_mem ?_ h
    intro a b ha hb hab
    exact ⟨hh a ha, hh b hb, hab⟩
  have := p.pairwise this (by
    intro a b ⟨h1, h2, h3⟩
    refine ⟨h2, h1, ?_⟩
    cases e : HKey.keq a.1 b.1 with
    | false => rfl
    | true => rw [LawfulKey.symm h1 h2 e] at h3; cases h3)
  exact this.imp fun h => h.2.2

theorem valueOf_mem {K V : Type} [HKey K] [LawfulKey K] {l : List (K × V)}
    (hh : ∀ e ∈ l, HKey.hashOk e.1 = true) (hn : NodupKeys l) {q : K}
    (hq : HKey.hashOk q = true) (v : V) :
    valueOf q l = some v ↔ ∃ k, (k, v) ∈ l ∧ HKey.keq q k = true := by
  induction l with
  | nil => simp [valueOf]
  | cons e t ih =>
    obtain ⟨k, w⟩ := e
    have hn' := List.pairwise_cons.1 hn
    rw [valueOf_cons]
    split
    · rename_i h
      constructor
      · intro h1; injection h1 with h1; subst h1; exact ⟨k, by simp, h⟩
      · rintro ⟨k', h1, h2⟩
        rcases List.mem_cons.1 h1 with h1 | h1
        · injection h1 with h3 h4; simp [h4]
        · exfalso
          have h3 := hn'.1 _ h1
          have hk := hh (k, w) (by simp)
          have hk' := hh (k', v) (by simp [h1])
          rw [LawfulKey.trans hk' hq hk (LawfulKey.symm hq hk' h2) h] at h3
          cases h3
    · rename_i h
      rw [ih (fun e he => hh e (by simp [he])) hn'.2]
      constructor
      · rintro ⟨k', h1, h2⟩; exact ⟨k', by simp [h1], h2⟩
      · rintro ⟨k', h1, h2⟩
        rcases List.mem_cons.1 h1 with h1 | h1
        · injection h1 with h3 h4; subst h3; exact absurd h2 h
        · exact ⟨k', h1, h2⟩

theorem valueOf_perm {K V : Type} [HKey K] [LawfulKey K] {l m : List (K × V)} (p : l.Perm m)
    (hh : ∀ e ∈ l, HKey.hashOk e.1 = true) (hn : NodupKeys l) {q : K}
    (hq : HKey.hashOk q = true) : valueOf q l = valueOf q m := by
  apply Option.ext
  intro v
  rw [valueOf_mem hh hn hq, valueOf_mem (fun e he => hh e (p.mem_iff.2 he))
    (nodupKeys_perm p hh hn) hq]
  simp only [p.mem_iff]

theorem mapContentSize_mem {K V : Type} (ks : K → Nat) (vs : V → Nat) {l : List (K × V)}
    {e : K × V} (h : e ∈ l) : ks e.1 + vs e.2 ≤ mapContentSize ks vs l := by
  induction l with
  | nil => cases h
  | cons x t ih =>
    obtain ⟨k, v⟩ := x
    simp only [mapContentSize]
    rcases List.mem_cons.1 h with rfl | h
    · simp
    · have := ih h; omega

theorem All2.getElem {α β : Type} {R : α → β → Prop} {l : List α} {m : List β} (h : All2 R l m) :
    ∀ i (h1 : i < l.length) (h2 : i < m.length), R l[i] m[i] := by
  induction h with
  | nil => intro i h1; cases h1
  | cons h _ ih =>
    intro i h1 h2
    cases i with
    | zero => exact h
    | succ i => exact ih i _ _

theorem All2.of_getElem {α β : Type} {R : α → β → Prop} {l : List α} {m : List β}
    (hl : l.length = m.length)
    (h : ∀ i (h1 : i < l.length) (h2 : i < m.length), R l[i] m[i]) : All2 R l m := by
  induction l generalizing m with
  | nil => cases m with
    | nil => exact .nil
    | cons => cases hl
  | cons a l ih => cases m with
    | nil => cases hl
    | cons b m =>
      refine .cons (h 0 (by simp) (by simp)) (ih (by simpa using hl) fun i h1 h2 => ?_)
      exact h (i + 1) (by simpa using h1) (by simpa using h2)

end Amqp
