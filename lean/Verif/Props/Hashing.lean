import Verif.Spec.Tables
import Verif.Proofs.MapLaws
import Verif.Props.Text
/-!
# C54: hashing of map keys

The rest of the model treats a `HashMap` as a list of entries searched by `==`.
Here that is derived from what a hash table guarantees (`Spec/Tables.lean`), for
every hash function, and from the fact that equal keys hash alike.
-/
set_option autoImplicit false
namespace Amqp
open Dec
open StrRepr (HashWrite strHash)

/-! ### Equal keys hash alike -/

theorem F32.hashBits_norm (x : F32) : x.norm.hashBits = x.hashBits := by
  unfold F32.hashBits
  rw [F32.isNaN_norm]
  by_cases h : x.isNaN = true
  · rw [if_pos h, if_pos h]
  · rw [if_neg h, if_neg h]
    unfold F32.norm
    rw [if_neg h]
    by_cases h0 : x.bits.toNat % 0x80000000 = 0
    · rw [if_pos h0, if_pos h0]; rfl
    · rw [if_neg h0]

theorem F64.hashBits_norm (x : F64) : x.norm.hashBits = x.hashBits := by
  unfold F64.hashBits
  rw [F64.isNaN_norm]
  by_cases h : x.isNaN = true
  · rw [if_pos h, if_pos h]
  · rw [if_neg h, if_neg h]
    unfold F64.norm
    rw [if_neg h]
    by_cases h0 : x.bits.toNat % 0x8000000000000000 = 0
    · rw [if_pos h0, if_pos h0]; rfl
    · rw [if_neg h0]

theorem normList_length : ∀ l : List Variant, (normList l).length = l.length
  | [] => rfl
  | _ :: t => by simp [normList, normList_length t]

mutual
theorem hash_norm : ∀ v : Variant, v.norm.hash = v.hash
  | .float x => by simp [Variant.norm, Variant.hash, F32.hashBits_norm]
  | .double x => by simp [Variant.norm, Variant.hash, F64.hashBits_norm]
  | .list l => by simp [Variant.norm, Variant.hash, hashList_norm l, normList_length]
  | .described d v => by simp [Variant.norm, Variant.hash, hash_norm v]
  | .null => rfl
  | .boolean _ => rfl
  | .ubyte _ => rfl
  | .ushort _ => rfl
  | .uint _ => rfl
  | .ulong _ => rfl
  | .byte _ => rfl
  | .short _ => rfl
  | .int _ => rfl
  | .long _ => rfl
  | .char _ => rfl
  | .timestamp _ => rfl
  | .uuid _ => rfl
  | .binary _ => rfl
  | .string _ => rfl
  | .symbol _ => rfl
  | .staticSymbol _ => rfl
  | .map _ => rfl
theorem hashList_norm : ∀ l : List Variant, hashList (normList l) = hashList l
  | [] => rfl
  | v :: t => by simp only [normList, hashList, hash_norm v, hashList_norm t]
end

/-- **C54**: values that compare equal feed the same data to a hasher, in particular
both zeros and all NaNs. -/
theorem C54_equal_hash (a b : Variant) (ha : a.hashOk = true) (h : a.veq b = true) :
    a.hash = b.hash := by
  rw [← hash_norm a, ← hash_norm b, (veq_iff_norm a ha b).1 h]

mutual
theorem hash_isSome : ∀ v : Variant, v.hash.isSome = v.hashOk
  | .list l => by simp [Variant.hash, Variant.hashOk, hashList_isSome l]
  | .described d v => by simp [Variant.hash, Variant.hashOk, hash_isSome v]
  | .map _ => rfl
  | .float _ => rfl
  | .double _ => rfl
  | .null => rfl
  | .boolean _ => rfl
  | .ubyte _ => rfl
  | .ushort _ => rfl
  | .uint _ => rfl
  | .ulong _ => rfl
  | .byte _ => rfl
  | .short _ => rfl
  | .int _ => rfl
  | .long _ => rfl
  | .char _ => rfl
  | .timestamp _ => rfl
  | .uuid _ => rfl
  | .binary _ => rfl
  | .string _ => rfl
  | .symbol _ => rfl
  | .staticSymbol _ => rfl
theorem hashList_isSome : ∀ l : List Variant, (hashList l).isSome = hashOkList l
  | [] => rfl
  | v :: t => by
    have h1 := hash_isSome v
    have h2 := hashList_isSome t
    simp only [hashList, hashOkList, ← h1, ← h2]
    cases v.hash <;> simp
end

mutual
/-- Does the value contain a map, at any depth? -/
def Variant.HasMap : Variant → Prop
  | .map _ => True
  | .list l => anyMap l
  | .described _ v => v.HasMap
  | _ => False
def anyMap : List Variant → Prop
  | [] => False
  | v :: t => v.HasMap ∨ anyMap t
end

mutual
theorem hashOk_iff : ∀ v : Variant, v.hashOk = false ↔ v.HasMap
  | .list l => by simp only [Variant.hashOk, Variant.HasMap]; exact hashOkList_iff l
  | .described d v => by simp only [Variant.hashOk, Variant.HasMap]; exact hashOk_iff v
  | .map _ => by simp [Variant.hashOk, Variant.HasMap]
  | .float _ | .double _ | .null | .boolean _ | .ubyte _ | .ushort _ | .uint _ | .ulong _ | .byte _
  | .short _ | .int _ | .long _ | .char _ | .timestamp _ | .uuid _ | .binary _ | .string _
  | .symbol _ | .staticSymbol _ => by simp [Variant.hashOk, Variant.HasMap]
theorem hashOkList_iff : ∀ l : List Variant, hashOkList l = false ↔ anyMap l
  | [] => by simp [hashOkList, anyMap]
  | v :: t => by
    simp only [hashOkList, anyMap, Bool.and_eq_false_iff]
    rw [hashOk_iff v, hashOkList_iff t]
end

/-- **C54**: hashing panics exactly for values that contain a map. -/
theorem C54_hash_panics (v : Variant) : v.hash = none ↔ v.HasMap := by
  rw [← hashOk_iff, ← hash_isSome]
  cases v.hash <;> simp

/-- Equal keys have equal hashes. -/
class LawfulHash (K : Type) [HashKey K] : Prop extends LawfulKey K where
  congr : ∀ {a b : K}, HKey.hashOk a = true → HKey.keq a b = true →
    HashKey.hash a = HashKey.hash b

instance : LawfulHash Variant := ⟨fun ha h => C54_equal_hash _ _ ha h⟩
instance : LawfulHash Symbol := ⟨fun _ h => by
  rw [show _ = _ from beq_iff_eq.1 h]⟩
instance : LawfulHash RStr := ⟨fun _ h => by
  rw [show _ = _ from beq_iff_eq.1 h]⟩

/-! ### Hash tables are lists of entries -/

section
variable {K V H : Type} [HashKey K] [LawfulHash K] {hasher : Option (List HashWrite) → H}

theorem not_eq_of_missed {l : List (K × V)} {k : K} (hk : HKey.hashOk k = true)
    (h : ∀ e ∈ l, hasher (HashKey.hash e.1) = hasher (HashKey.hash k) → HKey.keq k e.1 = false) :
    ∀ e ∈ l, HKey.keq k e.1 = false := by
  intro e he
  cases hq : HKey.keq k e.1 with
  | false => rfl
  | true =>
    have := h e he (congrArg hasher (LawfulHash.congr hk hq).symm)
    rw [hq] at this; cases this

/-- **C54**: whatever the hash function, looking up a key yields the value of the
entry with an equal key. -/
theorem C54_get {l : List (K × V)} {k : K} {r : Option V} (hl : ∀ e ∈ l, HKey.hashOk e.1 = true)
    (hn : NodupKeys l) (hk : HKey.hashOk k = true) (h : TableGet hasher l k r) :
    r = valueOf k l := by
  cases h with
  | found e he hq => exact ((valueOf_mem hl hn hk e.2).2 ⟨e.1, he, hq⟩).symm
  | missed h =>
    have h1 := not_eq_of_missed hk h
    cases hv : valueOf k l with
    | none => rfl
    | some w =>
      obtain ⟨q, hq, he⟩ := (valueOf_mem hl hn hk w).1 hv
      rw [h1 _ hq] at he; cases he

theorem insertEntry_at {k : K} {v : V} {e : K × V} {l2 : List (K × V)} :
    ∀ {l1 : List (K × V)}, (∀ f ∈ l1, HKey.keq k f.1 = false) → HKey.keq k e.1 = true →
    insertEntry HKey.keq k v (l1 ++ e :: l2) = l1 ++ (e.1, v) :: l2
  | [], _, he => by
    show insertEntry HKey.keq k v (e :: l2) = _
    simp [insertEntry, he]
  | f :: t, h, he => by
    show insertEntry HKey.keq k v (f :: (t ++ e :: l2)) = _
    simp only [insertEntry]
    rw [if_neg (by rw [h f (by simp)]; exact Bool.false_ne_true),
      insertEntry_at (fun g hg => h g (by simp [hg])) he]
    rfl

theorem before_ne {k : K} {e : K × V} {l1 l2 : List (K × V)}
    (hl : ∀ f ∈ l1 ++ e :: l2, HKey.hashOk f.1 = true) (hn : NodupKeys (l1 ++ e :: l2))
    (hk : HKey.hashOk k = true) (he : HKey.keq k e.1 = true) :
    ∀ f ∈ l1, HKey.keq k f.1 = false := by
  intro f hf
  have h1 := (List.pairwise_append.1 hn).2.2 f hf e (by simp)
  have hfo := hl f (by simp [hf])
  have heo := hl e (by simp)
  cases hq : HKey.keq k f.1 with
  | false => rfl
  | true => rw [LawfulKey.trans heo hk hfo (LawfulKey.symm hk heo he) hq] at h1; cases h1

/-- **C54**: whatever the hash function, inserting has the effect it has on a list of
entries, up to their order. -/
theorem C54_insert {l l' : List (K × V)} {k : K} {v : V}
    (hl : ∀ e ∈ l, HKey.hashOk e.1 = true) (hn : NodupKeys l) (hk : HKey.hashOk k = true)
    (h : TableInsert hasher k v l l') : l'.Perm (insertEntry HKey.keq k v l) := by
  cases h with
  | replaced l1 l2 _ e he hp => rw [insertEntry_at (before_ne hl hn hk he) he]; exact hp
  | added _ _ h hp =>
    have h1 := not_eq_of_missed hk h
    rw [insertEntry_fresh _ _ _ _ h1]
    exact hp.trans (List.perm_append_comm (l₁ := [(k, v)]) (l₂ := l))

/-- A table that searches by hash exists: the list of entries is one. -/
theorem insertEntry_table (k : K) (v : V) (l : List (K × V)) :
    TableInsert hasher k v l (insertEntry HKey.keq k v l) := by
  induction l with
  | nil => exact .added _ _ (by simp) (List.Perm.refl _)
  | cons e t ih =>
    unfold insertEntry
    split
    · rename_i h; exact .replaced [] t _ e h (List.Perm.refl _)
    · rename_i h
      cases ih with
      | replaced l1 l2 _ f hf hp => exact .replaced (e :: l1) l2 _ f hf (hp.cons e)
      | added _ _ hm hp =>
        refine .added _ _ ?_ ((hp.cons e).trans (List.Perm.swap _ _ _))
        intro f hf hh
        rcases List.mem_cons.1 hf with rfl | hf
        · simpa using h
        · exact hm f hf hh

theorem insertEntry_perm {l m : List (K × V)} {k : K} {v : V} (p : l.Perm m)
    (hl : ∀ e ∈ l, HKey.hashOk e.1 = true) (hn : NodupKeys l) (hk : HKey.hashOk k = true) :
    (insertEntry HKey.keq k v l).Perm (insertEntry HKey.keq k v m) := by
  have hm : ∀ e ∈ m, HKey.hashOk e.1 = true := fun e he => hl e (p.mem_iff.2 he)
  have hnm := nodupKeys_perm p hl hn
  by_cases h : ∃ e ∈ l, HKey.keq k e.1 = true
  · obtain ⟨e, he, hq⟩ := h
    obtain ⟨l1, l2, rfl⟩ := List.append_of_mem he
    obtain ⟨m1, m2, rfl⟩ := List.append_of_mem (p.mem_iff.1 he)
    rw [insertEntry_at (before_ne hl hn hk hq) hq, insertEntry_at (before_ne hm hnm hk hq) hq]
    have p2 : (e :: (l1 ++ l2)).Perm (e :: (m1 ++ m2)) :=
      List.perm_middle.symm.trans (p.trans List.perm_middle)
    exact List.perm_middle.trans ((((List.perm_cons e).1 p2).cons _).trans List.perm_middle.symm)
  · have hf : ∀ e ∈ l, HKey.keq k e.1 = false := fun e he => by
      cases hq : HKey.keq k e.1 with
      | false => rfl
      | true => exact absurd ⟨e, he, hq⟩ h
    rw [insertEntry_fresh _ _ _ _ hf, insertEntry_fresh _ _ _ _ fun e he => hf e (p.mem_iff.2 he)]
    exact p.append_right _

theorem run_perm {l acc pairs l' : List (K × V)} (h : TableRun hasher l pairs l') (p : l.Perm acc)
    (hl : ∀ e ∈ acc, HKey.hashOk e.1 = true) (hn : NodupKeys acc)
    (hk : ∀ e ∈ pairs, HKey.hashOk e.1 = true) : l'.Perm (insertAll acc pairs) := by
  induction h generalizing acc with
  | done l => exact p
  | step l m n k v t hi hr ih =>
    have hk0 := hk (k, v) (by simp)
    have hl' : ∀ e ∈ l, HKey.hashOk e.1 = true := fun e he => hl e (p.mem_iff.1 he)
    have hn' := nodupKeys_perm p.symm hl hn
    show n.Perm (insertAll (insertEntry HKey.keq k v acc) t)
    exact ih ((C54_insert hl' hn' hk0 hi).trans (insertEntry_perm p hl' hn' hk0))
      (insertEntry_hash hl hk0) (insertEntry_nodup k v hn) fun e he => hk e (by simp [he])

/-- **C54**: a table filled by insertions, whatever its hash function and layout, gives
every key the value last inserted for an equal key. -/
theorem C54_last_inserted {pairs l : List (K × V)} {k : K} {r : Option V}
    (hp : ∀ e ∈ pairs, HKey.hashOk e.1 = true) (hk : HKey.hashOk k = true)
    (h : TableRun hasher [] pairs l) (hg : TableGet hasher l k r) : r = lastValueOf k pairs := by
  have p := run_perm h (List.Perm.refl _) (by simp) List.Pairwise.nil hp
  have hh : ∀ e ∈ insertAll [] pairs, HKey.hashOk e.1 = true := by
    have : ∀ (l acc : List (K × V)), (∀ e ∈ acc, HKey.hashOk e.1 = true) →
        (∀ e ∈ l, HKey.hashOk e.1 = true) → ∀ e ∈ insertAll acc l, HKey.hashOk e.1 = true := by
      intro l
      induction l with
      | nil => exact fun acc h _ => h
      | cons f t ih => 
        exact fun acc h1 h2 => ih _ (insertEntry_hash (v := f.2) h1 (h2 f (by simp)))
          (fun e he => h2 e (by simp [he]))
    exact this _ _ (by simp) hp
  have hn : NodupKeys (insertAll [] pairs) := insertAll_nodup _ _ List.Pairwise.nil
  have hl : ∀ e ∈ l, HKey.hashOk e.1 = true := fun e he => hh e (p.mem_iff.1 he)
  rw [C54_get hl (nodupKeys_perm p.symm hh hn) hk hg, ← valueOf_perm p.symm hh hn hk,
    insertAll_valueOf hk _ _ (by simp) hp]
  simp [valueOf]

omit [LawfulHash K] in
theorem mapLoop_pairs {kd : Dec K} {vd : Dec V} : ∀ n (acc : List (K × V)) i r out,
    mapLoop kd vd n acc i = .ok (r, out) → ∃ pairs,
      decodeN (decodePairs kd vd) n i = .ok (r, pairs) ∧ out = insertAll acc pairs ∧
      ∀ e ∈ pairs, HKey.hashOk e.1 = true
  | 0, acc, i, r, out, h => by
    injection h with h; injection h with h1 h2
    subst h1 h2
    exact ⟨[], rfl, rfl, by simp⟩
  | n + 1, acc, i, r, out, h => by
    obtain ⟨r1, k, r2, v, h1, h2, hk, h3⟩ := mapLoop_succ h
    obtain ⟨pairs, h4, h5, h6⟩ := mapLoop_pairs n _ _ _ _ h3
    refine ⟨(k, v) :: pairs, ?_, h5, ?_⟩
    · unfold decodeN
      have hp : decodePairs kd vd i = .ok (r2, (k, v)) := by
        unfold decodePairs
        rw [Dec.bind_ok h1, Dec.bind_ok h2]; rfl
      rw [Dec.bind_ok hp, Dec.bind_ok h4]; rfl
    · intro e he
      rcases List.mem_cons.1 he with rfl | he
      · exact hk
      · exact h6 e he

/-- **C54**: decoding a map into any hash table.  The pairs are read in order; the
table they are inserted into ends up with the entries of the model. -/
theorem C54_decode [DecodeF K] [DecodeF V] (env : Env) (fmt : UInt8) (i r : Bytes) (m : HMap K V)
    (h : (decF env fmt : Dec (HMap K V)) i = .ok (r, m)) :
    ∃ (header : CompoundHeader) (body : Bytes) (pairs : List (K × V)) (r' : Bytes),
      decodeMapHeader env fmt i = .ok (body, header) ∧
      decodeN (decodePairs (decode K env) (decode V env)) (header.count / 2)
        (body.take header.size) = .ok (r', pairs) ∧
      (∀ e ∈ pairs, HKey.hashOk e.1 = true) ∧
      ∀ (H : Type) (hasher : Option (List HashWrite) → H) (l : List (K × V)),
        TableRun hasher [] pairs l → l.Perm m.entries := by
  obtain ⟨x, h0, rfl⟩ := map_eq_ok.1 h
  obtain ⟨body, header, h1, h2⟩ := bind_eq_ok.1 h0
  obtain ⟨_, _, r', h3⟩ := withSlice_ok h2
  obtain ⟨pairs, h4, rfl, h5⟩ := mapLoop_pairs _ _ _ _ _ h3
  exact ⟨header, body, pairs, r', h1, h4, h5, fun H hasher l hr =>
    run_perm hr (List.Perm.refl _) (by simp) List.Pairwise.nil h5⟩

end

/-- **C54**: a table of string keys is searched by `&str` (`InMessage::app_property`):
the borrowed text hashes and compares as the key. -/
theorem C54_borrow (a : StrRepr) (s : RStr) (h : a.text = s.bytes) :
    a.hash true = strHash s ∧ a.eqStr s = true := by
  refine ⟨?_, (C42_eq_str a s).2 h⟩
  cases a with
  | ByteStr t => rw [show t = s from RStr.ext h]; rfl
  | Static t => rw [show t = s from RStr.ext h]; rfl

/-! ### Examples -/

/-- Minus zero and zero are equal and hash alike, also inside lists. -/
example : (Variant.list [.float ⟨0x80000000⟩, .uint 7]).hash =
    (Variant.list [.float ⟨0⟩, .uint 7]).hash :=
  C54_equal_hash _ _ (by rfl) (by rfl)
example : (Variant.list [.float ⟨0x80000000⟩, .uint 7]) ≠ Variant.list [.float ⟨0⟩, .uint 7] := by
  intro h; simp at h
example : (Variant.described (.ulong 3) (.list [.map []])).hash = none := by rfl
/-- A string and a symbol with the same text are different keys. -/
example : (Variant.string (.lit "a")).hash ≠ (Variant.symbol ⟨.lit "a"⟩).hash := by decide
/-- A constant hash function is allowed. -/
example : TableRun (fun _ => ()) [] [((.lit "a" : Str), (1 : UInt8)), (.lit "a", 2)]
    [(.lit "a", 2)] :=
  .step _ _ _ _ _ _ (insertEntry_table _ _ _) (.step _ _ _ _ _ _ (insertEntry_table _ _ _) (.done _))

example (r : Option UInt8) (h : TableGet (fun _ => ()) [((.lit "a" : Str), (1 : UInt8)), (.lit "b", 2)] (.lit "b") r) :
    r = some 2 :=
  C54_get (by simp [HKey.hashOk]) (by unfold NodupKeys; decide) rfl h
example (l : List (Str × UInt8)) (r : Option UInt8)
    (h : TableRun (fun _ => ()) [] [((.lit "a" : Str), (1 : UInt8)), (.lit "a", 2)] l)
    (hg : TableGet (fun _ => ()) l (.lit "a") r) : r = some 2 :=
  C54_last_inserted (by simp [HKey.hashOk]) rfl h hg
example : (StrRepr.Static (.lit "é")).hash true = StrRepr.strHash (.lit "é") :=
  (C54_borrow (.Static (.lit "é")) (.lit "é") rfl).1

end Amqp
