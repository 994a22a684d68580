import Verif.Protocol.Writes
import Verif.Spec.Room
import Verif.Proofs.IoLaws
/-!
# Which encoders only use `put_*`
-/
set_option autoImplicit false
namespace Amqp
open Spec

/-- Every call is a `put_*`. -/
def AllPuts (ws : List Write) : Prop := ∀ w ∈ ws, w.isPut = true

@[simp] theorem allPuts_nil : AllPuts [] := by simp [AllPuts]
@[simp] theorem allPuts_put (b : Bytes) (t : List Write) : AllPuts (.put b :: t) ↔ AllPuts t := by
  simp [AllPuts, Write.isPut]
@[simp] theorem allPuts_extend (b : Bytes) (t : List Write) : ¬ AllPuts (.extend b :: t) := by
  simp [AllPuts, Write.isPut]
@[simp] theorem allPuts_append (a b : List Write) : AllPuts (a ++ b) ↔ AllPuts a ∧ AllPuts b := by
  simp only [AllPuts, List.mem_append]
  exact ⟨fun h => ⟨fun w hw => h w (.inl hw), fun w hw => h w (.inr hw)⟩,
    fun h w hw => hw.elim (h.1 w) (h.2 w)⟩

theorem puts_one (b : Bytes) : AllPuts [.put b] := by simp

/-- Types whose values never hold a UUID. -/
class PutsAll (α : Type) [Encode α] [EncodeW α] : Prop where
  puts : ∀ v : α, AllPuts (writes v)
attribute [simp] PutsAll.puts

instance : PutsAll Bool := ⟨fun v => puts_one (enc v)⟩
instance : PutsAll UInt8 := ⟨fun v => puts_one (enc v)⟩
instance : PutsAll UInt16 := ⟨fun v => puts_one (enc v)⟩
instance : PutsAll UInt32 := ⟨fun v => puts_one (enc v)⟩
instance : PutsAll UInt64 := ⟨fun v => puts_one (enc v)⟩
instance : PutsAll Int8 := ⟨fun v => puts_one (enc v)⟩
instance : PutsAll Int16 := ⟨fun v => puts_one (enc v)⟩
instance : PutsAll Int32 := ⟨fun v => puts_one (enc v)⟩
instance : PutsAll Int64 := ⟨fun v => puts_one (enc v)⟩
instance : PutsAll F32 := ⟨fun v => puts_one (enc v)⟩
instance : PutsAll F64 := ⟨fun v => puts_one (enc v)⟩
instance : PutsAll Char := ⟨fun v => puts_one (enc v)⟩
instance : PutsAll DateTime := ⟨fun v => puts_one (enc v)⟩
instance : PutsAll Binary := ⟨fun v => puts_one (enc v)⟩
instance : PutsAll RStr := ⟨fun v => puts_one (enc v)⟩
instance : PutsAll Symbol := ⟨fun v => puts_one (enc v)⟩
instance : PutsAll Descriptor := ⟨fun v => puts_one (enc v)⟩
instance : PutsAll Role := ⟨fun v => puts_one (enc v)⟩
instance : PutsAll SenderSettleMode := ⟨fun v => puts_one (enc v)⟩
instance : PutsAll ReceiverSettleMode := ⟨fun v => puts_one (enc v)⟩
instance : PutsAll AmqpError := ⟨fun v => puts_one (enc v)⟩
instance : PutsAll ConnectionError := ⟨fun v => puts_one (enc v)⟩
instance : PutsAll SessionError := ⟨fun v => puts_one (enc v)⟩
instance : PutsAll LinkError := ⟨fun v => puts_one (enc v)⟩
instance : PutsAll SaslCode := ⟨fun v => puts_one (enc v)⟩
instance : PutsAll TerminusDurability := ⟨fun v => puts_one (enc v)⟩
instance : PutsAll TerminusExpiryPolicy := ⟨fun v => puts_one (enc v)⟩
instance : PutsAll ErrorCondition := ⟨fun v => puts_one (enc v)⟩
instance : PutsAll DistributionMode := ⟨fun v => puts_one (enc v)⟩

instance {α : Type} [Encode α] [EncodeW α] [PutsAll α] : PutsAll (Option α) where
  puts
    | some v => PutsAll.puts v
    | none => puts_one _

theorem puts_within {α : Type} [Encode α] [EncodeW α] {P : α → Prop}
    (h : ∀ v : α, ¬ P v → AllPuts (writes v)) (o : Option α) (ho : ¬ Within P o) :
    AllPuts (writes o) := by
  cases o with
  | none => exact puts_one _
  | some v => exact h v (fun hp => ho ⟨v, rfl, hp⟩)

theorem puts_elim {α : Type} {P : α → Prop} {f : α → List Write}
    (h : ∀ v : α, ¬ P v → AllPuts (f v)) (o : Option α) (ho : ¬ Within P o) :
    AllPuts (o.elim [] f) := by
  cases o with
  | none => exact allPuts_nil
  | some v => exact h v (fun hp => ho ⟨v, rfl, hp⟩)

theorem puts_flatMap {α : Type} {f : α → List Write} (l : List α) (h : ∀ a ∈ l, AllPuts (f a)) :
    AllPuts (l.flatMap f) := by
  intro w hw
  obtain ⟨a, ha, hw⟩ := List.mem_flatMap.mp hw
  exact h a ha w hw

theorem puts_mapWrites {K V : Type} {kw : K → List Write} {vw : V → List Write} (l : List (K × V))
    (hk : ∀ e ∈ l, AllPuts (kw e.1)) (hv : ∀ e ∈ l, AllPuts (vw e.2)) : AllPuts (mapWrites kw vw l) := by
  induction l with
  | nil => exact allPuts_nil
  | cons e t ih =>
    obtain ⟨k, v⟩ := e
    simp only [mapWrites, allPuts_append]
    exact ⟨⟨hk (k, v) (by simp), hv (k, v) (by simp)⟩,
      ih (fun e he => hk e (by simp [he])) (fun e he => hv e (by simp [he]))⟩

theorem puts_hmap {K V : Type} [Encode K] [Encode V] [EncodeW K] [EncodeW V] (m : HMap K V)
    (hk : ∀ e ∈ m.entries, AllPuts (writes e.1)) (hv : ∀ e ∈ m.entries, AllPuts (writes e.2)) :
    AllPuts (writes m) :=
  (allPuts_put _ _).mpr (puts_mapWrites _ hk hv)

instance {K V : Type} [Encode K] [Encode V] [EncodeW K] [EncodeW V] [PutsAll K] [PutsAll V] :
    PutsAll (HMap K V) :=
  ⟨fun m => puts_hmap m (fun _ _ => PutsAll.puts _) (fun _ _ => PutsAll.puts _)⟩

/-- The same for items of arrays. -/
class APutsAll (α : Type) [ArrayEncode α] [ArrayEncodeW α] : Prop where
  puts : ∀ v : α, AllPuts (awrites v)

instance : APutsAll Bool := ⟨fun v => puts_one (aenc v)⟩
instance : APutsAll UInt8 := ⟨fun v => puts_one (aenc v)⟩
instance : APutsAll UInt16 := ⟨fun v => puts_one (aenc v)⟩
instance : APutsAll UInt32 := ⟨fun v => puts_one (aenc v)⟩
instance : APutsAll UInt64 := ⟨fun v => puts_one (aenc v)⟩
instance : APutsAll Int8 := ⟨fun v => puts_one (aenc v)⟩
instance : APutsAll Int16 := ⟨fun v => puts_one (aenc v)⟩
instance : APutsAll Int32 := ⟨fun v => puts_one (aenc v)⟩
instance : APutsAll Int64 := ⟨fun v => puts_one (aenc v)⟩
instance : APutsAll F32 := ⟨fun v => puts_one (aenc v)⟩
instance : APutsAll F64 := ⟨fun v => puts_one (aenc v)⟩
instance : APutsAll Char := ⟨fun v => puts_one (aenc v)⟩
instance : APutsAll DateTime := ⟨fun v => puts_one (aenc v)⟩
instance : APutsAll Binary := ⟨fun v => puts_one (aenc v)⟩
instance : APutsAll RStr := ⟨fun v => puts_one (aenc v)⟩
instance : APutsAll Symbol := ⟨fun v => puts_one (aenc v)⟩
instance {K V : Type} [Encode K] [Encode V] [EncodeW K] [EncodeW V] [PutsAll K] [PutsAll V] :
    APutsAll (HMap K V) :=
  ⟨fun _ => (allPuts_put _ _).mpr (puts_mapWrites _ (fun _ _ => PutsAll.puts _) (fun _ _ => PutsAll.puts _))⟩

instance {α : Type} [ArrayEncode α] [ArrayEncodeW α] [APutsAll α] : PutsAll (Vec α) where
  puts v := by
    refine (allPuts_put _ _).mpr ?_
    have : ∀ l : List α, AllPuts (arrayWrites l) := by
      intro l
      induction l with
      | nil => exact allPuts_nil
      | cons a t ih => exact (allPuts_append _ _).mpr ⟨APutsAll.puts _, ih⟩
    exact this _

instance {α : Type} [Encode α] [EncodeW α] [PutsAll α] [ArrayEncode α] [ArrayEncodeW α] [APutsAll α] :
    PutsAll (Multiple α) where
  puts m := by
    obtain ⟨l⟩ := m
    match l with
    | [] => exact PutsAll.puts (Vec.mk ([] : List α))
    | [x] => exact PutsAll.puts x
    | a :: b :: t => exact PutsAll.puts (Vec.mk (a :: b :: t))

/-! ## Values of any type -/

mutual
theorem vwrites_puts : ∀ v : Variant, ¬ HoldsUuid v → AllPuts v.vwrites
  | .null, _ => puts_one _
  | .boolean _, _ => puts_one _
  | .ubyte _, _ => puts_one _
  | .ushort _, _ => puts_one _
  | .uint _, _ => puts_one _
  | .ulong _, _ => puts_one _
  | .byte _, _ => puts_one _
  | .short _, _ => puts_one _
  | .int _, _ => puts_one _
  | .long _, _ => puts_one _
  | .float _, _ => puts_one _
  | .double _, _ => puts_one _
  | .char _, _ => puts_one _
  | .timestamp _, _ => puts_one _
  | .uuid u, h => absurd (HoldsUuid.here u) h
  | .binary _, _ => puts_one _
  | .string _, _ => puts_one _
  | .symbol _, _ => puts_one _
  | .staticSymbol _, _ => puts_one _
  | .list l, h => by
    simp only [Variant.vwrites, allPuts_put]
    exact vwritesList_puts l (fun v hv hu => h (.item hv hu))
  | .map m, h => by
    simp only [Variant.vwrites, allPuts_put]
    exact vwritesMap_puts m (fun e he => ⟨fun hu => h (.key (v := e.2) he hu),
      fun hu => h (.value (k := e.1) he hu)⟩)
  | .described d v, h => by
    simp only [Variant.vwrites, allPuts_append]
    exact ⟨puts_one _, vwrites_puts v (fun hu => h (.described hu))⟩
theorem vwritesList_puts : ∀ l : List Variant, (∀ v ∈ l, ¬ HoldsUuid v) → AllPuts (vwritesList l)
  | [], _ => allPuts_nil
  | v :: t, h => by
    simp only [vwritesList, allPuts_append]
    exact ⟨vwrites_puts v (h v (by simp)), vwritesList_puts t (fun x hx => h x (by simp [hx]))⟩
theorem vwritesMap_puts : ∀ m : List (Variant × Variant),
    (∀ e ∈ m, ¬ HoldsUuid e.1 ∧ ¬ HoldsUuid e.2) → AllPuts (vwritesMap m)
  | [], _ => allPuts_nil
  | (k, v) :: t, h => by
    simp only [vwritesMap, allPuts_append]
    exact ⟨⟨vwrites_puts k (h (k, v) (by simp)).1, vwrites_puts v (h (k, v) (by simp)).2⟩,
      vwritesMap_puts t (fun x hx => h x (by simp [hx]))⟩
end

theorem vwritesList_split {l : List Variant} {v : Variant} (h : v ∈ l) :
    ∃ p t, vwritesList l = p ++ v.vwrites ++ t := by
  induction l with
  | nil => cases h
  | cons a t ih =>
    simp only [vwritesList]
    rcases List.mem_cons.mp h with rfl | h
    · exact ⟨[], vwritesList t, by simp⟩
    · obtain ⟨p, q, e⟩ := ih h
      exact ⟨a.vwrites ++ p, q, by rw [e]; simp⟩

theorem vwritesMap_split {m : List (Variant × Variant)} {k v : Variant} (h : (k, v) ∈ m) :
    ∃ p t, vwritesMap m = p ++ (k.vwrites ++ v.vwrites) ++ t := by
  induction m with
  | nil => cases h
  | cons a t ih =>
    obtain ⟨k', v'⟩ := a
    simp only [vwritesMap]
    rcases List.mem_cons.mp h with h | h
    · cases h; exact ⟨[], vwritesMap t, by simp⟩
    · obtain ⟨p, q, e⟩ := ih h
      exact ⟨k'.vwrites ++ v'.vwrites ++ p, q, by rw [e]; simp⟩

/-- A value that holds a UUID is written with an `extend_from_slice` somewhere. -/
theorem vwrites_split {v : Variant} (h : HoldsUuid v) :
    ∃ p u t, v.vwrites = p ++ .extend (Uuid.bytes u) :: t := by
  induction h with
  | here u => exact ⟨[.put [FC.uuid]], u, [], by simp only [Variant.vwrites]; rfl⟩
  | @item l v h _ ih =>
    obtain ⟨p, u, t, e⟩ := ih
    obtain ⟨p', t', e'⟩ := vwritesList_split h
    refine ⟨.put (compoundHdr FC.array8 FC.array32 (vsizeList l) l.length) :: (p' ++ p), u, t ++ t', ?_⟩
    simp only [Variant.vwrites]; rw [e', e]; simp
  | @key m k v h _ ih =>
    obtain ⟨p, u, t, e⟩ := ih
    obtain ⟨p', t', e'⟩ := vwritesMap_split h
    refine ⟨.put (compoundHdr FC.map8 FC.map32 (vsizeMap m) (m.length * 2)) :: (p' ++ p), u,
      t ++ (v.vwrites ++ t'), ?_⟩
    simp only [Variant.vwrites]; rw [e', e]; simp
  | @value m k v h _ ih =>
    obtain ⟨p, u, t, e⟩ := ih
    obtain ⟨p', t', e'⟩ := vwritesMap_split h
    refine ⟨.put (compoundHdr FC.map8 FC.map32 (vsizeMap m) (m.length * 2)) ::
      (p' ++ (k.vwrites ++ p)), u, t ++ t', ?_⟩
    simp only [Variant.vwrites]; rw [e', e]; simp
  | @described d v _ ih =>
    obtain ⟨p, u, t, e⟩ := ih
    exact ⟨writes d ++ p, u, t, by simp only [Variant.vwrites]; rw [e]; simp⟩

theorem Buf.run_append {ε : Type} (grow : Growth) : ∀ (x y : List Write) (b : Buf),
    (b.run grow (x ++ y) : Res ε Buf) = b.run grow x >>= fun b => b.run grow y
  | [], y, b => rfl
  | .put a :: x, y, b => by
    show (b.putSlice a >>= fun b => b.run grow (x ++ y)) =
      (b.putSlice a >>= fun b => b.run grow x) >>= fun b => b.run grow y
    cases b.putSlice a with
    | ok b => exact Buf.run_append grow x y b
    | err e => rfl
    | panic p => rfl
  | .extend a :: x, y, b => Buf.run_append grow x y _

theorem puts_variant (v : Variant) (h : ¬ HoldsUuid v) : AllPuts (writes v) := vwrites_puts v h

theorem puts_fields {K : Type} [Encode K] [EncodeW K] [PutsAll K] (m : HMap K Variant)
    (h : ¬ InFields m) : AllPuts (writes m) :=
  puts_hmap m (fun _ _ => PutsAll.puts _) (fun e he => puts_variant _ (fun hu => h ⟨e, he, hu⟩))

theorem puts_id (i : MessageId) (h : ¬ InId i) : AllPuts (writes i) := by
  cases i with
  | Uuid u => exact absurd ⟨u, rfl⟩ h
  | Ulong _ => exact puts_one _
  | Binary _ => exact puts_one _
  | String _ => exact puts_one _

/-! ## Performatives -/

theorem puts_error (v : Error) (h : ¬ InError v) : AllPuts (writes v) := by
  refine (allPuts_put _ _).mpr ?_
  simp only [allPuts_append, PutsAll.puts, true_and]
  exact puts_within puts_fields _ h
theorem puts_rejected (v : Rejected) (h : ¬ InRejected v) : AllPuts (writes v) :=
  (allPuts_put _ _).mpr (puts_within puts_error _ h)
theorem puts_modified (v : Modified) (h : ¬ InModified v) : AllPuts (writes v) := by
  refine (allPuts_put _ _).mpr ?_
  simp only [allPuts_append, PutsAll.puts, true_and]
  exact puts_within puts_fields _ h
instance : PutsAll Received where
  puts v := (allPuts_put _ _).mpr (by simp)
instance : PutsAll Accepted where
  puts v := (allPuts_put _ _).mpr (by simp)
instance : PutsAll Released where
  puts v := (allPuts_put _ _).mpr (by simp)
theorem puts_state (v : DeliveryState) (h : ¬ InState v) : AllPuts (writes v) := by
  cases v with
  | Received v => exact PutsAll.puts v
  | Accepted v => exact PutsAll.puts v
  | Rejected v => exact puts_rejected v h
  | Released v => exact PutsAll.puts v
  | Modified v => exact puts_modified v h
theorem puts_outcome (v : Outcome) (h : ¬ InOutcome v) : AllPuts (writes v) := by
  cases v with
  | Accepted v => exact PutsAll.puts v
  | Rejected v => exact puts_rejected v h
  | Released v => exact PutsAll.puts v
  | Modified v => exact puts_modified v h
theorem puts_source (v : Source) (h : ¬ InSource v) : AllPuts (writes v) := by
  refine (allPuts_put _ _).mpr ?_
  simp only [allPuts_append, PutsAll.puts, true_and, and_true]
  exact ⟨puts_within puts_fields _ (fun x => h (.inl x)), puts_within puts_outcome _ (fun x => h (.inr x))⟩
theorem puts_target (v : Target) (h : ¬ InTarget v) : AllPuts (writes v) := by
  refine (allPuts_put _ _).mpr ?_
  simp only [allPuts_append, PutsAll.puts, true_and, and_true]
  exact puts_within puts_fields _ h
theorem puts_open (v : Open) (h : ¬ InOpen v) : AllPuts (writes v) := by
  refine (allPuts_put _ _).mpr ?_
  simp only [allPuts_append, PutsAll.puts, true_and, and_true]
  exact puts_within puts_fields _ h
theorem puts_begin (v : Begin) (h : ¬ InBegin v) : AllPuts (writes v) := by
  refine (allPuts_put _ _).mpr ?_
  simp only [allPuts_append, PutsAll.puts, true_and, and_true]
  exact puts_within puts_fields _ h
theorem puts_attach (v : Attach) (h : ¬ InAttach v) : AllPuts (writes v) := by
  refine (allPuts_put _ _).mpr ?_
  simp only [allPuts_append, PutsAll.puts, true_and, and_true]
  have hm : ∀ m : Map, ¬ (∃ e ∈ m.entries, HoldsUuid e.1 ∨ HoldsUuid e.2) → AllPuts (writes m) :=
    fun m hm => puts_hmap m (fun e he => puts_variant _ (fun hu => hm ⟨e, he, .inl hu⟩))
      (fun e he => puts_variant _ (fun hu => hm ⟨e, he, .inr hu⟩))
  exact ⟨⟨⟨puts_within puts_source _ (fun x => h (.inl x)),
    puts_within puts_target _ (fun x => h (.inr (.inl x)))⟩,
    puts_within hm _ (fun x => h (.inr (.inr (.inl x))))⟩,
    puts_within puts_fields _ (fun x => h (.inr (.inr (.inr x))))⟩
theorem puts_flow (v : Flow) (h : ¬ InFlow v) : AllPuts (writes v) := by
  refine (allPuts_put _ _).mpr ?_
  simp only [allPuts_append, PutsAll.puts, true_and, and_true]
  exact puts_within puts_fields _ h
theorem puts_disposition (v : Disposition) (h : ¬ InDisposition v) : AllPuts (writes v) := by
  refine (allPuts_put _ _).mpr ?_
  simp only [allPuts_append, PutsAll.puts, true_and, and_true]
  exact puts_within puts_state _ h
theorem puts_detach (v : Detach) (h : ¬ InDetach v) : AllPuts (writes v) := by
  refine (allPuts_put _ _).mpr ?_
  simp only [allPuts_append, PutsAll.puts, true_and, and_true]
  exact puts_within puts_error _ h
theorem puts_end (v : End) (h : ¬ InEnd v) : AllPuts (writes v) :=
  (allPuts_put _ _).mpr (puts_within puts_error _ h)
theorem puts_close (v : Close) (h : ¬ InClose v) : AllPuts (writes v) :=
  (allPuts_put _ _).mpr (puts_within puts_error _ h)
theorem puts_transferPerf (v : TransferPerf) (h : ¬ Within InState v.state) : AllPuts (writes v) := by
  refine (allPuts_put _ _).mpr ?_
  simp only [allPuts_append, PutsAll.puts, true_and, and_true]
  exact puts_within puts_state _ h

/-! ## Messages -/

instance : PutsAll Header where
  puts v := (allPuts_put _ _).mpr (by simp only [allPuts_append, PutsAll.puts, true_and])
theorem puts_properties (v : Properties) (h : ¬ InProperties v) : AllPuts (writes v) := by
  refine (allPuts_put _ _).mpr ?_
  simp only [allPuts_append, PutsAll.puts, true_and, and_true]
  exact ⟨puts_within puts_id _ (fun x => h (.inl x)), puts_within puts_id _ (fun x => h (.inr x))⟩

theorem puts_section {α : Type} [Encode α] [EncodeW α] (c : UInt64) (v : α) (h : AllPuts (writes v)) :
    AllPuts (sectionWrites c v) := (allPuts_append _ _).mpr ⟨puts_one _, h⟩

theorem puts_vlist (l : VList) (h : ∀ v ∈ l.items, ¬ HoldsUuid v) : AllPuts (writes l) :=
  (allPuts_put _ _).mpr (vwritesList_puts _ h)

theorem puts_sec (s : Section) (h : ¬ InSection s) : AllPuts (writes s) := by
  cases s with
  | Header v => exact PutsAll.puts v
  | DeliveryAnnotations v => exact puts_section _ v (puts_fields v h)
  | MessageAnnotations v => exact puts_section _ v (puts_fields v h)
  | ApplicationProperties v => exact puts_section _ v (puts_fields v h)
  | Data v => exact puts_section _ v (PutsAll.puts (α := Binary) v)
  | AmqpSequence v => exact puts_section _ v (puts_vlist v (fun x hx hu => h ⟨x, hx, hu⟩))
  | AmqpValue v => exact puts_section _ v (puts_variant v h)
  | Footer v => exact puts_section _ v (puts_fields v h)
  | Properties v => exact puts_properties v h

theorem puts_never {α : Type} [Encode α] [EncodeW α] [PutsAll α] (o : Option α) :
    AllPuts (o.elim [] writes) := by
  cases o with
  | none => exact allPuts_nil
  | some v => exact PutsAll.puts v

theorem puts_head {AP : Type} [Encode AP] [EncodeW AP] {values : AP → List Variant}
    (hap : ∀ a : AP, ¬ (∃ v ∈ values a, HoldsUuid v) → AllPuts (writes a)) (m : MsgHead AP)
    (h : ¬ InHead values m) (n : Nat) (nested : List Write) (hn : AllPuts nested) :
    AllPuts (m.writesPre ++ bodyWritesOrEmpty n (bodyWritesWith m.data m.sequence m.value nested) ++
      m.writesPost) := by
  simp only [InHead, not_or] at h
  obtain ⟨h1, h2, h3, h4, h5, h6, h7⟩ := h
  simp only [allPuts_append, MsgHead.writesPre, MsgHead.writesPost]
  refine ⟨⟨⟨⟨⟨⟨puts_never _, ?_⟩, ?_⟩, ?_⟩, ?_⟩, ?_⟩, ?_⟩
  · exact puts_elim (fun v hv => puts_section _ v (puts_fields v hv)) _ h1
  · exact puts_elim (fun v hv => puts_section _ v (puts_fields v hv)) _ h2
  · exact puts_elim puts_properties _ h3
  · exact puts_elim (fun v hv => puts_section _ v (hap v hv)) _ h4
  · unfold bodyWritesOrEmpty
    split
    · exact puts_one _
    · simp only [bodyWritesWith, allPuts_append]
      refine ⟨⟨⟨puts_flatMap _ (fun a _ => puts_section _ a (PutsAll.puts a)),
        puts_flatMap _ (fun a ha => puts_section _ a (puts_vlist a ?_))⟩,
        puts_elim (fun v hv => puts_section _ v (puts_variant v hv)) _ h7⟩, hn⟩
      exact fun v hv hu => h6 ⟨a, ha, v, hv, hu⟩
  · exact puts_elim (fun v hv => puts_section _ v (puts_fields v hv)) _ h5

theorem puts_in (a : StringVariantMap) (h : ¬ (∃ v ∈ a.entries.map (·.2), HoldsUuid v)) :
    AllPuts (writes a) :=
  puts_fields a (fun ⟨e, he, hu⟩ => h ⟨e.2, List.mem_map.mpr ⟨e, he, rfl⟩, hu⟩)

theorem puts_out (a : VecVariantMap) (h : ¬ (∃ v ∈ a.entries.map (·.2), HoldsUuid v)) :
    AllPuts (writes a) :=
  (allPuts_put _ _).mpr (puts_mapWrites _ (fun _ _ => PutsAll.puts _)
    (fun e he => puts_variant _ (fun hu => h ⟨e.2, List.mem_map.mpr ⟨e, he, rfl⟩, hu⟩)))

mutual
theorem puts_body : ∀ b : TransferBody, ¬ InBody b → AllPuts b.twrites
  | .Data _, _ => by simp only [TransferBody.twrites]; exact puts_one _
  | .MessageIn m ms, h => by
    simp only [TransferBody.twrites]
    exact puts_head puts_in m (fun x => h (.headIn x)) _ _
      (puts_nested ms (fun b hb x => h (.nestedIn hb x)))
  | .MessageOut m ms, h => by
    simp only [TransferBody.twrites]
    exact puts_head puts_out m (fun x => h (.headOut x)) _ _
      (puts_nested ms (fun b hb x => h (.nestedOut hb x)))
theorem puts_nested : ∀ l : List TransferBody, (∀ b ∈ l, ¬ InBody b) → AllPuts (nestedWrites l)
  | [], _ => by simp only [nestedWrites]; exact allPuts_nil
  | b :: t, h => by
    simp only [nestedWrites, allPuts_put, allPuts_append]
    exact ⟨puts_body b (h b (by simp)), puts_nested t (fun x hx => h x (by simp [hx]))⟩
end

/-! ## Frames -/

theorem puts_transfer (v : Transfer) (h : ¬ InTransfer v) : AllPuts (writes v) :=
  (allPuts_append _ _).mpr ⟨puts_transferPerf _ (fun x => h (.inl x)),
    puts_elim (f := writes) puts_body _ (fun x => h (.inr x))⟩

theorem puts_frame (v : Frame) (h : ¬ InFrame v) : AllPuts (writes v) := by
  cases v with
  | Open v => exact puts_open v h
  | Begin v => exact puts_begin v h
  | Attach v => exact puts_attach v h
  | Flow v => exact puts_flow v h
  | Transfer v => exact puts_transfer v h
  | Disposition v => exact puts_disposition v h
  | Detach v => exact puts_detach v h
  | End v => exact puts_end v h
  | Close v => exact puts_close v h
  | Empty => exact allPuts_nil

instance : PutsAll SaslFrame where
  puts f := by
    refine (allPuts_put _ _).mpr ?_
    cases f.body with
    | SaslMechanisms v => exact (allPuts_put _ _).mpr (PutsAll.puts v.sasl_server_mechanisms)
    | SaslInit v =>
      exact (allPuts_put _ _).mpr (by simp only [allPuts_append, PutsAll.puts, true_and])
    | SaslChallenge v => exact (allPuts_put _ _).mpr (PutsAll.puts v.challenge)
    | SaslResponse v => exact (allPuts_put _ _).mpr (PutsAll.puts v.response)
    | SaslOutcome v =>
      exact (allPuts_put _ _).mpr (by simp only [allPuts_append, PutsAll.puts, true_and])

end Amqp
