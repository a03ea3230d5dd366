import Verif.Proofs.Fnv
import Verif.Spec.Hash
/-!
# The model's hashes against the reference hashes
-/

namespace Shard

theorem fnvStep_toNat (h : UInt32) (b : UInt8) : (fnvStep h b).toNat = (h.toNat ^^^ b.toNat) * 16777619 % 2 ^ 32 := by
  have hp : FNV_PRIME_32.toNat = 16777619 := rfl
  unfold fnvStep
  rw [UInt32.toNat_mul, UInt32.toNat_xor, UInt8.toNat_toUInt32, hp]

theorem fold32_toNat : ∀ (bs : List UInt8) (h : UInt32),
    (bs.foldl fnvStep h).toNat = bs.foldl (fun h b => (h ^^^ b.toNat) * 16777619 % 2 ^ 32) h.toNat
  | [], _ => rfl
  | b :: bs, h => by
    rw [List.foldl_cons, List.foldl_cons, fold32_toNat bs, fnvStep_toNat]

theorem idPair_spec (env : Env) (d : ComponentDescriptor) : idPair env d = Spec.idBytes env.bigEndian d.id := by
  have h8 : (8 : UInt16).toNat % 16 = 8 := rfl
  have hlo : d.id.toUInt8 = UInt8.ofNat d.id.toNat := by
    apply UInt8.toNat_inj.mp
    rw [UInt16.toNat_toUInt8, UInt8.toNat_ofNat']
  have hhi : (d.id >>> 8).toUInt8 = UInt8.ofNat (d.id.toNat / 256) := by
    apply UInt8.toNat_inj.mp
    rw [UInt16.toNat_toUInt8, UInt8.toNat_ofNat', UInt16.toNat_shiftRight, h8, Nat.shiftRight_eq_div_pow]
  unfold idPair u16ToNeBytes Spec.idBytes
  by_cases hb : env.bigEndian = true
  · simp only [hb, if_true, hlo, hhi]
  · simp only [hb, Bool.false_eq_true, if_false, hlo, hhi]

theorem flatMap_idPair_spec (env : Env) (ds : List ComponentDescriptor) :
    ds.flatMap (idPair env) = (ds.map (fun d => d.id)).flatMap (Spec.idBytes env.bigEndian) := by
  rw [List.flatMap_map]
  congr 1
  funext d
  exact idPair_spec env d

theorem computeArchetypeId_moved (env : Env) (ds : List ComponentDescriptor) (h1 : 1 ≤ ds.length) (h : ds.length ≤ 14) :
    (ArchetypeDescriptor.computeArchetypeId env ds).toNat = Spec.movedId env.bigEndian (ds.map (fun d => d.id)) := by
  match ds, h1, h with
  | [d], _, _ =>
    show d.id.toUInt32.toNat = d.id.toNat
    rw [UInt16.toNat_toUInt32]
  | d :: d' :: ds, _, h =>
    rw [computeArchetypeId_eq env (d :: d' :: ds) (by simp) h, fold32_toNat, flatMap_idPair_spec]
    rw [show (d :: d' :: ds).length = ((d :: d' :: ds).map (fun d => d.id)).length from (List.length_map _).symm]
    rfl

theorem flatMap_replicate_invalid (env : Env) (n : Nat) :
    (List.replicate n ComponentDescriptor.INVALID).flatMap (idPair env) = List.replicate (2 * n) 255 := by
  have hI : idPair env ComponentDescriptor.INVALID = [255, 255] := by
    cases env with
    | mk d b z => cases b <;> rfl
  induction n with
  | zero => rfl
  | succ n ih =>
    rw [List.replicate_succ, List.flatMap_cons, ih, hI, show 2 * (n + 1) = 2 * n + 1 + 1 by omega, List.replicate_succ,
      List.replicate_succ]
    rfl

theorem computeArchetypeId_group (env : Env) (ds : List ComponentDescriptor) (h : ds.length ≤ 14) :
    (ArchetypeDescriptor.computeArchetypeId env
      (ds ++ List.replicate (MAX_COMPONENTS_PER_ENTITY - ds.length) ComponentDescriptor.INVALID)).toNat =
      Spec.groupId env.bigEndian (ds.map (fun d => d.id)) := by
  have hN : MAX_COMPONENTS_PER_ENTITY = 14 := rfl
  have hl : (ds ++ List.replicate (MAX_COMPONENTS_PER_ENTITY - ds.length) ComponentDescriptor.INVALID).length = 14 := by
    rw [List.length_append, List.length_replicate, hN]; omega
  rw [computeArchetypeId_eq _ _ (by omega) (by omega), hl, fold32_toNat, List.flatMap_append, flatMap_replicate_invalid,
    flatMap_idPair_spec]
  unfold Spec.groupId
  rw [List.length_map, hN, show 2 * (14 - ds.length) = 28 - 2 * ds.length by omega]
  simp only [Nat.reduceMul, Nat.sub_self, List.replicate_zero, List.append_nil]
  rfl

/-- The archetype id of a group of at most 14 distinct components. -/
theorem Group.archetypeId_spec (env : Env) {g : Group} (hl : g.length ≤ 14) {ids : List UInt16}
    (hp : ids.Perm (g.map (fun c => c.id))) (hs : ids.Pairwise (· < ·)) :
    (g.archetypeId env).toNat = Spec.groupId env.bigEndian ids := by
  obtain ⟨s, h1, h2, h3⟩ := ComponentGroupDescriptor.computeSortedDescriptors_spec (ds := g.map CompTy.descriptor)
    (by rw [List.length_map]; exact hl)
  have hsl : s.length = (g.map CompTy.descriptor).length := h2.length_eq
  have hids : s.map (fun d => d.id) = ids := by
    have e : (s.map (fun d => d.id)).Perm ids := by
      have := h2.map (fun d => d.id)
      rw [List.map_map] at this
      exact this.trans hp.symm
    refine e.eq_of_pairwise (le := (· ≤ ·)) (fun a b _ _ => UInt16.le_antisymm) ?_ (hs.imp UInt16.le_of_lt)
    rw [List.pairwise_map]
    exact h3
  unfold Group.archetypeId
  rw [h1, ← hsl, computeArchetypeId_group env s (by rw [hsl, List.length_map]; exact hl), hids]

end Shard
