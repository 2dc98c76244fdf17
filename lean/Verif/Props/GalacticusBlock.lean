import Verif.Model.GalacticusBlock
import Verif.Props.Loaders

/-! C90: the chain from the Galacticus file to the blocks read by the fitter conserves mass and order. -/

namespace Diffstar.Props

open Diffstar.Text Diffstar.Load Diffstar.Galcus

theorem extract_full {data : List (List (List ℝ))} {nMet nT : ℕ} (h : Spec.RegularColumn data nMet nT) :
    extractSfh data 0 none = some (data.map (fun x => sumRows nT (x.take nMet)),
      data.map (fun x => sumRows nT ((x.drop nMet).take nMet))) := by
  obtain ⟨x, hx, hx1, hx2⟩ := find_regular h
  unfold extractSfh
  simp only [Option.getD_none, Nat.sub_zero, hx, hx1, hx2]
  rw [extract_prefix h data.length data.length le_rfl le_rfl]
  simp

theorem length_sumRows (nT : ℕ) (rows : List (List ℝ)) : (sumRows nT rows).length = nT := by simp [sumRows]

/-- C90: for a file with regular columns, read rows `[istart, iend)`: the time array is complete and the centrals flag
of row `i` is that of galaxy `istart + i`; its rates have one entry per time, and rate times width of the time bin is,
for the total and for the in situ histories, the mass formed in this bin by galaxy `istart + i`, summed over
metallicities, disk plus bulge. -/
theorem C90_block_masses (d : NodeData) (nMet nMet' : ℕ) (istart iend : ℕ)
    (hd : Spec.RegularColumn d.disk nMet d.tBulge.length) (hb : Spec.RegularColumn d.bulge nMet' d.tBulge.length)
    (hn : d.disk.length = d.bulge.length) (hpos : ∀ x ∈ d.tBulge, 0 < x) (hinc : Spec.Increasing d.tBulge)
    (hend : iend ≤ d.disk.length) :
    ∃ ins tot : List (List ℝ),
      blockOf d istart iend = some [("sfh_in_situ".toList, ins.map Cell.row), ("sfh_tot".toList, tot.map Cell.row),
        ("is_cen".toList, ((d.nodeIsIsolated.take iend).drop istart).map Cell.flag),
        ("tarr".toList, d.tBulge.map Cell.num)] ∧
      ins.length = iend - istart ∧ tot.length = iend - istart ∧
      ∀ i, istart + i < iend →
        (tot.getD i []).length = d.tBulge.length ∧ (ins.getD i []).length = d.tBulge.length ∧
        ∀ t < d.tBulge.length,
          (tot.getD i []).getD t 0 * (Spec.binWidth d.tBulge t * 10 ^ 9) =
            ∑ j ∈ Finset.range nMet, ((d.disk.getD (istart + i) []).getD j []).getD t 0 +
            ∑ j ∈ Finset.range nMet', ((d.bulge.getD (istart + i) []).getD j []).getD t 0 ∧
          (ins.getD i []).getD t 0 * (Spec.binWidth d.tBulge t * 10 ^ 9) =
            ∑ j ∈ Finset.range nMet, ((d.disk.getD (istart + i) []).getD (nMet + j) []).getD t 0 +
            ∑ j ∈ Finset.range nMet', ((d.bulge.getD (istart + i) []).getD (nMet' + j) []).getD t 0 := by
  obtain ⟨totD, insD, eD, -, -, -, sD, sD'⟩ := C59_from_zero_partial d.disk nMet _ d.disk.length hd le_rfl
  obtain ⟨totB, insB, eB, -, -, -, sB, sB'⟩ := C59_from_zero_partial d.bulge nMet' _ d.bulge.length hb le_rfl
  have fD := extract_full hd
  have fB := extract_full hb
  have gD : (totD, insD) = _ := Option.some_inj.1 (eD.symm.trans fD)
  have gB : (totB, insB) = _ := Option.some_inj.1 (eB.symm.trans fB)
  have rowlen : ∀ (r : List ℝ), (r ∈ totD ∨ r ∈ insD ∨ r ∈ totB ∨ r ∈ insB) → r.length = d.tBulge.length := by
    rintro r (h | h | h | h)
    · rw [(Prod.mk.inj gD).1] at h
      obtain ⟨x, -, rfl⟩ := List.mem_map.1 h
      exact length_sumRows _ _
    · rw [(Prod.mk.inj gD).2] at h
      obtain ⟨x, -, rfl⟩ := List.mem_map.1 h
      exact length_sumRows _ _
    · rw [(Prod.mk.inj gB).1] at h
      obtain ⟨x, -, rfl⟩ := List.mem_map.1 h
      exact length_sumRows _ _
    · rw [(Prod.mk.inj gB).2] at h
      obtain ⟨x, -, rfl⟩ := List.mem_map.1 h
      exact length_sumRows _ _
  have lD : totD.length = d.disk.length ∧ insD.length = d.disk.length := by
    rw [(Prod.mk.inj gD).1, (Prod.mk.inj gD).2]; simp
  have lB : totB.length = d.disk.length ∧ insB.length = d.disk.length := by
    rw [(Prod.mk.inj gB).1, (Prod.mk.inj gB).2, hn]; simp
  have key : ∀ (A B : List (List ℝ)), A.length = d.disk.length → B.length = d.disk.length →
      (∀ r ∈ A, r.length = d.tBulge.length) → (∀ r ∈ B, r.length = d.tBulge.length) → ∀ i, istart + i < iend →
      (slice (List.zipWith (galacticusSfh d.tBulge) A B) istart (some iend)).getD i [] =
        galacticusSfh d.tBulge (A.getD (istart + i) []) (B.getD (istart + i) []) ∧
      (A.getD (istart + i) []).length = d.tBulge.length ∧ (B.getD (istart + i) []).length = d.tBulge.length := by
    intro A B hA hB rA rB i hi
    have h1 : istart + i < A.length := by omega
    have h2 : istart + i < B.length := by omega
    have h3 := (C58_block_rows (List.zipWith (galacticusSfh d.tBulge) A B) istart iend i).1
    rw [if_pos hi] at h3
    rw [List.getD_eq_getElem?_getD, h3, List.getElem?_zipWith, List.getElem?_eq_getElem h1, List.getElem?_eq_getElem h2,
      List.getD_eq_getElem _ _ h1, List.getD_eq_getElem _ _ h2]
    exact ⟨rfl, rA _ (List.getElem_mem h1), rB _ (List.getElem_mem h2)⟩
  refine ⟨slice (List.zipWith (galacticusSfh d.tBulge) insB insD) istart (some iend),
    slice (List.zipWith (galacticusSfh d.tBulge) totB totD) istart (some iend), ?_, ?_, ?_, ?_⟩
  · have e1 : runScript d true = some ⟨totD, insD, d.tDisk⟩ := by
      unfold runScript
      rw [if_pos rfl]
      have : extractSfh d.disk 0 none = some (totD, insD) := by rw [← eD]; rfl
      rw [this]; rfl
    have e2 : runScript d false = some ⟨totB, insB, d.tBulge⟩ := by
      unfold runScript
      rw [if_neg (by simp)]
      have : extractSfh d.bulge 0 none = some (totB, insB) := by rw [← eB]; rfl
      rw [this]; rfl
    unfold blockOf
    rw [e1, e2]
    simp only [Option.bind_some]
    unfold loadTarget
    rw [if_pos]
    · simp only [Option.bind_some]
      rw [C58_galacticus_block (writeBlock _) istart iend (by simp only [writeBlock, List.map_cons, List.map_nil]; decide +kernel) (d.tBulge.map Cell.num)
        ((List.zipWith (galacticusSfh d.tBulge) insB insD).map Cell.row)
        ((List.zipWith (galacticusSfh d.tBulge) totB totD).map Cell.row) (d.nodeIsIsolated.map Cell.flag)
        (by simp [writeBlock]) (by simp [writeBlock]) (by simp [writeBlock]) (by simp [writeBlock])]
      simp [slice, List.map_drop, List.map_take]
    · exact ⟨⟨lB.2.trans lD.2.symm, fun r hr => rowlen r (by tauto), fun r hr => rowlen r (by tauto)⟩,
        lB.1.trans lD.1.symm, fun r hr => rowlen r (by tauto), fun r hr => rowlen r (by tauto)⟩
  · simp [slice]; omega
  · simp [slice]; omega
  · intro i hi
    obtain ⟨k1, k2, k3⟩ := key totB totD lB.1 lD.1 (fun r hr => rowlen r (by tauto)) (fun r hr => rowlen r (by tauto)) i hi
    obtain ⟨k4, k5, k6⟩ := key insB insD lB.2 lD.2 (fun r hr => rowlen r (by tauto)) (fun r hr => rowlen r (by tauto)) i hi
    obtain ⟨c1, c2, -⟩ := C57_mass_conserved d.tBulge _ _ k2 k3 hpos hinc
    obtain ⟨c3, c4, -⟩ := C57_mass_conserved d.tBulge _ _ k5 k6 hpos hinc
    rw [k1, k4]
    refine ⟨c1, c3, fun t ht => ⟨?_, ?_⟩⟩
    · rw [c2 t ht, sB _ (by omega) t ht, sD _ (by omega) t ht, add_comm]
    · rw [c4 t ht, sB' _ (by omega) t ht, sD' _ (by omega) t ht, add_comm]

/-- Two galaxies, the first without a bulge history; one metallicity in the disk, two in the bulge. -/
example : Spec.RegularColumn [[[1, 2], [0, 1]], [[3, 4], [1, 1]]] 1 [1, (2 : ℝ)].length ∧
    Spec.RegularColumn [[], [[3, 4], [1, 1], [3, 4], [1, 1]]] 2 [1, (2 : ℝ)].length ∧
    (∀ x ∈ [1, (2 : ℝ)], 0 < x) ∧ Spec.Increasing [1, 2] := by
  refine ⟨⟨by norm_num, ?_, ⟨[[1, 2], [0, 1]], by simp, by simp⟩⟩,
    ⟨by norm_num, ?_, ⟨[[3, 4], [1, 1], [3, 4], [1, 1]], by simp, by simp⟩⟩, ?_, ?_⟩
  · intro x hx
    simp at hx
    rcases hx with rfl | rfl <;> right <;> simp
  · intro x hx
    simp at hx
    rcases hx with rfl | rfl
    · left; rfl
    · right; simp
  · intro x hx; simp at hx; rcases hx with rfl | rfl <;> norm_num
  · unfold Spec.Increasing; norm_num

/-- C90: the four tables of the halo histories are cut to the same galaxies, and the number of halos is that of the
full tables. -/
theorem C90_mah_tables (d : NodeData) (istart : ℕ) (iend : ℕ) (h1 : d.mahTime.length = d.mahMass.length)
    (h2 : d.nodeIsIsolated.length = d.mahMass.length) (h3 : d.timeLastIsolated.length = d.mahMass.length) (i : ℕ) :
    (extractMah d 0 none) = (d.mahMass, d.mahTime, d.nodeIsIsolated, d.timeLastIsolated) ∧
    getNhalosTot d = d.mahMass.length ∧
    (istart + i < iend → (extractMah d istart (some iend)).1[i]? = d.mahMass[istart + i]? ∧
      (extractMah d istart (some iend)).2.1[i]? = d.mahTime[istart + i]? ∧
      (extractMah d istart (some iend)).2.2.1[i]? = d.nodeIsIsolated[istart + i]? ∧
      (extractMah d istart (some iend)).2.2.2[i]? = d.timeLastIsolated[istart + i]?) := by
  refine ⟨?_, rfl, fun hi => ?_⟩
  · simp only [extractMah, Option.getD_none, slice, List.drop_zero, List.take_length]
    rw [← h1, List.take_length, h1, ← h2, List.take_length, h2, ← h3, List.take_length]
  · simp only [extractMah, Option.getD_some]
    refine ⟨?_, ?_, ?_, ?_⟩ <;> rw [(C58_block_rows _ istart iend i).1, if_pos hi]

example : ([[1], [1]] : List (List ℝ)).length = ([[12], [11]] : List (List ℝ)).length := rfl

end Diffstar.Props
