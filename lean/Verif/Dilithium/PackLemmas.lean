import Verif.Dilithium.Sign
import Verif.Saber.PolyLemmas

/-! # The packings of poly.c -/

namespace Verif.Dilithium

set_option maxHeartbeats 1000000

/-- Compare bit by bit, sign-extending shifts included. -/
macro "bits'" : tactic => `(tactic| (apply BitVec.eq_of_getLsbD_eq; intro i hi; interval_cases i <;> simp [BitVec.getElem_sshiftRight]))

theorem eta_un_pk (u : Fin 8 → BitVec 3) (k : Fin 8) : etaUnpackChunk (etaPackChunk fun j => (u j).setWidth 8) k = (u k).setWidth 32 := by
  unfold etaUnpackChunk etaPackChunk
  match k with
  | 0 | 1 | 2 | 3 | 4 | 5 | 6 | 7 => dsimp only [Matrix.cons_val]; bits

theorem eta_pk_un (a : Fin 3 → U8) (k : Fin 3) : etaPackChunk (fun j => low (etaUnpackChunk a j)) k = a k := by
  unfold etaUnpackChunk etaPackChunk
  match k with
  | 0 | 1 | 2 => dsimp only [Matrix.cons_val]; bits

theorem t1_un_pk (u : Fin 4 → BitVec 10) (k : Fin 4) : t1UnpackChunk (t1PackChunk fun j => (u j).setWidth 32) k = (u k).setWidth 32 := by
  unfold t1UnpackChunk t1PackChunk
  match k with
  | 0 | 1 | 2 | 3 => dsimp only [Matrix.cons_val]; bits'

theorem t1_pk_un (a : Fin 5 → U8) (k : Fin 5) : t1PackChunk (t1UnpackChunk a) k = a k := by
  unfold t1UnpackChunk t1PackChunk
  match k with
  | 0 | 1 | 2 | 3 | 4 => dsimp only [Matrix.cons_val]; bits'

theorem t0_un_pk (u : Fin 8 → BitVec 13) (k : Fin 8) : t0UnpackChunk (t0PackChunk fun j => (u j).setWidth 32) k = (u k).setWidth 32 := by
  unfold t0UnpackChunk t0PackChunk
  match k with
  | 0 | 1 | 2 | 3 | 4 | 5 | 6 | 7 => dsimp only [Matrix.cons_val]; bits

theorem t0_pk_un (a : Fin 13 → U8) (k : Fin 13) : t0PackChunk (t0UnpackChunk a) k = a k := by
  unfold t0UnpackChunk t0PackChunk
  match k with
  | 0 | 1 | 2 | 3 | 4 | 5 | 6 | 7 | 8 | 9 | 10 | 11 | 12 => dsimp only [Matrix.cons_val]; bits

theorem z_un_pk (u : Fin 4 → BitVec 18) (k : Fin 4) : zUnpackChunk (zPackChunk fun j => (u j).setWidth 32) k = (u k).setWidth 32 := by
  unfold zUnpackChunk zPackChunk
  match k with
  | 0 | 1 | 2 | 3 => dsimp only [Matrix.cons_val]; bits

theorem z_pk_un (a : Fin 9 → U8) (k : Fin 9) : zPackChunk (zUnpackChunk a) k = a k := by
  unfold zUnpackChunk zPackChunk
  match k with
  | 0 | 1 | 2 | 3 | 4 | 5 | 6 | 7 | 8 => dsimp only [Matrix.cons_val]; bits

/-- A decoder for the 6-bit format of `polyw1_pack`, which the C code never needs. -/
def w1UnpackChunk (a : Fin 3 → U8) : Fin 4 → W32 := ![
  ext (a 0) &&& 0x3F,
  ((ext (a 0) >>> 6) ||| (ext (a 1) <<< 2)) &&& 0x3F,
  ((ext (a 1) >>> 4) ||| (ext (a 2) <<< 4)) &&& 0x3F,
  (ext (a 2) >>> 2) &&& 0x3F]

theorem w1_un_pk (u : Fin 4 → BitVec 6) (k : Fin 4) : w1UnpackChunk (w1PackChunk fun j => (u j).setWidth 32) k = (u k).setWidth 32 := by
  unfold w1UnpackChunk w1PackChunk
  match k with
  | 0 | 1 | 2 | 3 => dsimp only [Matrix.cons_val]; bits'

end Verif.Dilithium
