import Verif.Proofs.Eval

/-! # Boolean checks of the shipped tables

`checkTables t r` evaluates, on canonical residues, every relation between the tables of one rate.
-/

namespace Poseidon

/-- `(∑ l < n, f l * g l) % q = c` -/
def dotIs (n : Nat) (f g : Nat → Nat) (c : Nat) : Bool := Nat.beq (sumN n (fun l => f l * g l) % q) c

/-- Entry `(i, j)` of a row-major list. -/
def ent (c : Nat) (l : List Nat) (i j : Nat) : Nat := nth l (i * c + j)

/-- C14: `mds[i][j] * (i + j + t) = 1` -/
def checkMds (t : Nat) (mds : List Nat) : Bool :=
  allN t fun i => allN t fun j => Nat.beq (ent t mds i j * (i + j + t) % q) 1

/-- `mHat`, `v`, `w`, `m00` are the blocks of `mds`. -/
def checkBlocks (t : Nat) (mds mHat v w : List Nat) (m00 : Nat) : Bool :=
  allN (t - 1) (fun i => allN (t - 1) fun j => Nat.beq (ent (t - 1) mHat i j) (ent t mds (i + 1) (j + 1))) &&
  allN (t - 1) (fun j => Nat.beq (nth v j) (ent t mds 0 (j + 1))) &&
  allN (t - 1) (fun i => Nat.beq (nth w i) (ent t mds (i + 1) 0)) &&
  Nat.beq m00 (ent t mds 0 0)

/-- `a = diag(1, h)` -/
def checkDiag (t : Nat) (a h : List Nat) : Bool :=
  allN t fun i => allN t fun j => Nat.beq (ent t a i j)
    (Nat.rec (motive := fun _ => Nat) (Nat.rec (motive := fun _ => Nat) 1 (fun _ _ => 0) j)
      (fun i' _ => Nat.rec (motive := fun _ => Nat) 0 (fun j' _ => ent (t - 1) h i' j') j) i)

/-- `a * b = c` for `n × n` matrices -/
def checkProd (n : Nat) (a b : List Nat) (c : Nat → Nat → Nat) : Bool :=
  allN n fun i => allN n fun j => dotIs n (fun l => ent n a i l) (fun l => ent n b l j) (c i j)

/-- identity matrix -/
def idN (i j : Nat) : Nat := cond (Nat.beq i j) 1 0

/-- `m'' = [[m00, v], [*, I]]` -/
def checkSparseShape (t : Nat) (mdp v : List Nat) (m00 : Nat) : Bool :=
  Nat.beq (ent t mdp 0 0) m00 &&
  allN (t - 1) (fun j => Nat.beq (ent t mdp 0 (j + 1)) (nth v j)) &&
  allN (t - 1) (fun i => allN (t - 1) fun j => Nat.beq (ent t mdp (i + 1) (j + 1)) (idN i j))

/-- `vs 0 = w`, `vs (j+1) = H * vs j` -/
def checkV (k n : Nat) (h w : List Nat) (vs : Nat → List Nat) : Bool :=
  allN k (fun i => Nat.beq (nth (vs 0) i) (nth w i)) &&
  allN (n - 1) fun j => allN k fun i =>
    dotIs k (fun l => ent k h i l) (fun l => nth (vs j) l) (nth (vs (j + 1)) i)

/-- `ws 0 * H = v`, `ws (j+1) * H = ws j` -/
def checkW (k n : Nat) (h v : List Nat) (ws : Nat → List Nat) : Bool :=
  allN k (fun i => dotIs k (fun l => nth (ws 0) l) (fun l => ent k h l i) (nth v i)) &&
  allN (n - 1) fun j => allN k fun i =>
    dotIs k (fun l => nth (ws (j + 1)) l) (fun l => ent k h l i) (nth (ws j) i)

/-- Product of `k × k` matrices modulo `q`. -/
def mulFlat (k : Nat) (a b : List Nat) : List Nat :=
  tabN (k * k) fun p => sumN k (fun l => ent k a (p / k) l * ent k b l (p % k)) % q

/-- `a * h ^ n`, passed to a continuation -/
def powFlat (k : Nat) (h : List Nat) : Nat → List Nat → (List Nat → Bool) → Bool
  | 0, a, f => f a
  | n + 1, a, f => forceL (mulFlat k a h) fun a' => powFlat k h n a' f

/-- The next moved constant: `M * (d - c + κ e0)` modulo `q`. -/
def nextD (t : Nat) (mds d : List Nat) (c : Nat → Nat) (κ : Nat) : List Nat :=
  tabN t fun i => (sumN t (fun l => ent t mds i l * (nth d l + (q - c l))) + ent t mds i 0 * κ) % q

/-- Forward check of the moved constants over `n` steps, starting at row `r`. -/
def checkArcLoop (t : Nat) (mds : List Nat) (arc opt : Nat → Nat → Nat) :
    Nat → Nat → List Nat → Bool
  | 0, r, d => allN t fun i => Nat.beq (nth d i) (arc r i)
  | n + 1, r, d => Nat.beq (nth d 0) (arc r 0) &&
      forceL (nextD t mds d (arc r) (opt (r + 1) 0)) fun d' => checkArcLoop t mds arc opt n (r + 1) d'

/-- Optimized constants against original ones. -/
def checkArc (t rf rp : Nat) (mds : List Nat) (arc opt : Nat → Nat → Nat) : Bool :=
  allN rf (fun r => allN t fun i => Nat.beq (opt r i) (arc r i)) &&
  allN rf (fun r => allN t fun i => Nat.beq (opt (rf + rp + r) i) (arc (rf + rp + r) i)) &&
  allN (rp - 1) (fun r => allN (t - 1) fun i => Nat.beq (opt (rf + r + 1) (i + 1)) 0) &&
  forceL (tabN t (opt rf)) fun d => checkArcLoop t mds arc opt (rp - 1) rf d

/-- The rows of a flat list, as a list of lists (each row evaluated). -/
def rowsL (c : Nat) (l : List Nat) : List (List Nat) := chunksAux c l.length l

/-- `ls[i]` -/
def nthL (l : List (List Nat)) (i : Nat) : List Nat :=
  List.rec (motive := fun _ => Nat → List Nat) (fun _ => [])
    (fun x _ ih n => Nat.rec (motive := fun _ => List Nat) x (fun k _ => ih k) n) l i

/-- Evaluate a list of rows. -/
def forceLL {α : Type} (l : List (List Nat)) (f : List (List Nat) → α) : α :=
  List.rec (motive := fun _ => (List (List Nat) → α) → α) (fun f => f [])
    (fun x _ ih f => forceL x fun x' => ih fun xs => f (x' :: xs)) l f

/-- Montgomery limbs are 64-bit and spell a canonical residue (`C18`). -/
def checkCanon (l : List Limbs) : Bool :=
  l.all fun x => Nat.ble (x.l0 + 1) (2 ^ 64) && Nat.ble (x.l1 + 1) (2 ^ 64) && Nat.ble (x.l2 + 1) (2 ^ 64)
    && Nat.ble (x.l3 + 1) (2 ^ 64) && Nat.ble (x.raw + 1) q

/-- All limbs of a rate. -/
def RawTables.all (r : RawTables) : List Limbs :=
  r.arc ++ r.mds ++ r.mHat ++ r.v ++ r.w ++ r.mPrime ++ r.mDoublePrime ++ r.mInverse ++ r.mHatInverse ++
  [r.m00] ++ r.mI ++ r.vCollection.flatten ++ r.wHatCollection.flatten ++ r.optimizedArc

/-- All relations between the tables of one rate. -/
def checkTables (t : Nat) (r : RawTables) : Bool :=
  forceL (canons r.mds) fun mds => forceL (canons r.mHat) fun mHat =>
  forceL (canons r.v) fun v => forceL (canons r.w) fun w => force r.m00.canon fun m00 =>
  checkMds t mds && checkBlocks t mds mHat v w m00 &&
  (forceL (canons r.mPrime) fun mPrime => forceL (canons r.mDoublePrime) fun mdp =>
    checkDiag t mPrime mHat && checkSparseShape t mdp v m00 && checkProd t mPrime mdp (ent t mds)) &&
  (forceL (canons r.mInverse) fun mInv => checkProd t mds mInv idN) &&
  (forceL (canons r.mHatInverse) fun mHatInv => checkProd (t - 1) mHat mHatInv idN) &&
  (forceLL (r.vCollection.map canons) fun vs => checkV (t - 1) 31 mHat w (nthL vs)) &&
  (forceLL (r.wHatCollection.map canons) fun ws => checkW (t - 1) 31 mHat v (nthL ws)) &&
  (forceL (canons r.mI) fun mI => powFlat (t - 1) mHat 30 mHat fun p => checkDiag t mI p) &&
  (forceLL (rowsL t (canons r.arc)) fun arc => forceLL (rowsL t (canons r.optimizedArc)) fun opt =>
    checkArc t 4 31 mds (fun r i => nth (nthL arc r) i) (fun r i => nth (nthL opt r) i))

end Poseidon
