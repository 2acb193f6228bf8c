import Verif.Model.Sampling

/-! Histories of calls on the index state of a problem object. -/

namespace OpenGV.Props

open OpenGV.Sac

/-- The calls that a user of a problem object can make as far as indices are concerned. -/
inductive Call where
  | setIndices (ix : List ℤ)
  | setUniformIndices (N : ℕ)
  | getSamples (isSampleGood : List ℤ → Bool) (sampleSize : ℕ)

/-- Effect of one call on the index state (`none`: undefined behaviour). -/
def call (rng : ℕ → ℕ) (st : IndexState) : Call → Option IndexState
  | .setIndices ix => some (OpenGV.Sac.setIndices ix st)
  | .setUniformIndices N => some (OpenGV.Sac.setUniformIndices N st)
  | .getSamples good k =>
    match OpenGV.Sac.getSamples rng good k st.indices st.pos st.pool with
    | none => none
    | some (_, pool', pos') => some { st with pool := pool', pos := pos' }

/-- A whole history of calls. -/
def calls (rng : ℕ → ℕ) (st : IndexState) : List Call → Option IndexState
  | [] => some st
  | c :: cs => match call rng st c with
    | none => none
    | some st' => calls rng st' cs

/-- A newly constructed problem object: no indices, nothing drawn yet. -/
def fresh : IndexState := ⟨[], [], 0⟩

/-- The index set that is in force after a history of calls, defined without looking at the pool:
the argument of the last `setIndices`/`setUniformIndices`. -/
def lastIndices : List Call → List ℤ
  | [] => []
  | cs => cs.foldl (fun acc c => match c with
      | .setIndices ix => ix
      | .setUniformIndices N => (List.range N).map Int.ofNat
      | .getSamples _ _ => acc) []

end OpenGV.Props
