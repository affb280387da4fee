import Verif.Proofs.EnvIndep

/-!
# C40: calls are independent
-/

namespace Rfc5322.Props

/-- The decoder behaviour in force at the end of a history: the one assigned last. -/
def lastReader (d : Bytes → Option Bytes) : List (Op × Obs) → Bytes → Option Bytes
  | [] => d
  | (.setReader d', _) :: h => lastReader d' h
  | _ :: h => lastReader d h

/-- The year at the end of a history. -/
def lastYear (y : Int) : List (Op × Obs) → Int
  | [] => y
  | (.setYear y', _) :: h => lastYear y' h
  | _ :: h => lastYear y h

/-- In every history, the result of a call of `ParseAddressList` is that of a fresh program (any predictor `P`, any
clock `year`) with the `CharsetReader` assigned last: earlier calls, the state of the prediction caches and the clock
do not matter. -/
theorem C40_address_calls_are_independent {w : World} {before after : List (Op × Obs)} {input : Bytes} {obs : Obs}
    (h : Run w (before ++ (.addresses input, obs) :: after)) (P : Predictor) (year : Int) :
    obs = .addresses (parseAddressList P ⟨lastReader w.decode before, year⟩ input) := by
  induction before generalizing w with
  | nil =>
    cases h with
    | cons h1 _ =>
      cases h1 with
      | addresses P' =>
        simp only [lastReader]
        rw [evalAddresses_eq, ← evalAddresses_eq P,
          parseAddressList_clock P (env' := ⟨w.decode, year⟩) (by rfl)]
  | cons x before ih =>
    cases h with
    | cons h1 h2 =>
      cases h1 with
      | setReader => exact ih (w := { w with decode := _ }) h2
      | setYear => rename_i y; exact ih (w := { w with nowYear := y }) h2
      | addresses P' => exact ih (w := { w with predictor := P' }) h2
      | date P' => exact ih (w := { w with predictor := P' }) h2

/-- In every history, the result of a call of `ParseDateTime` is that of a fresh program (any predictor, any
`CharsetReader`) at the same time. -/
theorem C40_date_calls_are_independent {w : World} {before after : List (Op × Obs)} {input : Bytes} {obs : Obs}
    (h : Run w (before ++ (.date input, obs) :: after)) (P : Predictor) (decode : Bytes → Option Bytes) :
    obs = .date (parseDateTime P ⟨decode, lastYear w.nowYear before⟩ input) := by
  induction before generalizing w with
  | nil =>
    cases h with
    | cons h1 _ =>
      cases h1 with
      | date P' =>
        simp only [lastYear]
        rw [evalDate_eq, ← evalDate_eq P,
          parseDateTime_decode P (env' := ⟨decode, w.nowYear⟩) (by rfl)]
  | cons x before ih =>
    cases h with
    | cons h1 h2 =>
      cases h1 with
      | setReader => rename_i d; exact ih (w := { w with decode := d }) h2
      | setYear => exact ih (w := { w with nowYear := _ }) h2
      | addresses P' => exact ih (w := { w with predictor := P' }) h2
      | date P' => exact ih (w := { w with predictor := P' }) h2

/-- A history: parse, change the reader, parse again.  The second result uses the new reader. -/
example (w : World) (P : Predictor) (d : Bytes → Option Bytes) :
    Run w [(.addresses b!"a@b", .addresses (parseAddressList w.predictor ⟨w.decode, w.nowYear⟩ b!"a@b")),
           (.setReader d, .nothing),
           (.addresses b!"=?x?q?y?= <a@b>", .addresses (parseAddressList P ⟨d, w.nowYear⟩ b!"=?x?q?y?= <a@b>"))] :=
  .cons (.addresses P) (.cons .setReader (.cons (.addresses P) .nil))

example (P : Predictor) : parseAddressList P ⟨fun _ => some b!"Zoe", 2024⟩ b!"=?x?q?y?= <a@b>" =
    .ok (some [⟨b!"Zoe", b!"a@b"⟩], none) := by eval_addr

example (P : Predictor) : parseAddressList P ⟨fun _ => none, 2024⟩ b!"=?x?q?y?= <a@b>" =
    .ok (some [⟨b!"=?x?q?y?=", b!"a@b"⟩], none) := by eval_addr

end Rfc5322.Props
