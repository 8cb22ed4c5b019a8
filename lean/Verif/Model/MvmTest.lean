import Verif.Model.CoreApi

/-! # tests/test_mvm.py -/
namespace Ramwich

/-- The part of `main` that uses the core (tests/test_mvm.py:19, 25-30, 34): `write_to_register`, `execute_mvm` of unit 0,
`read_from_register` and the register array of unit 0. The result is `output` and `output_precise`. The vector and the weights
are arguments (the test draws the one and reads the other from a file), and so is the read noise. The multiplications by `2^-8`
and `2^-16` are exact in float64. `OutputRegisterArray.read` without indices returns all registers (outreg.py:56-66); its
counters are left out. -/
def mvmTest (k : Core) (x : List I32) (noise : Nat → Noise) : Except PyErr (List ℚ × List ℚ) :=
  match k.writeToRegister 0 x with
  | (.error e, _) => .error e
  | (.ok _, k) =>
    match k.mvmOne 0 noise with
    | (.error e, _) => .error e
    | (.ok _, k) =>
      match k.readFromRegister (k.config.numMvmusPerCore * k.config.mvmuConfig.xbarSize) k.config.mvmuConfig.xbarSize with
      | (.error e, _) => .error e
      | (.ok out, k) =>
        match k.getMvmu 0 with
        | .error e => .error e
        | .ok u => .ok (out.map fun v => (v.toInt : ℚ) / 2 ^ 8, u.outreg.registers.map fun v => (v.toInt : ℚ) / 2 ^ 16)

end Ramwich
