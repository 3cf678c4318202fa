/-!
# Matching MIR records by two numbers

Model of `/repo/src/pyuvdata/uvdata/mir_meta_data.py`, `MirMetaData._make_key_mask` (lines 2598–2705) with `use_cipher=True`, which `MirParser` uses to
match antennas of integrations (`antenna`, `inhid`, both 32 bits) with baselines (`iant1` or `iant2` of 16 bits, and `inhid` of 32 bits).

Simplifications: the fields are those of the records that are not masked, `np.isin` is membership (its assumption of unique keys is taken to
hold, so `this` are header keys of different records unless `reverse=True`), and the mask is returned (`set_mask=False`). A signed type of `w` bits is
given by the number `2 ^ w` of its values.
-/
namespace Verif.MirCipher

/-- Lines 2675–2683: a signed number of a type with `n` values, seen as an unsigned one. -/
def unsigned (n x : Int) : Int := x % n

/-- Lines 2686–2687: `(a.astype("u8") << 32) + b` in 64 bits. -/
def cipher (n m : Int) (p : Int × Int) : Int := (unsigned n p.1 * 2 ^ 32 % 2 ^ 64 + unsigned m p.2) % 2 ^ 64

/-- Lines 2695–2705: for each of the pairs `this` of types with `n` and `m` values, whether it is one of `other`, of types with `n'` and `m'` values. -/
def keyMask (n m : Int) (this : List (Int × Int)) (n' m' : Int) (other : List (Int × Int)) : List Bool :=
  this.map (fun p => (other.map (cipher n' m')).contains (cipher n m p))

end Verif.MirCipher
