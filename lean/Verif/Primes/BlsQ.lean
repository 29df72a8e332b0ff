import Verif.Primes.Pratt

/-! # Primality of the BLS12-381 base field modulus -/

namespace Verif

def certs_blsQ : List Cert := [
  ⟨10177, 7, [2, 2, 2, 2, 2, 2, 3, 53]⟩,
  ⟨47737, 5, [2, 2, 2, 3, 3, 3, 13, 17]⟩,
  ⟨859267, 2, [2, 3, 3, 47737]⟩,
  ⟨449, 3, [2, 2, 2, 2, 2, 2, 7]⟩,
  ⟨609743, 5, [2, 7, 97, 449]⟩,
  ⟨52437899, 2, [2, 43, 609743]⟩,
  ⟨941, 2, [2, 2, 5, 47]⟩,
  ⟨947, 2, [2, 11, 43]⟩,
  ⟨7577, 3, [2, 2, 2, 947]⟩,
  ⟨181, 2, [2, 2, 3, 3, 5]⟩,
  ⟨1087, 3, [2, 3, 181]⟩,
  ⟨4349, 2, [2, 2, 1087]⟩,
  ⟨582767, 5, [2, 67, 4349]⟩,
  ⟨9272813673901, 2, [2, 2, 3, 5, 5, 7, 7577, 582767]⟩,
  ⟨1928745244171409, 3, [2, 2, 2, 2, 13, 9272813673901]⟩,
  ⟨7259797099061183477, 2, [2, 2, 941, 1928745244171409]⟩,
  ⟨2584487767265781317813, 2, [2, 2, 89, 7259797099061183477]⟩,
  ⟨191, 19, [2, 5, 19]⟩,
  ⟨1686913, 10, [2, 2, 2, 2, 2, 2, 2, 3, 23, 191]⟩,
  ⟨475709467, 2, [2, 3, 47, 1686913]⟩,
  ⟨233, 3, [2, 2, 2, 29]⟩,
  ⟨467, 2, [2, 233]⟩,
  ⟨137, 3, [2, 2, 2, 17]⟩,
  ⟨2741, 2, [2, 2, 5, 137]⟩,
  ⟨16447, 3, [2, 3, 2741]⟩,
  ⟨409, 21, [2, 2, 2, 3, 17]⟩,
  ⟨1453, 2, [2, 2, 3, 11, 11]⟩,
  ⟨43591, 11, [2, 3, 5, 1453]⟩,
  ⟨927093389, 3, [2, 2, 13, 409, 43591]⟩,
  ⟨64881703735777, 5, [2, 2, 2, 2, 2, 3, 3, 3, 3, 3, 3, 3, 927093389]⟩,
  ⟨92691255082156974996979, 3, [2, 3, 31, 467, 16447, 64881703735777]⟩,
  ⟨281, 3, [2, 2, 2, 5, 7]⟩,
  ⟨3373, 5, [2, 2, 3, 281]⟩,
  ⟨151, 6, [2, 3, 5, 5]⟩,
  ⟨8101, 6, [2, 2, 3, 3, 3, 3, 5, 5]⟩,
  ⟨51376543, 3, [2, 3, 7, 151, 8101]⟩,
  ⟨43670061551, 7, [2, 5, 5, 17, 51376543]⟩,
  ⟨113, 3, [2, 2, 2, 2, 7]⟩,
  ⟨1151, 17, [2, 5, 5, 23]⟩,
  ⟨755057, 3, [2, 2, 2, 2, 41, 1151]⟩,
  ⟨1327, 3, [2, 3, 13, 17]⟩,
  ⟨421987, 2, [2, 3, 53, 1327]⟩,
  ⟨13090036741, 10, [2, 2, 3, 5, 11, 47, 421987]⟩,
  ⟨3819663927398918131021, 6, [2, 2, 3, 3, 5, 19, 113, 755057, 13090036741]⟩,
  ⟨1125266252156850182658904441386709967, 5, [2, 3373, 43670061551, 3819663927398918131021]⟩,
  ⟨15778400344354997994418419698270088123916926905054652752758194827714659, 2, [2, 3, 53, 475709467, 92691255082156974996979, 1125266252156850182658904441386709967]⟩,
  ⟨4002409555221667393417789825735904156556882819939007885332058136124031650490837864442687629129015664037894272559787, 2, [2, 3, 3, 11, 23, 47, 10177, 859267, 52437899, 2584487767265781317813, 15778400344354997994418419698270088123916926905054652752758194827714659]⟩]

theorem prime_blsQ : Nat.Prime 0x1a0111ea397fe69a4b1ba7b6434bacd764774b84f38512bf6730d2a0f6b0f6241eabfffeb153ffffb9feffffffffaaab :=
  prime_of_certs _ certs_blsQ (by decide +kernel) (by decide +kernel)

end Verif
