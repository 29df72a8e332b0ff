import Verif.Primes.Pratt

/-!
# Primality of the curve constants

Generated Pratt certificates (this file models no code; the numbers are the constants cited in the
models: secp256k1.go:32-33, secp256r1.go:28-29, sm2_std.go:48-63, eccset.go:565-571).
-/

namespace Verif

def certs_secp256k1P : List Cert := [
  ⟨13441, 11, [2, 2, 2, 2, 2, 2, 2, 3, 5, 7]⟩,
  ⟨2657, 3, [2, 2, 2, 2, 2, 83]⟩,
  ⟨4423, 3, [2, 3, 11, 67]⟩,
  ⟨101, 2, [2, 2, 5, 5]⟩,
  ⟨239, 7, [2, 7, 17]⟩,
  ⟨96557, 2, [2, 2, 101, 239]⟩,
  ⟨419, 2, [2, 11, 19]⟩,
  ⟨20113, 10, [2, 2, 2, 2, 3, 419]⟩,
  ⟨1206781, 10, [2, 2, 3, 5, 20113]⟩,
  ⟨7240687, 3, [2, 3, 1206781]⟩,
  ⟨103, 5, [2, 3, 17]⟩,
  ⟨41201, 3, [2, 2, 2, 2, 5, 5, 103]⟩,
  ⟨107590001, 3, [2, 2, 2, 2, 5, 5, 5, 5, 7, 29, 53]⟩,
  ⟨271, 6, [2, 3, 3, 3, 5]⟩,
  ⟨1627, 3, [2, 3, 271]⟩,
  ⟨255515944373312847190720520512484175977, 3, [2, 2, 2, 7, 7, 11, 1627, 2657, 4423, 41201, 96557, 7240687, 107590001]⟩,
  ⟨7723, 3, [2, 3, 3, 3, 11, 13]⟩,
  ⟨443, 2, [2, 13, 17]⟩,
  ⟨24809, 6, [2, 2, 2, 7, 443]⟩,
  ⟨971, 6, [2, 5, 97]⟩,
  ⟨1373, 2, [2, 2, 7, 7, 7]⟩,
  ⟨13331831, 13, [2, 5, 971, 1373]⟩,
  ⟨131, 2, [2, 5, 13]⟩,
  ⟨2621, 2, [2, 2, 5, 131]⟩,
  ⟨173378833005251801, 6, [2, 2, 2, 5, 5, 2621, 24809, 13331831]⟩,
  ⟨887, 5, [2, 443]⟩,
  ⟨5323, 5, [2, 3, 887]⟩,
  ⟨22149492674086928081353, 5, [2, 2, 2, 3, 5323, 173378833005251801]⟩,
  ⟨132896956044521568488119, 6, [2, 3, 22149492674086928081353]⟩,
  ⟨205115282021455665897114700593932402728804164701536103180137503955397371, 10, [2, 3, 5, 29, 29, 31, 7723, 132896956044521568488119, 255515944373312847190720520512484175977]⟩,
  ⟨115792089237316195423570985008687907853269984665640564039457584007908834671663, 3, [2, 3, 7, 13441, 205115282021455665897114700593932402728804164701536103180137503955397371]⟩]

theorem prime_secp256k1P : Nat.Prime 0xfffffffffffffffffffffffffffffffffffffffffffffffffffffffefffffc2f :=
  prime_of_certs _ certs_secp256k1P (by decide +kernel) (by decide +kernel)

def certs_secp256k1N : List Cert := [
  ⟨199, 3, [2, 3, 3, 11]⟩,
  ⟨797, 2, [2, 2, 199]⟩,
  ⟨9349, 2, [2, 2, 3, 19, 41]⟩,
  ⟨44706919, 6, [2, 3, 797, 9349]⟩,
  ⟨113, 3, [2, 2, 2, 2, 7]⟩,
  ⟨120233, 3, [2, 2, 2, 7, 19, 113]⟩,
  ⟨4051, 10, [2, 3, 3, 3, 3, 5, 5]⟩,
  ⟨174723607534414371449, 3, [2, 2, 2, 17, 59, 4051, 120233, 44706919]⟩,
  ⟨2011, 3, [2, 3, 5, 67]⟩,
  ⟨4681609, 23, [2, 2, 2, 3, 97, 2011]⟩,
  ⟨16699, 3, [2, 3, 11, 11, 23]⟩,
  ⟨2861, 2, [2, 2, 5, 11, 13]⟩,
  ⟨85831, 3, [2, 3, 5, 2861]⟩,
  ⟨107361793816595537, 3, [2, 2, 2, 2, 16699, 85831, 4681609]⟩,
  ⟨149, 2, [2, 2, 37]⟩,
  ⟨109, 6, [2, 2, 3, 3, 3]⟩,
  ⟨293, 2, [2, 2, 73]⟩,
  ⟨2731, 3, [2, 3, 5, 7, 13]⟩,
  ⟨305873, 3, [2, 2, 2, 2, 7, 2731]⟩,
  ⟨461, 2, [2, 2, 5, 23]⟩,
  ⟨1871, 14, [2, 5, 11, 17]⟩,
  ⟨1627771, 3, [2, 3, 5, 29, 1871]⟩,
  ⟨297159362677, 2, [2, 2, 3, 3, 11, 461, 1627771]⟩,
  ⟨1409, 3, [2, 2, 2, 2, 2, 2, 2, 11]⟩,
  ⟨28181, 2, [2, 2, 5, 1409]⟩,
  ⟨545358713, 5, [2, 2, 2, 41, 59, 28181]⟩,
  ⟨29047611873442575647497758179, 2, [2, 293, 305873, 545358713, 297159362677]⟩,
  ⟨341948486974166000522343609283189, 2, [2, 2, 3, 3, 3, 109, 29047611873442575647497758179]⟩,
  ⟨631, 3, [2, 3, 3, 5, 7]⟩,
  ⟨115792089237316195423570985008687907852837564279074904382605163141518161494337, 7, [2, 2, 2, 2, 2, 2, 3, 149, 631, 107361793816595537, 174723607534414371449, 341948486974166000522343609283189]⟩]

theorem prime_secp256k1N : Nat.Prime 0xfffffffffffffffffffffffffffffffebaaedce6af48a03bbfd25e8cd0364141 :=
  prime_of_certs _ certs_secp256k1N (by decide +kernel) (by decide +kernel)

def certs_secp256r1P : List Cert := [
  ⟨257, 3, [2, 2, 2, 2, 2, 2, 2, 2]⟩,
  ⟨641, 3, [2, 2, 2, 2, 2, 2, 2, 5]⟩,
  ⟨65537, 3, [2, 2, 2, 2, 2, 2, 2, 2, 2, 2, 2, 2, 2, 2, 2, 2]⟩,
  ⟨727, 5, [2, 3, 11, 11]⟩,
  ⟨17449, 14, [2, 2, 2, 3, 727]⟩,
  ⟨6700417, 5, [2, 2, 2, 2, 2, 2, 2, 3, 17449]⟩,
  ⟨241, 7, [2, 2, 2, 2, 3, 5]⟩,
  ⟨2411, 6, [2, 5, 241]⟩,
  ⟨197, 2, [2, 2, 7, 7]⟩,
  ⟨173, 2, [2, 2, 43]⟩,
  ⟨919, 7, [2, 3, 3, 3, 17]⟩,
  ⟨3677, 2, [2, 2, 919]⟩,
  ⟨66417393611, 6, [2, 5, 53, 173, 197, 3677]⟩,
  ⟨11290956913871, 13, [2, 5, 17, 66417393611]⟩,
  ⟨181, 2, [2, 2, 3, 3, 5]⟩,
  ⟨1087, 3, [2, 3, 181]⟩,
  ⟨4349, 2, [2, 2, 1087]⟩,
  ⟨78283, 3, [2, 3, 3, 4349]⟩,
  ⟨757, 2, [2, 2, 3, 3, 3, 7]⟩,
  ⟨18169, 11, [2, 2, 2, 3, 757]⟩,
  ⟨313, 10, [2, 2, 2, 3, 13]⟩,
  ⟨704251, 2, [2, 3, 3, 5, 5, 5, 313]⟩,
  ⟨46076956964474543, 5, [2, 23, 18169, 78283, 704251]⟩,
  ⟨107, 2, [2, 53]⟩,
  ⟨157, 5, [2, 2, 3, 13]⟩,
  ⟨3769, 7, [2, 2, 2, 3, 157]⟩,
  ⟨204061199, 11, [2, 11, 23, 107, 3769]⟩,
  ⟨34282281433, 17, [2, 2, 2, 3, 7, 204061199]⟩,
  ⟨774023187263532362759620327192479577272145303, 3, [2, 3, 3, 2411, 34282281433, 11290956913871, 46076956964474543]⟩,
  ⟨835945042244614951780389953367877943453916927241, 11, [2, 2, 2, 3, 3, 3, 5, 774023187263532362759620327192479577272145303]⟩,
  ⟨1531, 2, [2, 3, 3, 5, 17]⟩,
  ⟨661, 2, [2, 2, 3, 5, 11]⟩,
  ⟨490463, 14, [2, 7, 53, 661]⟩,
  ⟨115792089210356248762697446949407573530086143415290314195533631308867097853951, 6, [2, 3, 5, 5, 17, 257, 641, 1531, 65537, 490463, 6700417, 835945042244614951780389953367877943453916927241]⟩]

theorem prime_secp256r1P : Nat.Prime 0xffffffff00000001000000000000000000000000ffffffffffffffffffffffff :=
  prime_of_certs _ certs_secp256r1P (by decide +kernel) (by decide +kernel)

def certs_secp256r1N : List Cert := [
  ⟨131, 2, [2, 5, 13]⟩,
  ⟨727, 5, [2, 3, 11, 11]⟩,
  ⟨17449, 14, [2, 2, 2, 3, 727]⟩,
  ⟨9547, 2, [2, 3, 37, 43]⟩,
  ⟨38189, 2, [2, 2, 9547]⟩,
  ⟨3407, 5, [2, 13, 131]⟩,
  ⟨263, 5, [2, 131]⟩,
  ⟨126241, 7, [2, 2, 2, 2, 2, 3, 5, 263]⟩,
  ⟨337, 10, [2, 2, 2, 2, 3, 7]⟩,
  ⟨104471, 11, [2, 5, 31, 337]⟩,
  ⟨3969899, 2, [2, 19, 104471]⟩,
  ⟨1002328039319, 19, [2, 126241, 3969899]⟩,
  ⟨16879, 3, [2, 3, 29, 97]⟩,
  ⟨1297, 10, [2, 2, 2, 2, 3, 3, 3, 3]⟩,
  ⟨155317, 5, [2, 2, 3, 7, 43, 43]⟩,
  ⟨191039911, 3, [2, 3, 5, 41, 155317]⟩,
  ⟨151, 6, [2, 3, 5, 5]⟩,
  ⟨1511, 11, [2, 5, 151]⟩,
  ⟨3023, 5, [2, 1511]⟩,
  ⟨127, 3, [2, 3, 3, 7]⟩,
  ⟨208150935158385979, 2, [2, 3, 11, 43, 127, 3023, 191039911]⟩,
  ⟨2624747550333869278416773953, 7, [2, 2, 2, 2, 2, 2, 3, 3, 1297, 16879, 208150935158385979]⟩,
  ⟨373, 2, [2, 2, 3, 31]⟩,
  ⟨311, 17, [2, 5, 31]⟩,
  ⟨311245691, 2, [2, 5, 7, 17, 29, 29, 311]⟩,
  ⟨622491383, 5, [2, 311245691]⟩,
  ⟨1201, 11, [2, 2, 2, 2, 3, 5, 5]⟩,
  ⟨229, 6, [2, 2, 3, 19]⟩,
  ⟨9350987, 2, [2, 17, 229, 1201]⟩,
  ⟨187019741, 2, [2, 2, 5, 9350987]⟩,
  ⟨115792089210356248762697446949407573529996955224135760342422259061068512044369, 7, [2, 2, 2, 2, 3, 71, 131, 373, 3407, 17449, 38189, 187019741, 622491383, 1002328039319, 2624747550333869278416773953]⟩]

theorem prime_secp256r1N : Nat.Prime 0xffffffff00000000ffffffffffffffffbce6faada7179e84f3b9cac2fc632551 :=
  prime_of_certs _ certs_secp256r1N (by decide +kernel) (by decide +kernel)

def certs_sm2P : List Cert := [
  ⟨71209, 7, [2, 2, 2, 3, 3, 23, 43]⟩,
  ⟨743, 5, [2, 7, 53]⟩,
  ⟨54983, 5, [2, 37, 743]⟩,
  ⟨3079049, 3, [2, 2, 2, 7, 54983]⟩,
  ⟨6158099, 2, [2, 3079049]⟩,
  ⟨101, 2, [2, 2, 5, 5]⟩,
  ⟨1213, 2, [2, 2, 3, 101]⟩,
  ⟨34511, 7, [2, 5, 7, 17, 29]⟩,
  ⟨2273, 3, [2, 2, 2, 2, 2, 71]⟩,
  ⟨4547, 2, [2, 2273]⟩,
  ⟨363761, 3, [2, 2, 2, 2, 5, 4547]⟩,
  ⟨137, 3, [2, 2, 2, 17]⟩,
  ⟨823, 3, [2, 3, 137]⟩,
  ⟨4773264379806847, 3, [2, 3, 7, 11, 823, 34511, 363761]⟩,
  ⟨66013261729388519804782124120027, 2, [2, 13, 1213, 71209, 6158099, 4773264379806847]⟩,
  ⟨769, 11, [2, 2, 2, 2, 2, 2, 2, 2, 3]⟩,
  ⟨337, 10, [2, 2, 2, 2, 3, 7]⟩,
  ⟨571, 3, [2, 3, 5, 19]⟩,
  ⟨5711, 19, [2, 5, 571]⟩,
  ⟨3017783777, 3, [2, 2, 2, 2, 2, 7, 7, 337, 5711]⟩,
  ⟨4641351449027, 2, [2, 769, 3017783777]⟩,
  ⟨103, 5, [2, 3, 17]⟩,
  ⟨2473, 5, [2, 2, 2, 3, 103]⟩,
  ⟨367, 6, [2, 3, 61]⟩,
  ⟨8214737, 3, [2, 2, 2, 2, 67, 79, 97]⟩,
  ⟨417514796639753, 3, [2, 2, 2, 7, 367, 2473, 8214737]⟩,
  ⟨241, 7, [2, 2, 2, 2, 3, 5]⟩,
  ⟨1447, 3, [2, 3, 241]⟩,
  ⟨179429, 2, [2, 2, 31, 1447]⟩,
  ⟨5303, 5, [2, 11, 241]⟩,
  ⟨348253387243, 3, [2, 3, 61, 5303, 179429]⟩,
  ⟨30223, 3, [2, 3, 3, 23, 73]⟩,
  ⟨115792089210356248756420345214020892766250353991924191454421193933289684991999, 13, [2, 43, 30223, 348253387243, 4641351449027, 417514796639753, 66013261729388519804782124120027]⟩]

theorem prime_sm2P : Nat.Prime 0xfffffffeffffffffffffffffffffffffffffffff00000000ffffffffffffffff :=
  prime_of_certs _ certs_sm2P (by decide +kernel) (by decide +kernel)

def certs_sm2N : List Cert := [
  ⟨4957, 2, [2, 2, 3, 7, 59]⟩,
  ⟨1013, 3, [2, 2, 11, 23]⟩,
  ⟨10042883, 2, [2, 1013, 4957]⟩,
  ⟨179, 2, [2, 89]⟩,
  ⟨359, 7, [2, 179]⟩,
  ⟨719, 11, [2, 359]⟩,
  ⟨2368433183657, 3, [2, 2, 2, 41, 719, 10042883]⟩,
  ⟨3258964060712033, 3, [2, 2, 2, 2, 2, 43, 2368433183657]⟩,
  ⟨233, 3, [2, 2, 2, 29]⟩,
  ⟨181, 2, [2, 2, 3, 3, 5]⟩,
  ⟨17965699, 2, [2, 3, 71, 181, 233]⟩,
  ⟨3037, 2, [2, 2, 3, 11, 23]⟩,
  ⟨12149, 2, [2, 2, 3037]⟩,
  ⟨103, 5, [2, 3, 17]⟩,
  ⟨107615843, 2, [2, 43, 103, 12149]⟩,
  ⟨5801, 3, [2, 2, 2, 5, 5, 29]⟩,
  ⟨9061163, 2, [2, 11, 71, 5801]⟩,
  ⟨127, 3, [2, 3, 3, 7]⟩,
  ⟨5636460199499, 2, [2, 31, 79, 127, 9061163]⟩,
  ⟨101456283590983, 3, [2, 3, 3, 5636460199499]⟩,
  ⟨3049, 11, [2, 2, 2, 3, 127]⟩,
  ⟨84163, 2, [2, 3, 13, 13, 83]⟩,
  ⟨2566129871, 7, [2, 5, 3049, 84163]⟩,
  ⟨18120927127286907576013935251791662753637, 6, [2, 2, 3, 3, 17965699, 107615843, 2566129871, 101456283590983]⟩,
  ⟨125197554539772723432468576818475380947471091418362477724521, 3, [2, 2, 2, 5, 53, 3258964060712033, 18120927127286907576013935251791662753637]⟩,
  ⟨101, 2, [2, 2, 5, 5]⟩,
  ⟨110899, 3, [2, 3, 3, 61, 101]⟩,
  ⟨117774739, 2, [2, 3, 3, 59, 110899]⟩,
  ⟨1413296869, 6, [2, 2, 3, 117774739]⟩,
  ⟨251, 6, [2, 5, 5, 5]⟩,
  ⟨14057, 3, [2, 2, 2, 7, 251]⟩,
  ⟨431, 7, [2, 5, 43]⟩,
  ⟨7759, 3, [2, 3, 3, 431]⟩,
  ⟨115792089210356248756420345214020892766061623724957744567843809356293439045923, 3, [2, 3, 7759, 14057, 1413296869, 125197554539772723432468576818475380947471091418362477724521]⟩]

theorem prime_sm2N : Nat.Prime 0xfffffffeffffffffffffffffffffffff7203df6b21c6052b53bbf40939d54123 :=
  prime_of_certs _ certs_sm2N (by decide +kernel) (by decide +kernel)

def certs_ed25519P : List Cert := [
  ⟨353, 3, [2, 2, 2, 2, 2, 11]⟩,
  ⟨419, 2, [2, 11, 19]⟩,
  ⟨569003, 2, [2, 7, 97, 419]⟩,
  ⟨2437, 2, [2, 2, 3, 7, 29]⟩,
  ⟨2773320623, 5, [2, 2437, 569003]⟩,
  ⟨72106336199, 7, [2, 13, 2773320623]⟩,
  ⟨103, 5, [2, 3, 17]⟩,
  ⟨991, 6, [2, 3, 3, 5, 11]⟩,
  ⟨8574133, 2, [2, 2, 3, 7, 103, 991]⟩,
  ⟨127, 3, [2, 3, 3, 7]⟩,
  ⟨1919519569386763, 2, [2, 3, 7, 19, 47, 47, 127, 8574133]⟩,
  ⟨9463, 3, [2, 3, 19, 83]⟩,
  ⟨37853, 2, [2, 2, 9463]⟩,
  ⟨75707, 2, [2, 37853]⟩,
  ⟨75445702479781427272750846543864801, 7, [2, 2, 2, 2, 2, 3, 3, 5, 5, 75707, 72106336199, 1919519569386763]⟩,
  ⟨131, 2, [2, 5, 13]⟩,
  ⟨132049, 26, [2, 2, 2, 2, 3, 3, 7, 131]⟩,
  ⟨107, 2, [2, 53]⟩,
  ⟨1723, 3, [2, 3, 7, 41]⟩,
  ⟨430751, 17, [2, 5, 5, 5, 1723]⟩,
  ⟨173, 2, [2, 2, 43]⟩,
  ⟨4153, 5, [2, 2, 2, 3, 173]⟩,
  ⟨223, 3, [2, 3, 37]⟩,
  ⟨31757755568855353, 10, [2, 2, 2, 3, 31, 107, 223, 4153, 430751]⟩,
  ⟨487, 3, [2, 3, 3, 3, 3, 3]⟩,
  ⟨57467, 2, [2, 59, 487]⟩,
  ⟨3727, 3, [2, 3, 3, 3, 3, 23]⟩,
  ⟨1923133, 2, [2, 2, 3, 43, 3727]⟩,
  ⟨74058212732561358302231226437062788676166966415465897661863160754340907, 2, [2, 3, 353, 57467, 132049, 1923133, 31757755568855353, 75445702479781427272750846543864801]⟩,
  ⟨239, 7, [2, 7, 17]⟩,
  ⟨479, 13, [2, 239]⟩,
  ⟨32573, 2, [2, 2, 17, 479]⟩,
  ⟨65147, 2, [2, 32573]⟩,
  ⟨57896044618658097711785492504343953926634992332820282019728792003956564819949, 2, [2, 2, 3, 65147, 74058212732561358302231226437062788676166966415465897661863160754340907]⟩]

theorem prime_ed25519P : Nat.Prime 0x7fffffffffffffffffffffffffffffffffffffffffffffffffffffffffffffed :=
  prime_of_certs _ certs_ed25519P (by decide +kernel) (by decide +kernel)

def certs_ed25519L : List Cert := [
  ⟨2851, 2, [2, 3, 5, 5, 19]⟩,
  ⟨2551, 6, [2, 3, 5, 5, 17]⟩,
  ⟨1224481, 13, [2, 2, 2, 2, 2, 3, 5, 2551]⟩,
  ⟨3797, 2, [2, 2, 13, 73]⟩,
  ⟨531581, 2, [2, 2, 5, 7, 3797]⟩,
  ⟨1257559732178653, 2, [2, 2, 3, 7, 23, 531581, 1224481]⟩,
  ⟨4434155615661930479, 17, [2, 41, 43, 1257559732178653]⟩,
  ⟨1361, 3, [2, 2, 2, 2, 5, 17]⟩,
  ⟨172054593956031949258510691, 2, [2, 5, 1361, 2851, 4434155615661930479]⟩,
  ⟨269, 2, [2, 2, 67]⟩,
  ⟨307, 5, [2, 3, 3, 17]⟩,
  ⟨113, 3, [2, 2, 2, 2, 7]⟩,
  ⟨2939, 2, [2, 13, 113]⟩,
  ⟨5879, 11, [2, 2939]⟩,
  ⟨292386187, 2, [2, 3, 3, 3, 3, 307, 5879]⟩,
  ⟨213441916511, 13, [2, 5, 73, 292386187]⟩,
  ⟨19757330305831588566944191468367130476339, 2, [2, 269, 213441916511, 172054593956031949258510691]⟩,
  ⟨276602624281642239937218680557139826668747, 2, [2, 7, 19757330305831588566944191468367130476339]⟩,
  ⟨34123, 2, [2, 3, 11, 11, 47]⟩,
  ⟨409477, 2, [2, 2, 3, 34123]⟩,
  ⟨14741173, 2, [2, 2, 3, 3, 409477]⟩,
  ⟨58964693, 2, [2, 2, 14741173]⟩,
  ⟨30703, 3, [2, 3, 7, 17, 43]⟩,
  ⟨41081, 3, [2, 2, 2, 5, 13, 79]⟩,
  ⟨82163, 2, [2, 41081]⟩,
  ⟨1723, 3, [2, 3, 7, 41]⟩,
  ⟨17231, 13, [2, 5, 1723]⟩,
  ⟨137849, 3, [2, 2, 2, 17231]⟩,
  ⟨22111, 6, [2, 3, 5, 11, 67]⟩,
  ⟨132667, 5, [2, 3, 22111]⟩,
  ⟨3044861653679985063343, 5, [2, 3, 11, 30703, 82163, 132667, 137849]⟩,
  ⟨198211423230930754013084525763697, 5, [2, 2, 2, 2, 3, 23, 58964693, 3044861653679985063343]⟩,
  ⟨7237005577332262213973186563042994240857116359379907606001950938285454250989, 2, [2, 2, 3, 11, 198211423230930754013084525763697, 276602624281642239937218680557139826668747]⟩]

theorem prime_ed25519L : Nat.Prime 0x1000000000000000000000000000000014def9dea2f79cd65812631a5cf5d3ed :=
  prime_of_certs _ certs_ed25519L (by decide +kernel) (by decide +kernel)

def certs_pastaP : List Cert := [
  ⟨2531, 2, [2, 5, 11, 23]⟩,
  ⟨19267, 3, [2, 3, 13, 13, 19]⟩,
  ⟨115603, 2, [2, 3, 19267]⟩,
  ⟨269, 2, [2, 2, 67]⟩,
  ⟨3767, 5, [2, 7, 269]⟩,
  ⟨1197907, 3, [2, 3, 53, 3767]⟩,
  ⟨25741, 6, [2, 2, 3, 3, 5, 11, 13]⟩,
  ⟨772231, 6, [2, 3, 5, 25741]⟩,
  ⟨127, 3, [2, 3, 3, 7]⟩,
  ⟨509, 2, [2, 2, 127]⟩,
  ⟨413527, 3, [2, 3, 41, 41, 41]⟩,
  ⟨325086459374267, 2, [2, 509, 413527, 772231]⟩,
  ⟨977, 3, [2, 2, 2, 2, 61]⟩,
  ⟨6942563, 2, [2, 11, 17, 19, 977]⟩,
  ⟨41655379, 2, [2, 3, 6942563]⟩,
  ⟨22160661629, 3, [2, 2, 7, 19, 41655379]⟩,
  ⟨8999194758858563409123804352480028797519453, 2, [2, 2, 3, 3, 3, 3, 11, 2531, 115603, 1197907, 22160661629, 325086459374267]⟩,
  ⟨463, 3, [2, 3, 7, 11]⟩,
  ⟨829, 2, [2, 2, 3, 3, 23]⟩,
  ⟨14923, 2, [2, 3, 3, 829]⟩,
  ⟨1973, 2, [2, 2, 17, 29]⟩,
  ⟨173, 2, [2, 2, 43]⟩,
  ⟨6229, 2, [2, 2, 3, 3, 173]⟩,
  ⟨24917, 2, [2, 2, 6229]⟩,
  ⟨149503, 3, [2, 3, 24917]⟩,
  ⟨897019, 2, [2, 3, 149503]⟩,
  ⟨417677162933, 2, [2, 2, 59, 1973, 897019]⟩,
  ⟨539204044132271846773, 5, [2, 2, 3, 3, 3, 3, 3, 89, 14923, 417677162933]⟩,
  ⟨28948022309329048855892746252171976963363056481941560715954676764349967630337, 5, [2, 2, 2, 2, 2, 2, 2, 2, 2, 2, 2, 2, 2, 2, 2, 2, 2, 2, 2, 2, 2, 2, 2, 2, 2, 2, 2, 2, 2, 2, 2, 2, 3, 463, 539204044132271846773, 8999194758858563409123804352480028797519453]⟩]

theorem prime_pastaP : Nat.Prime 0x40000000000000000000000000000000224698fc094cf91b992d30ed00000001 :=
  prime_of_certs _ certs_pastaP (by decide +kernel) (by decide +kernel)

def certs_pastaQ : List Cert := [
  ⟨31649, 3, [2, 2, 2, 2, 2, 23, 43]⟩,
  ⟨3037, 2, [2, 2, 3, 11, 23]⟩,
  ⟨12149, 2, [2, 2, 3037]⟩,
  ⟨757, 2, [2, 2, 3, 3, 3, 7]⟩,
  ⟨5239247429827, 2, [2, 3, 3, 757, 12149, 31649]⟩,
  ⟨173, 2, [2, 2, 43]⟩,
  ⟨294793, 10, [2, 2, 2, 3, 71, 173]⟩,
  ⟨6091, 7, [2, 3, 5, 7, 29]⟩,
  ⟨5701177, 7, [2, 2, 2, 3, 3, 13, 6091]⟩,
  ⟨399082391, 7, [2, 5, 7, 5701177]⟩,
  ⟨827, 2, [2, 7, 59]⟩,
  ⟨2557, 2, [2, 2, 3, 3, 71]⟩,
  ⟨4229279, 13, [2, 827, 2557]⟩,
  ⟨10427374428728808478656897599072717, 2, [2, 2, 294793, 4229279, 399082391, 5239247429827]⟩,
  ⟨1709, 3, [2, 2, 7, 61]⟩,
  ⟨68477, 2, [2, 2, 17, 19, 53]⟩,
  ⟨958679, 7, [2, 7, 68477]⟩,
  ⟨179, 2, [2, 89]⟩,
  ⟨359, 7, [2, 179]⟩,
  ⟨4129989133, 5, [2, 2, 3, 359, 958679]⟩,
  ⟨241, 7, [2, 2, 2, 2, 3, 5]⟩,
  ⟨125803, 3, [2, 3, 3, 29, 241]⟩,
  ⟨2012849, 3, [2, 2, 2, 2, 125803]⟩,
  ⟨4025699, 2, [2, 2012849]⟩,
  ⟨80513981, 2, [2, 2, 5, 4025699]⟩,
  ⟨5247740253619, 2, [2, 3, 3, 3, 17, 71, 80513981]⟩,
  ⟨1690502597179744445941507, 2, [2, 3, 13, 4129989133, 5247740253619]⟩,
  ⟨1381, 2, [2, 2, 3, 5, 23]⟩,
  ⟨24859, 2, [2, 3, 3, 1381]⟩,
  ⟨28948022309329048855892746252171976963363056481941647379679742748393362948097, 5, [2, 2, 2, 2, 2, 2, 2, 2, 2, 2, 2, 2, 2, 2, 2, 2, 2, 2, 2, 2, 2, 2, 2, 2, 2, 2, 2, 2, 2, 2, 2, 2, 3, 3, 1709, 24859, 1690502597179744445941507, 10427374428728808478656897599072717]⟩]

theorem prime_pastaQ : Nat.Prime 0x40000000000000000000000000000000224698fc0994a8dd8c46eb2100000001 :=
  prime_of_certs _ certs_pastaQ (by decide +kernel) (by decide +kernel)

def certs_blsR : List Cert := [
  ⟨10177, 7, [2, 2, 2, 2, 2, 2, 3, 53]⟩,
  ⟨47737, 5, [2, 2, 2, 3, 3, 3, 13, 17]⟩,
  ⟨859267, 2, [2, 3, 3, 47737]⟩,
  ⟨179, 2, [2, 89]⟩,
  ⟨359, 7, [2, 179]⟩,
  ⟨110573, 3, [2, 2, 7, 11, 359]⟩,
  ⟨2653753, 5, [2, 2, 2, 3, 110573]⟩,
  ⟨63690073, 7, [2, 2, 2, 3, 2653753]⟩,
  ⟨254760293, 2, [2, 2, 63690073]⟩,
  ⟨449, 3, [2, 2, 2, 2, 2, 2, 7]⟩,
  ⟨609743, 5, [2, 7, 97, 449]⟩,
  ⟨52437899, 2, [2, 43, 609743]⟩,
  ⟨1607, 5, [2, 11, 73]⟩,
  ⟨906349, 2, [2, 2, 3, 47, 1607]⟩,
  ⟨523, 2, [2, 3, 3, 29]⟩,
  ⟨20921, 3, [2, 2, 2, 5, 523]⟩,
  ⟨125527, 5, [2, 3, 20921]⟩,
  ⟨2508409, 11, [2, 2, 2, 3, 3, 3, 3, 7, 7, 79]⟩,
  ⟨18329, 3, [2, 2, 2, 29, 79]⟩,
  ⟨2529403, 2, [2, 3, 23, 18329]⟩,
  ⟨52435875175126190479447740508185965837690552500527637822603658699938581184513, 7, [2, 2, 2, 2, 2, 2, 2, 2, 2, 2, 2, 2, 2, 2, 2, 2, 2, 2, 2, 2, 2, 2, 2, 2, 2, 2, 2, 2, 2, 2, 2, 2, 3, 11, 19, 10177, 125527, 859267, 906349, 906349, 2508409, 2529403, 52437899, 254760293, 254760293]⟩]

theorem prime_blsR : Nat.Prime 0x73eda753299d7d483339d80809a1d80553bda402fffe5bfeffffffff00000001 :=
  prime_of_certs _ certs_blsR (by decide +kernel) (by decide +kernel)

end Verif
