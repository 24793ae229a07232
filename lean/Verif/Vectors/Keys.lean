import Verif.Vectors.KeysEval

/-!
# Published vectors for keys

All vectors of `/repo/src/test_vectors/keys.rs`, copied byte by byte.  With the primitives of Zcash the model of the crate's
test passes for them.  These are checks of the model against published data, not properties: they show that the
transcription of the crate together with the parts of its dependencies written out in `Verif/Crypto` compute what the
protocol prescribes, down to the last bit.
-/

namespace Orchard.Vectors

/-- `test_vectors/keys.rs:28-118`. -/
def keys0 : KeyVector where
  sk := ⟨[0x5d, 0x7a, 0x8f, 0x73, 0x9a, 0x2d, 0x9e, 0x94, 0x5b, 0x0c, 0xe1, 0x52, 0xa8, 0x04, 0x9e, 0x29, 0x4c, 0x4d, 0x6e, 0x66, 0xb1, 0x64, 0x93, 0x9d, 0xaf, 0xfa, 0x2e, 0xf6, 0xee, 0x69, 0x21, 0x48], rfl⟩
  ask := ⟨[0x8e, 0xb8, 0xc4, 0x01, 0xc2, 0x87, 0xa6, 0xc1, 0x3a, 0x2c, 0x34, 0x5a, 0xd8, 0x21, 0x72, 0xd8, 0x6b, 0xe4, 0xa8, 0x85, 0x35, 0x25, 0xdb, 0x60, 0x2d, 0x14, 0xf6, 0x30, 0xf4, 0xe6, 0x1c, 0x17], rfl⟩
  ak := ⟨[0x74, 0x0b, 0xbe, 0x5d, 0x05, 0x80, 0xb2, 0xca, 0xd4, 0x30, 0x18, 0x0d, 0x02, 0xcc, 0x12, 0x8b, 0x9a, 0x14, 0x0d, 0x5e, 0x07, 0xc1, 0x51, 0x72, 0x1d, 0xc1, 0x6d, 0x25, 0xd4, 0xe2, 0x0f, 0x15], rfl⟩
  nk := ⟨[0x9f, 0x2f, 0x82, 0x67, 0x38, 0x94, 0x5a, 0xd0, 0x1f, 0x47, 0xf7, 0x0d, 0xb0, 0xc3, 0x67, 0xc2, 0x46, 0xc2, 0x0c, 0x61, 0xff, 0x55, 0x83, 0x94, 0x8c, 0x39, 0xde, 0xa9, 0x68, 0xfe, 0xfd, 0x1b], rfl⟩
  rivk := ⟨[0x02, 0x1c, 0xcf, 0x89, 0x60, 0x4f, 0x5f, 0x7c, 0xc6, 0xe0, 0x34, 0xb3, 0x2d, 0x33, 0x89, 0x08, 0xb8, 0x19, 0xfb, 0xe3, 0x25, 0xfe, 0xe6, 0x45, 0x8b, 0x56, 0xb4, 0xca, 0x71, 0xa7, 0xe4, 0x3d], rfl⟩
  ivk := ⟨[0x85, 0xc8, 0xb5, 0xcd, 0x1a, 0xc3, 0xec, 0x3a, 0xd7, 0x09, 0x21, 0x32, 0xf9, 0x7f, 0x01, 0x78, 0xb0, 0x75, 0xc8, 0x1a, 0x13, 0x9f, 0xd4, 0x60, 0xbb, 0xe0, 0xdf, 0xcd, 0x75, 0x51, 0x47, 0x24], rfl⟩
  ovk := ⟨[0xbc, 0xc7, 0x06, 0x5e, 0x59, 0x91, 0x0b, 0x35, 0x99, 0x3f, 0x59, 0x50, 0x5b, 0xe2, 0x09, 0xb1, 0x4b, 0xf0, 0x24, 0x88, 0x75, 0x0b, 0xbc, 0x8b, 0x1a, 0xcd, 0xcf, 0x10, 0x8c, 0x36, 0x20, 0x04], rfl⟩
  dk := ⟨[0x31, 0xd6, 0xa6, 0x85, 0xbe, 0x57, 0x0f, 0x9f, 0xaf, 0x3c, 0xa8, 0xb0, 0x52, 0xe8, 0x87, 0x84, 0x0b, 0x2c, 0x9f, 0x8d, 0x67, 0x22, 0x4c, 0xa8, 0x2a, 0xef, 0xb9, 0xe2, 0xee, 0x5b, 0xed, 0xaf], rfl⟩
  defaultD := ⟨[0x8f, 0xf3, 0x38, 0x69, 0x71, 0xcb, 0x64, 0xb8, 0xe7, 0x78, 0x99], rfl⟩
  defaultPkD := ⟨[0x08, 0xdd, 0x8e, 0xbd, 0x7d, 0xe9, 0x2a, 0x68, 0xe5, 0x86, 0xa3, 0x4d, 0xb8, 0xfe, 0xa9, 0x99, 0xef, 0xd2, 0x01, 0x6f, 0xae, 0x76, 0x75, 0x0a, 0xfa, 0xe7, 0xee, 0x94, 0x16, 0x46, 0xbc, 0xb9], rfl⟩
  internalRivk := ⟨[0x90, 0x1a, 0x30, 0xb9, 0x9a, 0xe1, 0x57, 0x0c, 0xb8, 0x0b, 0xb6, 0x16, 0xae, 0xef, 0x3b, 0xb9, 0x16, 0xc6, 0x40, 0xc4, 0xcc, 0x62, 0x0f, 0x9b, 0x4b, 0x44, 0x99, 0xc7, 0x43, 0x32, 0xeb, 0x2a], rfl⟩
  internalIvk := ⟨[0x90, 0x6e, 0x2d, 0x20, 0xd0, 0x0d, 0xc0, 0xbf, 0x7c, 0x52, 0x06, 0x87, 0xd9, 0xdf, 0x3c, 0xe9, 0x81, 0x4d, 0x30, 0xee, 0x05, 0xc2, 0x15, 0xf8, 0x76, 0x4a, 0x32, 0xc3, 0x62, 0xf9, 0x26, 0x2f], rfl⟩
  internalOvk := ⟨[0xd7, 0x26, 0x8b, 0xeb, 0xbe, 0xe6, 0x92, 0x28, 0x62, 0x52, 0xac, 0x60, 0xbd, 0x4d, 0xf4, 0x05, 0xea, 0x49, 0x9d, 0x69, 0x7c, 0x45, 0x47, 0x73, 0xc5, 0xc4, 0x3c, 0xb1, 0x70, 0x93, 0x01, 0x23], rfl⟩
  internalDk := ⟨[0x6d, 0x61, 0xa0, 0x3f, 0x74, 0x6b, 0xa9, 0x3b, 0x93, 0x24, 0x02, 0xac, 0x10, 0x71, 0xfc, 0x27, 0x59, 0xd4, 0xf4, 0xd6, 0x84, 0xb2, 0xc5, 0x05, 0x6d, 0x5b, 0x17, 0x7a, 0xf0, 0xfa, 0x8a, 0xa9], rfl⟩
  noteV := 15643327852135767324
  noteRho := ⟨[0x2c, 0xb5, 0xb4, 0x06, 0xed, 0x89, 0x85, 0xe1, 0x81, 0x30, 0xab, 0x33, 0x36, 0x26, 0x97, 0xb0, 0xe4, 0xe4, 0xc7, 0x63, 0xcc, 0xb8, 0xf6, 0x76, 0x49, 0x5c, 0x22, 0x2f, 0x7f, 0xba, 0x1e, 0x31], rfl⟩
  noteRseed := ⟨[0xde, 0xfa, 0x3d, 0x5a, 0x57, 0xef, 0xc2, 0xe1, 0xe9, 0xb0, 0x1a, 0x03, 0x55, 0x87, 0xd5, 0xfb, 0x1a, 0x38, 0xe0, 0x1d, 0x94, 0x90, 0x3d, 0x3c, 0x3e, 0x0a, 0xd3, 0x36, 0x0c, 0x1d, 0x37, 0x10], rfl⟩
  noteCmx := ⟨[0x45, 0x02, 0xe3, 0x39, 0x90, 0x1e, 0x39, 0x77, 0x17, 0x83, 0x91, 0x67, 0xcb, 0xb4, 0x03, 0x7e, 0x0e, 0xcf, 0x68, 0x13, 0xb5, 0x1c, 0x81, 0xfe, 0x08, 0x5a, 0x7b, 0x78, 0x2f, 0x12, 0x42, 0x28], rfl⟩
  noteNf := ⟨[0x1b, 0x32, 0xed, 0xbb, 0xe4, 0xd1, 0x8f, 0x28, 0x87, 0x6d, 0xe2, 0x62, 0x51, 0x8a, 0xd3, 0x11, 0x22, 0x70, 0x1f, 0x8c, 0x0a, 0x52, 0xe9, 0x80, 0x47, 0xa3, 0x37, 0x87, 0x6e, 0x7e, 0xea, 0x19], rfl⟩

/-- Intermediate values for `keys0` (computed outside; checked below). -/
def keysWitness0 : KeyWitness where
  neg := false
  ask := 10454261220271891262213373417345616946724703688818037137893148252613309151374
  ax := 9526638040345043138940366980401118842719983753596258637624145336873334475636
  ay := 23105882078577238579200963342922673216128706033601661665514437694733295310410
  ivk := (28246170493162911399576013151316880522179478057103438059172778861850434894696, 6080796919316976676793761619897523039661009879624254605716065250844464136731, 17786384608719700640263857161479356215725040688953939632558476362614313292760, 15241788100653192707187762276232047918471215275559714627426509725355058536120, 16409270908045823162570819355290012822168596616102233446712969615020937037957, 21952198086686278451675024967632525025935729547460307056211625408757957438670)
  ivkI := (28246170493162911399576013151316880522179478057103438059172778861850434894696, 6080796919316976676793761619897523039661009879624254605716065250844464136731, 21983708179373744894863057629811511085706451108328642019798055821002936564664, 3827358608149010289494734472617045342270067435381548499043399814542912664610, 21327565269346808431747644687311759793002515494983888032333885414142706019984, 28855687408169642419766433375258298452821711297972484872988780260932265781540)
  gx := 4436018016540296984459937869542162233450898005246084028109921216954156143387
  gy := 16568380160326417466549118439785206073403546376943790890113788849263815177779
  px := 26114483348472121868347516104946564954404803772947627520336065552261724429576
  py := 8461509722381173644326014311053912659090834713445669652440847379192305548833
  psi := 10488083148116845588566930390773042728759039218753180673461853656977689012803
  rcm := 7626567707478077345491755176380348392809156184778218097149948154856365607646
  cm := (18653066579569275678290022496800807433478786965296025976369857261108978567189, 27952280695267413530586135687007368830874532672801774910610939366417535802347, 11575307972291720288549033751042000731259772733993430053225412835169046215429, 2435163367146568782050717533137030953001658353981715414663254850103525800511, 18209251360845983433159423263439966245592876807163613643268354990028513018437, 5472567015237735855975173450849800117585054631861861164791005883242858562168)
  s := 26541114174540059809006811290203497956267958734158750945116442167937294141850
  sx := 17825521851109395260744490369092476611289516445682961888018468249206675364709
  sy := 22575562086876169549519115144223088303961680618211336824581564677265727231723
  nx := 11722136027613678082717912556971186958310322026563343650116547665651701723675
  ny := 7872057049585861719406000410679196405732833748104423662043750716928699375504

set_option maxRecDepth 100000 in
theorem keysOk0 : keysOk keys0 keysWitness0 = true := by decide +kernel

/-- The test of `keys.rs:1027-1080` passes for vector 0, whose `ask` is not negated. -/
theorem keys0_passes : keysTest Prims.zcash keys0 = .ret () :=
  keysOk_sound keysOk0

set_option maxRecDepth 100000 in
/-- The default diversifier of vector 0, which the Rust test takes as given, is the one at index 0: FF1 with AES-256. -/
theorem keys0_default_diversifier : dkGet Prims.zcash keys0.dk (Bytes.replicate 11 0) = keys0.defaultD := by decide +kernel

/-- `test_vectors/keys.rs:119-209`. -/
def keys1 : KeyVector where
  sk := ⟨[0xac, 0xd2, 0x0b, 0x18, 0x3e, 0x31, 0xd4, 0x9f, 0x25, 0xc9, 0xa1, 0x38, 0xf4, 0x9b, 0x1a, 0x53, 0x7e, 0xdc, 0xf0, 0x4b, 0xe3, 0x4a, 0x98, 0x51, 0xa7, 0xaf, 0x9d, 0xb6, 0x99, 0x0e, 0xd8, 0x3d], rfl⟩
  ask := ⟨[0x41, 0xd4, 0x7c, 0xc9, 0x63, 0x13, 0xb4, 0x82, 0x1d, 0xfc, 0x12, 0x96, 0x51, 0xc3, 0x13, 0x7f, 0x44, 0xd9, 0xca, 0xd1, 0x6b, 0x3d, 0xc0, 0x81, 0x33, 0xc3, 0xd2, 0xdf, 0x0d, 0x0c, 0x53, 0x20], rfl⟩
  ak := ⟨[0x6d, 0xe1, 0x34, 0x98, 0x30, 0xd6, 0x6d, 0x7b, 0x97, 0xfe, 0x23, 0x1f, 0xc7, 0xb0, 0x2a, 0xd6, 0x43, 0x23, 0x62, 0x9c, 0xfe, 0xd1, 0xe3, 0xaa, 0x24, 0xef, 0x05, 0x2f, 0x56, 0xe4, 0x00, 0x2a], rfl⟩
  nk := ⟨[0xa8, 0xb7, 0x3d, 0x97, 0x9b, 0x6e, 0xaa, 0xda, 0x89, 0x24, 0xbc, 0xbd, 0xc6, 0x3a, 0x9e, 0xf4, 0xe8, 0x73, 0x46, 0xf2, 0x30, 0xab, 0xa6, 0xbb, 0xe1, 0xe2, 0xb4, 0x3c, 0x5b, 0xea, 0x6b, 0x22], rfl⟩
  rivk := ⟨[0xda, 0xcb, 0x2f, 0x2a, 0x9c, 0xed, 0x36, 0x31, 0x71, 0x82, 0x1a, 0xaf, 0x5d, 0x8c, 0xd9, 0x02, 0xbc, 0x5e, 0x3a, 0x5a, 0x41, 0xfb, 0x51, 0xae, 0x61, 0xa9, 0xf0, 0x2d, 0xc8, 0x9d, 0x1d, 0x12], rfl⟩
  ivk := ⟨[0x56, 0x3a, 0x6d, 0xb6, 0x0c, 0x74, 0xc2, 0xdb, 0x08, 0x49, 0x2c, 0xba, 0xe3, 0xbb, 0x08, 0x3f, 0x1a, 0xea, 0xbf, 0xfb, 0xcf, 0x42, 0x55, 0x1d, 0x0a, 0xc6, 0x4f, 0x26, 0x90, 0x53, 0x67, 0x11], rfl⟩
  ovk := ⟨[0x71, 0xcd, 0x30, 0x64, 0x0f, 0xdb, 0x63, 0xf8, 0xd1, 0x30, 0x50, 0x29, 0xe9, 0x40, 0xe5, 0x3f, 0xd5, 0xec, 0x04, 0xa8, 0xcc, 0xad, 0x41, 0x95, 0x78, 0xc2, 0x42, 0xfe, 0xc0, 0x5b, 0x9a, 0xf7], rfl⟩
  dk := ⟨[0x9d, 0x9b, 0xd4, 0x45, 0x25, 0xe7, 0xae, 0x06, 0xb0, 0x3a, 0xe6, 0xd4, 0xae, 0xcd, 0xe6, 0xae, 0x09, 0x27, 0xa7, 0xc6, 0x67, 0xd5, 0xd9, 0xf8, 0x17, 0x6b, 0x54, 0x46, 0x95, 0xdf, 0xec, 0x11], rfl⟩
  defaultD := ⟨[0x78, 0x07, 0xca, 0x65, 0x08, 0x58, 0x81, 0x4d, 0x50, 0x22, 0xa8], rfl⟩
  defaultPkD := ⟨[0x3d, 0x3d, 0xe4, 0xd5, 0x2c, 0x77, 0xfd, 0x0b, 0x63, 0x0a, 0x40, 0xdc, 0x38, 0x21, 0x24, 0x87, 0xb2, 0xff, 0x6e, 0xee, 0xf5, 0x6d, 0x8c, 0x6a, 0x61, 0x63, 0xe8, 0x54, 0xaf, 0xf0, 0x41, 0x89], rfl⟩
  internalRivk := ⟨[0x8a, 0x22, 0xa7, 0xf5, 0xa1, 0xe9, 0x1a, 0x92, 0xad, 0x39, 0x4b, 0x18, 0xeb, 0x73, 0x38, 0xb5, 0x92, 0x47, 0x0d, 0xd4, 0x2b, 0xe8, 0xef, 0x84, 0xc9, 0x3e, 0x7c, 0xd8, 0x45, 0xec, 0xfa, 0x32], rfl⟩
  internalIvk := ⟨[0x12, 0x11, 0x83, 0xcb, 0x3b, 0x8d, 0x06, 0xf5, 0x99, 0xbb, 0x38, 0xb3, 0x73, 0x22, 0x85, 0x1e, 0x5f, 0xc9, 0x5a, 0xd0, 0xc9, 0x70, 0x7e, 0xe8, 0x5f, 0xb6, 0x5e, 0x21, 0xf1, 0xa3, 0x0d, 0x13], rfl⟩
  internalOvk := ⟨[0x93, 0x25, 0x2b, 0x24, 0xb4, 0x91, 0xd9, 0xc9, 0xc9, 0x97, 0x65, 0xc8, 0x4d, 0x4a, 0xc7, 0xc2, 0xbf, 0xf0, 0x54, 0xcd, 0x9c, 0xad, 0xcd, 0x3e, 0x01, 0xb2, 0x6f, 0x21, 0xe2, 0x84, 0x09, 0x09], rfl⟩
  internalDk := ⟨[0x6e, 0xea, 0x18, 0xfd, 0x0d, 0x50, 0x70, 0x7f, 0x90, 0xdf, 0x00, 0x2c, 0xbf, 0x30, 0x9e, 0xca, 0x3c, 0x00, 0xd3, 0x98, 0xae, 0xde, 0x1f, 0xdc, 0x2a, 0xbf, 0xfc, 0x88, 0x35, 0x38, 0x59, 0xaf], rfl⟩
  noteV := 4481649511318637270
  noteRho := ⟨[0xa5, 0x1b, 0x00, 0x52, 0xad, 0x80, 0x84, 0xa8, 0xb9, 0xda, 0x94, 0x8d, 0x32, 0x0d, 0xad, 0xd6, 0x4f, 0x54, 0x31, 0xe6, 0x1d, 0xdf, 0x65, 0x8d, 0x24, 0xae, 0x67, 0xc2, 0x2c, 0x8d, 0x13, 0x09], rfl⟩
  noteRseed := ⟨[0x13, 0x1f, 0xc0, 0x0f, 0xe7, 0xf2, 0x35, 0x73, 0x42, 0x76, 0xd3, 0x8d, 0x47, 0xf1, 0xe1, 0x91, 0xe0, 0x0c, 0x7a, 0x1d, 0x48, 0xaf, 0x04, 0x68, 0x27, 0x59, 0x1e, 0x97, 0x33, 0xa9, 0x7f, 0xa6], rfl⟩
  noteCmx := ⟨[0xc7, 0xad, 0x79, 0x4c, 0x56, 0x3e, 0x32, 0xca, 0xd4, 0x7d, 0x47, 0xdc, 0xda, 0x78, 0x84, 0x69, 0x28, 0x48, 0xdc, 0xe2, 0x9b, 0xa4, 0xfe, 0xbd, 0x93, 0x20, 0x2b, 0x73, 0x05, 0xf9, 0x03, 0x00], rfl⟩
  noteNf := ⟨[0x2c, 0xf0, 0x67, 0xbc, 0x21, 0xd6, 0x63, 0x20, 0xe5, 0x1b, 0x9f, 0xbd, 0xc8, 0xae, 0x03, 0x1c, 0x2c, 0x96, 0x37, 0x3d, 0xb4, 0x3b, 0x7b, 0x1a, 0x45, 0x05, 0x6c, 0x00, 0xc6, 0x5d, 0x43, 0x20], rfl⟩

/-- Intermediate values for `keys1` (computed outside; checked below). -/
def keysWitness1 : KeyWitness where
  neg := true
  ask := 14327279653281106661287274203883945323509004941205560167694726587545890794432
  ax := 18998715562171788812655460568578022800191016796495708288921396328157754483053
  ay := 14136434053297856440816033329520904821609659819467110020505750214590587111855
  ivk := (3694874815872464464383145209020223018808935384196407416667764251731589154200, 23065010022593144104399041733203372510134816221152228169586120991541457289747, 1284869414224573999226208813874276124283859827889555751312821300207920038923, 556954846626549379862024004572453322993513237323812309702034295476531595542, 7871880404801489910415369741413616406424624220445921384698209058331439217238, 11742689215604896635831839050898690563864953852429398683633336037562089238519)
  ivkI := (3694874815872464464383145209020223018808935384196407416667764251731589154200, 23065010022593144104399041733203372510134816221152228169586120991541457289747, 6993076857077956344855179197898218980640417405256895834413019388708635157733, 25573946410424020938042045706704000902278327455184633501379205270658960778612, 8618044620440122067488173841270926280904209217248522033164329397043146723602, 9525667693271648987635304732223762157168952119315392353487831848956251660174)
  gx := 17963861599249152091970708905990655753440305408842056438473950484472089710489
  gy := 11040341502839944682326041772086710119707236881902133688338850795383880818806
  px := 4187321842515720426295026707471904381557980046773588212371449316041130523965
  py := 28356506282664974500099523527822127846329611165487154224928067422147982082875
  psi := 13488791136252479660161645583776548517977516637187003337399346538329515727885
  rcm := 12974103106525173646876136615184583334741660805573174100245000818818780641063
  cm := (13055753561113107768102523657608530658311870861702535321377132592585628894714, 8416586490367690550264567724447639923075606764049497857219971243120805533108, 22727582414480508333487261352327670053629541574715557397424019517258487365749, 10200537350466537503657491338633549321210674240801457309010948437933321645829, 7019222963074404410327414593973643172040870690808846178398117162674400711, 12274325046057899916835982670719023785984787141251664369329915985946651239566)
  s := 10203081720493524768530364430394070711668490706208662122283209451736946295628
  sx := 10863388216944751307595654701322644571409021315862255825601919653207372096147
  sy := 13543116051409340584891152371482633648138387929985502174985310854716650497410
  nx := 14593037108528804887794599977181606908936749999171440964446945554764164231212
  ny := 6205447040050741451126420861484326535594733197055513394518177694278710584565

set_option maxRecDepth 100000 in
theorem keysOk1 : keysOk keys1 keysWitness1 = true := by decide +kernel

/-- The test of `keys.rs:1027-1080` passes for vector 1, whose `ask` is negated. -/
theorem keys1_passes : keysTest Prims.zcash keys1 = .ret () :=
  keysOk_sound keysOk1

set_option maxRecDepth 100000 in
/-- The default diversifier of vector 1, which the Rust test takes as given, is the one at index 0: FF1 with AES-256. -/
theorem keys1_default_diversifier : dkGet Prims.zcash keys1.dk (Bytes.replicate 11 0) = keys1.defaultD := by decide +kernel

/-- `test_vectors/keys.rs:210-300`. -/
def keys2 : KeyVector where
  sk := ⟨[0xb6, 0x79, 0xf3, 0xdc, 0x60, 0x1d, 0x00, 0x82, 0x85, 0xed, 0xcb, 0xda, 0xe6, 0x9c, 0xe8, 0xfc, 0x1b, 0xe4, 0xaa, 0xc0, 0x0f, 0xf2, 0x71, 0x1e, 0xbd, 0x93, 0x1d, 0xe5, 0x18, 0x85, 0x68, 0x78], rfl⟩
  ask := ⟨[0xce, 0x8b, 0x65, 0xa7, 0x23, 0x65, 0x11, 0xb2, 0xea, 0xf1, 0x9f, 0x72, 0xa3, 0xd6, 0xdb, 0x7d, 0x06, 0x2b, 0x66, 0xf5, 0x16, 0x30, 0x7d, 0x19, 0x87, 0x06, 0xe5, 0xf6, 0x92, 0x8e, 0x16, 0x15], rfl⟩
  ak := ⟨[0xef, 0xa5, 0xf1, 0xde, 0xbe, 0xea, 0xd0, 0x94, 0x0a, 0x61, 0x9c, 0xe0, 0x01, 0x7b, 0xed, 0xb4, 0x26, 0x65, 0x7b, 0x2d, 0x07, 0x40, 0x66, 0x64, 0xd8, 0x95, 0x31, 0x2e, 0xa1, 0xc3, 0xb3, 0x34], rfl⟩
  nk := ⟨[0x04, 0x51, 0x4e, 0xa0, 0x48, 0xb9, 0x43, 0x63, 0xde, 0xa7, 0xcb, 0x3b, 0xe8, 0xd6, 0x25, 0x82, 0xac, 0x52, 0x92, 0x2e, 0x08, 0x65, 0xf6, 0x62, 0x74, 0x3b, 0x05, 0xea, 0xe8, 0x71, 0x5f, 0x17], rfl⟩
  rivk := ⟨[0x2a, 0x32, 0x8f, 0x99, 0x4f, 0x6e, 0x5a, 0xd2, 0x9c, 0xa8, 0x11, 0xed, 0x34, 0x49, 0x68, 0xea, 0x2c, 0xfc, 0x3f, 0xd2, 0x31, 0x03, 0x0e, 0x37, 0xbb, 0xd5, 0x6d, 0xb4, 0x26, 0x40, 0x23, 0x1c], rfl⟩
  ivk := ⟨[0x60, 0x9e, 0xcb, 0xc3, 0xd8, 0xce, 0xe3, 0xbe, 0x2b, 0x2a, 0x23, 0x62, 0x95, 0x1f, 0x58, 0xb7, 0x44, 0x82, 0xad, 0xfa, 0xee, 0xe1, 0xc4, 0x0f, 0x94, 0x03, 0x04, 0x40, 0xf5, 0x58, 0xaa, 0x30], rfl⟩
  ovk := ⟨[0xdf, 0xd3, 0x0f, 0x62, 0xaa, 0x31, 0x9c, 0x6f, 0x53, 0xe2, 0x4c, 0x1f, 0x48, 0xc1, 0xde, 0x96, 0x1b, 0x90, 0x01, 0xcb, 0x98, 0x8b, 0x80, 0xb3, 0xed, 0xa2, 0x44, 0xfc, 0xfe, 0xb2, 0x5f, 0x83], rfl⟩
  dk := ⟨[0x23, 0x6b, 0xc3, 0xf3, 0xd0, 0x2f, 0x96, 0x02, 0x80, 0xee, 0xde, 0xde, 0x10, 0x8d, 0x36, 0x85, 0x04, 0x9f, 0x23, 0x9a, 0xa6, 0x7c, 0x48, 0x55, 0x8f, 0x7c, 0x01, 0xd3, 0xfd, 0x46, 0x9e, 0xcd], rfl⟩
  defaultD := ⟨[0x64, 0x24, 0xf7, 0x1a, 0x3a, 0xd1, 0x97, 0x42, 0x64, 0x98, 0xf4], rfl⟩
  defaultPkD := ⟨[0xec, 0xcb, 0x6a, 0x57, 0x80, 0x20, 0x42, 0x37, 0x98, 0x72, 0x32, 0xbc, 0x09, 0x8f, 0x89, 0xac, 0xc4, 0x75, 0xc3, 0xf7, 0x4b, 0xd6, 0x9e, 0x2f, 0x35, 0xd4, 0x47, 0x36, 0xf4, 0x8f, 0x3c, 0x14], rfl⟩
  internalRivk := ⟨[0x0a, 0xa9, 0xaa, 0xaa, 0x2c, 0xf1, 0x84, 0x90, 0xdd, 0xf9, 0xa7, 0xe5, 0x21, 0x07, 0x14, 0x07, 0xea, 0x9b, 0xff, 0xfe, 0x84, 0x34, 0x29, 0xbc, 0x94, 0xa2, 0x88, 0xe8, 0xa6, 0x06, 0xa7, 0x10], rfl⟩
  internalIvk := ⟨[0xa0, 0x6a, 0xbd, 0x29, 0xd5, 0xa1, 0x99, 0xe1, 0xc2, 0x10, 0x25, 0xb0, 0x33, 0x7e, 0x94, 0x1f, 0x6d, 0x4d, 0x84, 0xeb, 0x7c, 0xc3, 0x5a, 0x39, 0x7f, 0x9e, 0x75, 0x3f, 0xda, 0xed, 0x81, 0x0d], rfl⟩
  internalOvk := ⟨[0xf8, 0x2e, 0xb2, 0x49, 0x06, 0xe2, 0x94, 0xff, 0x65, 0x71, 0xac, 0x7d, 0x83, 0x68, 0xea, 0x82, 0x80, 0xd4, 0x22, 0xf3, 0x47, 0x7c, 0xe7, 0x2a, 0xef, 0x5f, 0x9b, 0x9e, 0xca, 0x48, 0x46, 0x8f], rfl⟩
  internalDk := ⟨[0x36, 0x56, 0xb5, 0x45, 0xa5, 0x0a, 0x6b, 0x26, 0x28, 0x74, 0x76, 0x64, 0x1b, 0x2b, 0x68, 0xc6, 0x3c, 0x36, 0xf3, 0x32, 0xe7, 0x45, 0x57, 0xe9, 0x16, 0x05, 0x0f, 0x0b, 0x91, 0x11, 0x17, 0x9b], rfl⟩
  noteV := 14496603531126387959
  noteRho := ⟨[0x32, 0xb4, 0xf4, 0x73, 0xf4, 0x68, 0xa0, 0x08, 0xe7, 0x23, 0x89, 0xfc, 0x03, 0x88, 0x0d, 0x78, 0x0c, 0xb0, 0x7f, 0xcf, 0xaa, 0xbe, 0x3f, 0x1a, 0x84, 0xb2, 0x7d, 0xb5, 0x9a, 0x4a, 0x15, 0x3d], rfl⟩
  noteRseed := ⟨[0x88, 0x2d, 0x2b, 0x21, 0x03, 0x59, 0x65, 0x55, 0xed, 0x94, 0x94, 0xc6, 0xac, 0x89, 0x3c, 0x49, 0x72, 0x38, 0x33, 0xec, 0x89, 0x26, 0xc1, 0x03, 0x95, 0x86, 0xa7, 0xaf, 0xcf, 0x4a, 0x0d, 0x9c], rfl⟩
  noteCmx := ⟨[0x03, 0xce, 0x20, 0xce, 0xa1, 0x94, 0xb7, 0x55, 0x9a, 0x8a, 0x90, 0x47, 0x1d, 0x28, 0xa3, 0xc0, 0x53, 0xc3, 0x72, 0x0a, 0xd4, 0x9f, 0x40, 0xd2, 0x7c, 0x2d, 0xcc, 0xe3, 0x35, 0x00, 0x56, 0x16], rfl⟩
  noteNf := ⟨[0x16, 0xfa, 0x2c, 0x34, 0x97, 0xfc, 0x09, 0xad, 0x90, 0xdd, 0x34, 0x92, 0x02, 0xa2, 0x4b, 0x69, 0x89, 0x2d, 0xc8, 0x06, 0x29, 0xb2, 0xd1, 0xbf, 0xeb, 0xaf, 0x41, 0x70, 0x8f, 0x0f, 0xb1, 0x0c], rfl⟩

/-- Intermediate values for `keys2` (computed outside; checked below). -/
def keysWitness2 : KeyWitness where
  neg := true
  ask := 19409597843520833204717184951454786600593949626786612338334789495877480903731
  ax := 23837883936878984201264994576691451207503510537853760179297146738982557689327
  ay := 22177545532983768281167802158549926075126223431733705940058364662758627064631
  ivk := (20808349942884341447696509628606611178571936143607409955506601386389330463603, 14085318369503957406187853159823248205597303375335967106075677937525858238827, 5417856803260932301908953334991478577659320743245904884333207898746003392148, 5014279997080527000395611006302006374084223543415237650711507897790283869672, 22011994698616200921025591517044581461637961949685029489179048287420537347680, 12764516208759946449226695516116204073795279045561400295680035697748309973053)
  ivkI := (20808349942884341447696509628606611178571936143607409955506601386389330463603, 14085318369503957406187853159823248205597303375335967106075677937525858238827, 8467307168604858852859902566442460941374238473952339039016620678872346275311, 24829067729374649870018923166006397170911458572997653273661606907159985742449, 6109631900774497508056547449310342289989512920495355439013158369205451319968, 2822743781616970717055253984963041754427429646292571895547923459621833239200)
  gx := 7372111213643025212216899784676163140754540351779108252893554633314293447748
  gy := 23160281452750134943398778724936154065895620135692149914286140461997574961776
  px := 9153261329223021123333158711186625371319260139831657186124669650270379756524
  py := 5574621403721538523405700466389545292361170049429153288307511868627463357124
  psi := 4312035403302760873995313249562622167433567470857443067814794739989163073221
  rcm := 24972111475331129968310386081880194879453479956373885471956535617827066809447
  cm := (17948496450944651792131726596195565604886132880476550213109836428278007761793, 7661478984405148535956932811552920618845196914530096968118036420733878052824, 7586867689027406150657788288322440615834949585033051703978941875205075300966, 18187189012720233466834469433502977795079502587876404689316825623271424882557, 10102832969269858992455048756021409860775039055778003520029823676252090846723, 24847490891141920036988784577397084197539220717280997958897275238514808233832)
  s := 16270156360588143790587313284233146879316754661855558256061863382338146885004
  sx := 4021563106724160721857732994655503728203925972063893709184825628559928144657
  sy := 6862620068548362380797093779579120091585821244164026825739644165518504924013
  nx := 5740593506754544757729354639710482661659560582178663138788530626558555912726
  ny := 25959606441353651999506846468591121217417161018430730497413069226001923628198

set_option maxRecDepth 100000 in
theorem keysOk2 : keysOk keys2 keysWitness2 = true := by decide +kernel

/-- The test of `keys.rs:1027-1080` passes for vector 2, whose `ask` is negated. -/
theorem keys2_passes : keysTest Prims.zcash keys2 = .ret () :=
  keysOk_sound keysOk2

set_option maxRecDepth 100000 in
/-- The default diversifier of vector 2, which the Rust test takes as given, is the one at index 0: FF1 with AES-256. -/
theorem keys2_default_diversifier : dkGet Prims.zcash keys2.dk (Bytes.replicate 11 0) = keys2.defaultD := by decide +kernel

/-- `test_vectors/keys.rs:301-391`. -/
def keys3 : KeyVector where
  sk := ⟨[0x73, 0x1e, 0x98, 0x5d, 0x99, 0x58, 0x9c, 0x8b, 0xb8, 0x38, 0xe8, 0xaa, 0xf7, 0x45, 0x53, 0x3e, 0xd9, 0xe8, 0xae, 0x3a, 0x1c, 0xd0, 0x74, 0xa5, 0x1a, 0x20, 0xda, 0x8a, 0xba, 0x18, 0xd1, 0xdb], rfl⟩
  ask := ⟨[0x42, 0x6a, 0x78, 0x44, 0xf3, 0x05, 0xb9, 0xd4, 0xe0, 0x7e, 0xa5, 0x2a, 0x39, 0x00, 0x1c, 0x9b, 0x33, 0x6c, 0xfc, 0x0d, 0x6f, 0xa1, 0x5e, 0xf3, 0xd1, 0x1c, 0x3d, 0x7b, 0x74, 0xf0, 0x8c, 0x2d], rfl⟩
  ak := ⟨[0xb1, 0xe0, 0xac, 0xbc, 0x69, 0xbf, 0x37, 0x7b, 0x85, 0xab, 0xf0, 0xf5, 0xa1, 0x0b, 0xe7, 0x2c, 0x3b, 0x64, 0x00, 0x06, 0xff, 0x08, 0x50, 0x52, 0x80, 0xe4, 0xf0, 0x0f, 0xad, 0xf7, 0x63, 0x28], rfl⟩
  nk := ⟨[0xcf, 0x36, 0xad, 0x6a, 0x06, 0x6c, 0xd2, 0x13, 0xe1, 0xd7, 0x67, 0xab, 0x07, 0x1d, 0xc1, 0x16, 0x78, 0x85, 0xc4, 0x16, 0x8b, 0xc2, 0xe2, 0x17, 0x54, 0x48, 0x56, 0x3a, 0xd1, 0x3f, 0x33, 0x3d], rfl⟩
  rivk := ⟨[0xc4, 0x1b, 0xba, 0xd3, 0x51, 0x05, 0xa8, 0x03, 0x14, 0xb7, 0x96, 0x24, 0xb6, 0x75, 0x24, 0x12, 0x20, 0xb3, 0x31, 0xf1, 0x25, 0x92, 0x61, 0x7b, 0xdb, 0x70, 0x5b, 0xfc, 0xce, 0x72, 0xae, 0x38], rfl⟩
  ivk := ⟨[0xf7, 0x9f, 0xe8, 0x02, 0xe4, 0xd2, 0x43, 0x07, 0xa6, 0xaa, 0xf8, 0x5d, 0x19, 0xf5, 0xe0, 0x83, 0x37, 0x40, 0xba, 0xe5, 0x98, 0xdc, 0x7c, 0x88, 0x0a, 0xc6, 0x09, 0x63, 0x1d, 0xe1, 0x58, 0x19], rfl⟩
  ovk := ⟨[0xf9, 0x63, 0x66, 0xbc, 0x6e, 0xab, 0xd2, 0x32, 0x54, 0x9e, 0xbb, 0x43, 0xb4, 0xed, 0x6f, 0xd8, 0x1d, 0x33, 0x03, 0x73, 0xc5, 0xb5, 0x66, 0x90, 0x4e, 0x9a, 0xf1, 0x1a, 0x6b, 0xab, 0x8d, 0x77], rfl⟩
  dk := ⟨[0x80, 0x3e, 0x34, 0x85, 0x73, 0x02, 0x2b, 0xf8, 0x93, 0x2f, 0x23, 0xee, 0x7a, 0x32, 0x5e, 0xa2, 0x83, 0x87, 0x9c, 0x65, 0x24, 0x12, 0xb8, 0x60, 0x6b, 0xe3, 0x19, 0x8c, 0x4b, 0x78, 0x2c, 0x47], rfl⟩
  defaultD := ⟨[0xdb, 0x8c, 0x30, 0x55, 0x24, 0xbc, 0x0d, 0xea, 0xa8, 0x5d, 0x97], rfl⟩
  defaultPkD := ⟨[0x04, 0xea, 0x8c, 0x13, 0x20, 0xff, 0xbb, 0xad, 0xfe, 0x96, 0xf0, 0xc6, 0xff, 0x16, 0xb6, 0x07, 0x11, 0x1b, 0x55, 0x83, 0xbf, 0xb6, 0xf1, 0xea, 0x45, 0x27, 0x5e, 0xf2, 0xaa, 0x2d, 0x87, 0x9b], rfl⟩
  internalRivk := ⟨[0x9e, 0x45, 0x2a, 0xb7, 0x2c, 0x6c, 0x8e, 0xcc, 0xf2, 0xe4, 0x39, 0xa0, 0xce, 0xc0, 0xa0, 0xac, 0x39, 0x4a, 0x1a, 0xa1, 0x21, 0xac, 0x60, 0x32, 0xa7, 0xeb, 0xc2, 0x9d, 0xb4, 0x85, 0x62, 0x26], rfl⟩
  internalIvk := ⟨[0x3b, 0xa9, 0x3b, 0x0f, 0xc3, 0xf2, 0x7a, 0xb2, 0x17, 0x63, 0x5d, 0x03, 0xf9, 0x0d, 0x0b, 0x84, 0x2d, 0x99, 0xa1, 0x2c, 0xdc, 0x37, 0xa8, 0x1c, 0x18, 0x1e, 0xc0, 0x18, 0xe5, 0xf4, 0x4c, 0x11], rfl⟩
  internalOvk := ⟨[0xe3, 0xc7, 0xf8, 0x6c, 0x1b, 0x23, 0x83, 0xb3, 0xbd, 0x41, 0xad, 0x1a, 0x8f, 0x11, 0xef, 0xa2, 0x55, 0x4a, 0x41, 0x0a, 0x98, 0xc8, 0x92, 0x07, 0xae, 0xb4, 0x31, 0x9b, 0x1a, 0xbd, 0x78, 0x79], rfl⟩
  internalDk := ⟨[0xd7, 0x1a, 0x68, 0xcf, 0xd6, 0xc7, 0x68, 0xf4, 0x30, 0x73, 0xf6, 0x98, 0x18, 0x9a, 0xc7, 0x5e, 0xe4, 0x21, 0xb4, 0x20, 0x4b, 0xb6, 0xf3, 0xc5, 0xd0, 0xfc, 0x43, 0x28, 0x49, 0xaa, 0x71, 0x61], rfl⟩
  noteV := 6792346249443327211
  noteRho := ⟨[0x4b, 0x19, 0x22, 0x32, 0xec, 0xb9, 0xf0, 0xc0, 0x24, 0x11, 0xe5, 0x25, 0x96, 0xbc, 0x5e, 0x90, 0x45, 0x7e, 0x74, 0x59, 0x39, 0xff, 0xed, 0xbd, 0x12, 0x86, 0x3c, 0xe7, 0x1a, 0x02, 0xaf, 0x11], rfl⟩
  noteRseed := ⟨[0x7d, 0x41, 0x7a, 0xdb, 0x3d, 0x15, 0xcc, 0x54, 0xdc, 0xb1, 0xfc, 0xe4, 0x67, 0x50, 0x0c, 0x6b, 0x8f, 0xb8, 0x6b, 0x12, 0xb5, 0x6d, 0xa9, 0xc3, 0x82, 0x85, 0x7d, 0xee, 0xcc, 0x40, 0xa9, 0x8d], rfl⟩
  noteCmx := ⟨[0xa9, 0xb1, 0x1b, 0xaf, 0x30, 0x34, 0xb6, 0x5c, 0x64, 0x24, 0x84, 0x1b, 0xfe, 0x02, 0x3f, 0x8e, 0xda, 0x13, 0x13, 0xc3, 0x0a, 0xa2, 0x7d, 0xe9, 0x2e, 0x21, 0xa1, 0x08, 0x31, 0x6e, 0x82, 0x19], rfl⟩
  noteNf := ⟨[0x72, 0xd6, 0x30, 0x89, 0x60, 0x35, 0x1f, 0x7b, 0x26, 0xfa, 0x64, 0x60, 0x3f, 0xe4, 0xdf, 0xd8, 0x67, 0xbd, 0x5e, 0xb3, 0x67, 0xba, 0x2b, 0x7c, 0xa4, 0x91, 0xc9, 0x23, 0xc0, 0xea, 0xd2, 0x22], rfl⟩

/-- Intermediate values for `keys3` (computed outside; checked below). -/
def keysWitness3 : KeyWitness where
  neg := false
  ask := 20603096334771556539603040158721077022741452255149119825218310117347638667842
  ax := 18269141199840928105706937057741565994887060651351974737914087817181039222961
  ay := 24192886294005080479009197504374873839222378640826792883195853727143830577176
  ivk := (20371250849758987353783603097574551450776512265085772517640947320553506593654, 2247029613191258494667361033869471643457228664085727309372912997804824335901, 6498776283944613476270307654304900789954407808272077963185809318258542874823, 5397379254280223088494062916991265909701523115276593231988631870559683626044, 11464857441478576254848745553460464117573460970838484311841271319678255931383, 22528520994700137936016683603684600402369148518913157350350387587933184813447)
  ivkI := (20371250849758987353783603097574551450776512265085772517640947320553506593654, 2247029613191258494667361033869471643457228664085727309372912997804824335901, 5577185353355540495056453011479577055572901941322569396740524741316539802047, 11682027599240554905215103297486169305567280512800802357865992510987436710342, 7825289005381617064746718287443792716912694979518015765425684373554859845947, 10639528381552122008868708038442810572167495379271739230243492975379586772539)
  gx := 2434402709610771370084217812430266366626706268054099865823770162660649995300
  gy := 9490621196557209645927676018608488319516604001858310345806994848015775118849
  px := 12451286452794120411905145403597292657348732435246407915519683553701770619396
  py := 8684664670432472276636996096410361713974732101237469481459062570592309793161
  psi := 19106622963798523131191072330778544728985371461159343487915091401638086895754
  rcm := 25352388971975278571050513709602603107772833976648171177397267979961783819347
  cm := (21602097240642659380989582953018775838354741083633577715404841709914458348532, 28249044803515401402269387831651601051227474815437390553185539394756140291945, 11407944467797995481168173534751576554492409033781314603248047135273998876388, 3873980626376579129777341459137021025574868970942533746521767233248538449649, 11538271847047166539784853477811984222531982279795514297663275854554212315561, 23913936030589334703028362031186844921689860472434031632826772713222841568316)
  s := 21874507611317847981966171095669503313211584643329952469377911300688326500046
  sx := 3915299374265969272403337915363160489694992940900842954124826536728738859290
  sy := 22792027488920879783755398200580650021998269603533911419940296575852677067394
  nx := 15751294924158277849665268002876716687967663352045972093169720513281437783666
  ny := 669511847892815062041029330853445210141729271203940400007450720288250578278

set_option maxRecDepth 100000 in
theorem keysOk3 : keysOk keys3 keysWitness3 = true := by decide +kernel

/-- The test of `keys.rs:1027-1080` passes for vector 3, whose `ask` is not negated. -/
theorem keys3_passes : keysTest Prims.zcash keys3 = .ret () :=
  keysOk_sound keysOk3

set_option maxRecDepth 100000 in
/-- The default diversifier of vector 3, which the Rust test takes as given, is the one at index 0: FF1 with AES-256. -/
theorem keys3_default_diversifier : dkGet Prims.zcash keys3.dk (Bytes.replicate 11 0) = keys3.defaultD := by decide +kernel

/-- `test_vectors/keys.rs:392-482`. -/
def keys4 : KeyVector where
  sk := ⟨[0x5f, 0x29, 0x35, 0x39, 0x5e, 0xe4, 0x76, 0x2d, 0xd2, 0x1a, 0xfd, 0xbb, 0x5d, 0x47, 0xfa, 0x9a, 0x6d, 0xd9, 0x84, 0xd5, 0x67, 0xdb, 0x28, 0x57, 0xb9, 0x27, 0xb7, 0xfa, 0xe2, 0xdb, 0x58, 0x71], rfl⟩
  ask := ⟨[0x11, 0x80, 0x73, 0x28, 0x51, 0x64, 0xe6, 0x55, 0x73, 0x58, 0xfb, 0xc4, 0x1a, 0x81, 0x35, 0xcb, 0x06, 0x2f, 0x86, 0x76, 0xcb, 0x61, 0xf9, 0xaa, 0x52, 0xd1, 0x9a, 0x09, 0xfa, 0xc5, 0x58, 0x02], rfl⟩
  ak := ⟨[0x0d, 0x26, 0x2d, 0xe3, 0x60, 0x94, 0x33, 0xfe, 0x5b, 0x7c, 0x86, 0x2b, 0xc4, 0x8e, 0xf5, 0x6d, 0x83, 0x20, 0x09, 0xf7, 0x24, 0x2e, 0x1f, 0x7c, 0x77, 0x0a, 0x12, 0x24, 0x1d, 0xfa, 0x28, 0x07], rfl⟩
  nk := ⟨[0x51, 0xba, 0xf3, 0x33, 0xcf, 0xf1, 0xf2, 0xd0, 0xc7, 0xe3, 0xcf, 0xf4, 0xd3, 0x01, 0x29, 0x9d, 0xc1, 0xef, 0xe9, 0x83, 0x00, 0x31, 0x4a, 0x54, 0x19, 0x38, 0x02, 0x9b, 0x45, 0xcc, 0x15, 0x21], rfl⟩
  rivk := ⟨[0x22, 0x8f, 0xeb, 0x79, 0x21, 0x98, 0x73, 0xc7, 0xa7, 0x60, 0x6e, 0x52, 0x97, 0x3c, 0x85, 0xf4, 0x60, 0x46, 0x5a, 0x60, 0x59, 0x08, 0x39, 0x19, 0xed, 0x73, 0xeb, 0x80, 0x5c, 0x11, 0x83, 0x01], rfl⟩
  ivk := ⟨[0x76, 0xf4, 0x9c, 0xf8, 0xa3, 0x19, 0x21, 0x85, 0x61, 0x6a, 0x9a, 0x0d, 0xa0, 0xc7, 0x6e, 0xc2, 0xc2, 0x75, 0x61, 0x59, 0xbc, 0xe1, 0x86, 0xa1, 0x86, 0x2b, 0x6e, 0x6e, 0x59, 0x44, 0x2d, 0x11], rfl⟩
  ovk := ⟨[0xeb, 0x72, 0xb6, 0xc3, 0x1e, 0x83, 0x7f, 0xd8, 0x37, 0xaa, 0xcb, 0x61, 0xfa, 0xba, 0xce, 0x75, 0xa1, 0x9d, 0xd9, 0xdd, 0x5b, 0x4b, 0x3a, 0x3e, 0xe7, 0x23, 0xc1, 0x4d, 0xa7, 0x7b, 0x4b, 0xe8], rfl⟩
  dk := ⟨[0xee, 0x19, 0xf8, 0xdd, 0xd9, 0xda, 0x06, 0x34, 0x24, 0x51, 0x43, 0xc4, 0xb4, 0x3a, 0xfc, 0x7d, 0x78, 0xc5, 0x49, 0xc8, 0x20, 0x54, 0xa9, 0xd8, 0x40, 0x07, 0xb5, 0x62, 0x17, 0xdb, 0xfd, 0xd6], rfl⟩
  defaultD := ⟨[0xaa, 0xe3, 0x6e, 0x09, 0x4d, 0xe0, 0x7b, 0xc1, 0x6f, 0x89, 0x8e], rfl⟩
  defaultPkD := ⟨[0xb6, 0x53, 0x3d, 0xcb, 0xff, 0xf0, 0xf6, 0xc1, 0xce, 0xef, 0xa8, 0x47, 0x99, 0xbd, 0xa3, 0xde, 0x73, 0x34, 0x32, 0x6c, 0xcd, 0x65, 0xf7, 0xce, 0x92, 0xff, 0x3d, 0x9e, 0x6e, 0x1f, 0x14, 0x0b], rfl⟩
  internalRivk := ⟨[0x25, 0x44, 0x06, 0x72, 0x3b, 0x06, 0x67, 0xaf, 0x27, 0xe5, 0x1c, 0xb3, 0xce, 0x8f, 0xa1, 0x38, 0x81, 0x64, 0xd9, 0x43, 0x76, 0xc8, 0x50, 0xbd, 0xdb, 0x39, 0xe9, 0xbe, 0xa5, 0xfa, 0x96, 0x05], rfl⟩
  internalIvk := ⟨[0xba, 0xd4, 0x83, 0x7b, 0xa7, 0x88, 0x22, 0xb8, 0xb1, 0x65, 0xb0, 0xa1, 0x6e, 0x11, 0x04, 0xc7, 0x05, 0xc3, 0xc0, 0xe3, 0x82, 0xd3, 0xf1, 0x3c, 0x19, 0x5c, 0x0e, 0xf3, 0x11, 0xbb, 0x80, 0x04], rfl⟩
  internalOvk := ⟨[0xb9, 0x11, 0x3a, 0x95, 0x2d, 0xcc, 0x1e, 0x15, 0xc3, 0x4d, 0x13, 0x66, 0x03, 0xa2, 0xef, 0x25, 0x4a, 0x38, 0x75, 0x5a, 0x55, 0x7f, 0xa9, 0xf8, 0x8c, 0x14, 0x3b, 0xd3, 0x07, 0x64, 0x41, 0xb0], rfl⟩
  internalDk := ⟨[0x02, 0xb5, 0x2c, 0x6e, 0xd9, 0xad, 0x49, 0xfb, 0x38, 0xe4, 0x44, 0x7c, 0x69, 0xb5, 0x70, 0xeb, 0xd0, 0x55, 0xe4, 0xc7, 0xfd, 0x91, 0xc0, 0x20, 0xff, 0x43, 0x46, 0x1d, 0x14, 0xe0, 0x2f, 0x29], rfl⟩
  noteV := 4079549063511228677
  noteRho := ⟨[0x26, 0x70, 0xdc, 0x82, 0xd3, 0x90, 0x26, 0xc6, 0xcb, 0x4c, 0xd4, 0xb0, 0xf7, 0xf5, 0xaa, 0x2a, 0x4f, 0x5a, 0x53, 0x41, 0xec, 0x5d, 0xd7, 0x15, 0x40, 0x6f, 0x2f, 0xdd, 0x2a, 0xfa, 0x73, 0x3f], rfl⟩
  noteRseed := ⟨[0x5f, 0x64, 0x1c, 0x8c, 0x21, 0x86, 0x2a, 0x1b, 0xaf, 0xce, 0x26, 0x09, 0xd9, 0xee, 0xcf, 0xa1, 0x58, 0xcf, 0xb5, 0xcd, 0x79, 0xf8, 0x80, 0x08, 0xe3, 0x15, 0xdc, 0x7d, 0x83, 0x88, 0xe7, 0x6c], rfl⟩
  noteCmx := ⟨[0x0f, 0xfb, 0xca, 0x1d, 0x59, 0x21, 0xfa, 0x0a, 0x8c, 0x51, 0x16, 0xae, 0x13, 0x7e, 0x37, 0xf2, 0xc1, 0x18, 0xd5, 0x21, 0x25, 0x62, 0x8d, 0x8a, 0x3f, 0x41, 0x2c, 0xe0, 0xe6, 0x53, 0x0e, 0x04], rfl⟩
  noteNf := ⟨[0xe6, 0x2b, 0x8e, 0xd8, 0x35, 0x40, 0x14, 0x6c, 0xd2, 0x3c, 0xac, 0x74, 0xee, 0xd7, 0xd7, 0x73, 0xd8, 0x02, 0x24, 0xa5, 0xaa, 0x30, 0xd6, 0x8e, 0x35, 0x57, 0x2e, 0xe8, 0x83, 0xd1, 0xb7, 0x04], rfl⟩

/-- Intermediate values for `keys4` (computed outside; checked below). -/
def keysWitness4 : KeyWitness where
  neg := false
  ask := 1061474623895514045915799280064117882362338680959387965110452991976935751697
  ax := 3238590044897815170087024632758561741629736728023843092645886805537637344781
  ay := 19771727490423021481003810306975698324638924067289214402929041093567941473672
  ivk := (12064323253524106782283962984823800566991491935431848698752712889795316010467, 2041870138216930725415563160354292611701845758393412208746248808038544178438, 6207223410280758472697513417855128010558058159238875636549781630695162194712, 16915897703391187511485121517724186395382195316650773477636817358160383247941, 7769298273647064434218033402049078858497119469722782957153151612819399832694, 19498576003270103754372940054348969088223425290286784805233068243107112389308)
  ivkI := (12064323253524106782283962984823800566991491935431848698752712889795316010467, 2041870138216930725415563160354292611701845758393412208746248808038544178438, 13796567579957075747723722238376399865040841923201239809469926385898629190017, 26917755500599064230083989777804685910417268830286701756109299776163809404385, 2036698929107436062801079399138776799943968284111325694116190402021087761594, 7246602584136957654632466326467502283724127672229334627118820603415629445618)
  gx := 2773375021282902857980726884099695938330413869550378779577177899091220393947
  gy := 9165177196458363054509522522534052461965968678058635935382976395734711335349
  px := 5010995212107228571610144193717821372085025844508807591582816792263270421430
  py := 6191807909397499672201133782176877123816955241569228060480468951336725356026
  psi := 15109688002692847609443087773623692811197609751771774546008761743754337242519
  rcm := 11806782505095401708854540626563570212102029894693933934187213107005115309680
  cm := (315270404177200416121000235133103921368113309372153920322973378616571881800, 27600607986132142550994576544580770188702814003775290769308862040116107522096, 21120473233876243256642779785350186967191335887264970050399953490891817129849, 4342017942899813166511606284389965879184355051628037372900254284053447342366, 1834566322582638729263893906054879733008707446356201601735667437661560961807, 15673878683302721218016554167720394772885768041662157803686420861572089340070)
  s := 22314924009407487300406295224139541948850063367538480146827238472415216413872
  sx := 11732902721408231935637528147485096244852100548649593705129575519704389570920
  sy := 4159902423992895226474677933169295099366505868710147000238500786172339525291
  nx := 2134030428378517619685475944837277318656664535718053643954979709086113606630
  ny := 10615816656824469518464733019857981783921796491744237215868425569026133714774

set_option maxRecDepth 100000 in
theorem keysOk4 : keysOk keys4 keysWitness4 = true := by decide +kernel

/-- The test of `keys.rs:1027-1080` passes for vector 4, whose `ask` is not negated. -/
theorem keys4_passes : keysTest Prims.zcash keys4 = .ret () :=
  keysOk_sound keysOk4

set_option maxRecDepth 100000 in
/-- The default diversifier of vector 4, which the Rust test takes as given, is the one at index 0: FF1 with AES-256. -/
theorem keys4_default_diversifier : dkGet Prims.zcash keys4.dk (Bytes.replicate 11 0) = keys4.defaultD := by decide +kernel

/-- `test_vectors/keys.rs:483-573`. -/
def keys5 : KeyVector where
  sk := ⟨[0x17, 0x82, 0xfd, 0x27, 0x95, 0xd1, 0x8a, 0x76, 0x36, 0x24, 0xc2, 0x5f, 0xa9, 0x59, 0xcc, 0x97, 0x48, 0x9c, 0xe7, 0x57, 0x45, 0x82, 0x4b, 0x77, 0x86, 0x8c, 0x53, 0x23, 0x9c, 0xfb, 0xdf, 0x73], rfl⟩
  ask := ⟨[0xf6, 0xef, 0x32, 0x8d, 0x24, 0x76, 0x1d, 0x6d, 0x3c, 0xcd, 0x25, 0xd4, 0x71, 0x96, 0xe8, 0x10, 0x9c, 0x03, 0x8f, 0xe1, 0x7c, 0x59, 0xa7, 0xf0, 0x5b, 0x98, 0xd6, 0x6b, 0xeb, 0xc6, 0x41, 0x24], rfl⟩
  ak := ⟨[0xd1, 0x17, 0x87, 0xca, 0x58, 0x2f, 0x94, 0x8e, 0x45, 0x07, 0x18, 0xb3, 0x69, 0x98, 0xdf, 0x28, 0xbb, 0x0f, 0x10, 0x21, 0xea, 0x84, 0x3f, 0x86, 0x7f, 0x8a, 0x17, 0x0f, 0x5c, 0x33, 0x90, 0x1f], rfl⟩
  nk := ⟨[0x9e, 0x99, 0x7d, 0x9d, 0x26, 0x97, 0x87, 0x26, 0x8e, 0x09, 0x2a, 0x7c, 0x85, 0x41, 0x7d, 0xa5, 0x30, 0xea, 0x42, 0xfa, 0xc6, 0x68, 0xa7, 0x49, 0xaf, 0x55, 0xdf, 0xb7, 0x1c, 0xdb, 0xbe, 0x09], rfl⟩
  rivk := ⟨[0x13, 0x6c, 0x6f, 0xe2, 0xe2, 0xb7, 0x9c, 0x51, 0x56, 0xdb, 0x50, 0x47, 0xd8, 0xd5, 0xe7, 0x95, 0xdf, 0xc0, 0xbd, 0xc0, 0x88, 0x08, 0x53, 0xa4, 0x4a, 0xdb, 0x73, 0x92, 0xc0, 0x2f, 0x94, 0x1b], rfl⟩
  ivk := ⟨[0x02, 0x8b, 0x64, 0x05, 0x64, 0xb2, 0x49, 0x05, 0xde, 0x92, 0x92, 0xba, 0x5b, 0x98, 0x10, 0xad, 0xdd, 0x86, 0xbe, 0xd0, 0xfb, 0x3b, 0x2d, 0x6b, 0x37, 0xf2, 0x6d, 0xd2, 0x38, 0xa7, 0xdb, 0x13], rfl⟩
  ovk := ⟨[0x98, 0xd6, 0xa4, 0xbf, 0x68, 0x01, 0xd8, 0xba, 0x0d, 0x0b, 0x67, 0xea, 0x7b, 0x80, 0x52, 0x07, 0xab, 0xc0, 0x34, 0x8f, 0xc5, 0x62, 0x00, 0x5a, 0x59, 0xa2, 0x7a, 0x8a, 0x46, 0xfa, 0x6a, 0xdd], rfl⟩
  dk := ⟨[0xd0, 0xba, 0xef, 0x60, 0x12, 0xd3, 0x08, 0xef, 0xbb, 0x76, 0x9a, 0x99, 0xcc, 0xa2, 0x92, 0x8c, 0xed, 0xe8, 0xdb, 0x27, 0x76, 0x45, 0xa7, 0x77, 0xea, 0xf1, 0x72, 0x2c, 0xd0, 0x84, 0x50, 0xb3], rfl⟩
  defaultD := ⟨[0xcc, 0x7c, 0xe7, 0x34, 0xb0, 0x75, 0xa0, 0x1b, 0x92, 0xaa, 0xca], rfl⟩
  defaultPkD := ⟨[0x3d, 0xa5, 0x27, 0x3a, 0x56, 0x67, 0xc7, 0x66, 0xb8, 0x23, 0x12, 0x06, 0x18, 0x0f, 0x15, 0x8a, 0xc0, 0x2a, 0xf3, 0xf0, 0x6e, 0xcc, 0xa6, 0xec, 0x7c, 0x38, 0xc7, 0x5d, 0x33, 0x60, 0x03, 0x20], rfl⟩
  internalRivk := ⟨[0x88, 0xd7, 0xb1, 0x96, 0x99, 0xf3, 0x94, 0xa5, 0x50, 0xbc, 0x9c, 0xdc, 0x6b, 0xf3, 0xfc, 0x71, 0xf6, 0x10, 0xc3, 0x06, 0x56, 0x37, 0x61, 0x53, 0xa6, 0x96, 0x1f, 0xcd, 0x5b, 0x97, 0xfa, 0x19], rfl⟩
  internalIvk := ⟨[0x0a, 0x2d, 0xc9, 0x66, 0x61, 0xb9, 0x27, 0x25, 0x0d, 0x7e, 0x3c, 0xd2, 0xc7, 0xe0, 0x6d, 0x51, 0x74, 0xc6, 0x2c, 0xb1, 0x2e, 0x07, 0x16, 0x7f, 0x19, 0x4f, 0x4c, 0xe6, 0x4e, 0x68, 0x95, 0x02], rfl⟩
  internalOvk := ⟨[0xcc, 0x79, 0x65, 0xf3, 0x3a, 0xc0, 0x1c, 0x60, 0x68, 0x51, 0xb1, 0x29, 0xbd, 0xc9, 0xb6, 0xab, 0xd5, 0xca, 0x5b, 0x9d, 0x24, 0x1d, 0xbd, 0x5c, 0x18, 0xb2, 0x46, 0x9b, 0x7c, 0x8c, 0xc8, 0x9f], rfl⟩
  internalDk := ⟨[0xda, 0xa2, 0x42, 0xd2, 0x0d, 0xfd, 0xce, 0x8f, 0xc1, 0x0f, 0x4d, 0x99, 0x39, 0x7d, 0xa2, 0x2c, 0x49, 0x1d, 0xc0, 0x9e, 0x1b, 0x12, 0x0f, 0x66, 0x93, 0xd6, 0x86, 0xec, 0xd4, 0x03, 0x0a, 0x00], rfl⟩
  noteV := 5706402952489856202
  noteRho := ⟨[0xa1, 0xdf, 0x0e, 0x5b, 0x87, 0xb5, 0xbe, 0xce, 0x47, 0x7a, 0x70, 0x96, 0x49, 0xe9, 0x50, 0x06, 0x05, 0x91, 0x39, 0x48, 0x12, 0x95, 0x1e, 0x1f, 0xe3, 0x89, 0x5b, 0x8c, 0xc3, 0xd1, 0x4d, 0x2c], rfl⟩
  noteRseed := ⟨[0xf6, 0x55, 0x6d, 0xf6, 0xed, 0x4b, 0x4d, 0xdd, 0x3d, 0x9a, 0x69, 0xf5, 0x33, 0x57, 0xd7, 0x76, 0x7f, 0x4f, 0x5c, 0xcb, 0xdb, 0xc5, 0x96, 0x63, 0x12, 0x77, 0xf8, 0xfe, 0xcd, 0x08, 0xcb, 0x05], rfl⟩
  noteCmx := ⟨[0x63, 0xce, 0xe3, 0x7e, 0x3c, 0x7b, 0x4e, 0x6c, 0xc9, 0x39, 0xa2, 0xe6, 0x3a, 0xda, 0x74, 0xf8, 0x5e, 0xa4, 0x8b, 0xa0, 0x7a, 0x4f, 0x92, 0xcc, 0xbd, 0x34, 0xfa, 0xa4, 0x2d, 0xfd, 0x49, 0x16], rfl⟩
  noteNf := ⟨[0x4c, 0x99, 0xbf, 0xa8, 0xc2, 0x0d, 0xba, 0x59, 0xbb, 0x73, 0x47, 0xda, 0x16, 0xc4, 0x3b, 0x73, 0xc8, 0x87, 0x94, 0xc9, 0xeb, 0xcd, 0x0d, 0xd2, 0xb2, 0x5e, 0xe7, 0xbb, 0x83, 0x6f, 0x95, 0x20], rfl⟩

/-- Intermediate values for `keys5` (computed outside; checked below). -/
def keysWitness5 : KeyWitness where
  neg := false
  ask := 16399480500929010808944948499946675898583453710517299270301659780493031436278
  ax := 14276478754377493663811801327946880876693489640360158324968145616298337310673
  ay := 23971016755553682186264584955266788992772909489161119784216386883139645168482
  ivk := (26215541637012652630145381110479935476300994576162070234442465838967297281447, 16333078365843084057338561193522539200956572775849597214190738090720413688312, 18175092247666988895749254018888121758409293487323978842464063221611786718903, 24016841910314147560810351959849527396661487727865494346665405855609807833948, 8982037753826265408319514447204179066226993106825347793352722226469925063426, 16900947689684880013101417870509374403558853928073739665256621602552868705325)
  ivkI := (26215541637012652630145381110479935476300994576162070234442465838967297281447, 16333078365843084057338561193522539200956572775849597214190738090720413688312, 18562961179341163665899684247525251678306026992859798500991206658812786369792, 9332763632926831493989748426979707428865924803302985706338478381947304892957, 1168605818567637076744793354508476488355163466220011712982057034306671947018, 21621555955568650203943958444467991147363829527647451946596399052943363476141)
  gx := 328037229990846596528953253654025977472216213569872061658655293647477898842
  gy := 27339975898563700771596732610363115154281827521047248506043204355626150044071
  px := 14479975648341429249337667629224545218434106487337928668940986408035867403581
  py := 22054689284421471710327353729772326353037132272653859680166773318762066001896
  psi := 13878823240164188260766096925177510505275542928483485891739828471865297297974
  rcm := 13550768259960942897820602299994866985694356861936068040193710147207873468729
  cm := (9209374464204533803015547528517967152667061001085360589416850197149975137596, 11869728731385486940177695298755799706045985353899584512235970937697672705736, 6584481475685056819990661330174996225588038205959498912863920687591591273507, 21933131060512234922617777877561042727153520464231708055116979928748117952018, 10081609876958165255332286650482948046854473150259122872200413793412018589283, 22679243010251720715040164810651677161701101395000553748081177645004791421253)
  s := 13603035277282544553156575040044832576271815193295932387642649392839656362823
  sx := 19998836875481942972505006428947498063830977595523422418623058965543017299862
  sy := 11121271104689751860717972672641740631398214566041253653394792735412782676526
  nx := 14738041012702589447224772832482541525182154004986892183189416005233971009868
  ny := 26579761859019667208835022968482295370925395737505657728537267459179007029158

set_option maxRecDepth 100000 in
theorem keysOk5 : keysOk keys5 keysWitness5 = true := by decide +kernel

/-- The test of `keys.rs:1027-1080` passes for vector 5, whose `ask` is not negated. -/
theorem keys5_passes : keysTest Prims.zcash keys5 = .ret () :=
  keysOk_sound keysOk5

set_option maxRecDepth 100000 in
/-- The default diversifier of vector 5, which the Rust test takes as given, is the one at index 0: FF1 with AES-256. -/
theorem keys5_default_diversifier : dkGet Prims.zcash keys5.dk (Bytes.replicate 11 0) = keys5.defaultD := by decide +kernel

/-- `test_vectors/keys.rs:574-664`. -/
def keys6 : KeyVector where
  sk := ⟨[0x6b, 0x95, 0xe3, 0x02, 0x5b, 0x97, 0x92, 0xff, 0xf7, 0xf2, 0x44, 0xfc, 0x71, 0x62, 0x69, 0xb9, 0x26, 0xd6, 0x2e, 0x95, 0x96, 0xfa, 0x82, 0x5c, 0x6b, 0xf2, 0x1a, 0xff, 0x9e, 0x68, 0x62, 0x5a], rfl⟩
  ask := ⟨[0x75, 0x7d, 0x15, 0x8d, 0x07, 0x35, 0x6b, 0x3b, 0xc2, 0xc9, 0xe5, 0x1c, 0x55, 0x8a, 0x9b, 0x31, 0x6b, 0xdd, 0xbc, 0x36, 0x0b, 0x8b, 0xeb, 0x6e, 0x2a, 0xe3, 0xb0, 0x61, 0x8f, 0x06, 0x2d, 0x2e], rfl⟩
  ak := ⟨[0x44, 0x9a, 0x90, 0xd2, 0xe8, 0xd1, 0xa0, 0x37, 0x64, 0x2a, 0x97, 0x09, 0x6c, 0x91, 0x65, 0x43, 0x46, 0x2a, 0x13, 0x7f, 0xfe, 0xa3, 0x7b, 0xaf, 0x41, 0xef, 0x28, 0x6b, 0xb7, 0x32, 0xbe, 0x2c], rfl⟩
  nk := ⟨[0xfd, 0x31, 0x64, 0xc6, 0x32, 0xbe, 0xc9, 0x4c, 0xe9, 0xfb, 0x2f, 0x30, 0x22, 0x63, 0xb8, 0x84, 0xab, 0xb9, 0xc1, 0x0e, 0x55, 0xe4, 0x48, 0x64, 0x7f, 0x67, 0x98, 0x49, 0x5c, 0x9d, 0x08, 0x3f], rfl⟩
  rivk := ⟨[0xc0, 0xb3, 0x6b, 0x56, 0x07, 0x0f, 0xff, 0x2f, 0xdf, 0x38, 0xeb, 0xa1, 0x1a, 0x74, 0x24, 0x95, 0x71, 0x95, 0x01, 0x4c, 0xba, 0x43, 0xa5, 0x6b, 0xd1, 0xb1, 0x65, 0x8e, 0x66, 0xa3, 0x9d, 0x00], rfl⟩
  ivk := ⟨[0x97, 0x6a, 0x87, 0x88, 0x19, 0x1b, 0x87, 0xe4, 0xc1, 0x3f, 0x2c, 0x6d, 0x23, 0xb4, 0xf3, 0x59, 0x5e, 0x02, 0x28, 0xe2, 0x45, 0xe9, 0x6e, 0xef, 0x1d, 0x24, 0xb2, 0x93, 0x29, 0x6a, 0x19, 0x1c], rfl⟩
  ovk := ⟨[0x1e, 0xd0, 0xed, 0xa5, 0xa4, 0x08, 0x61, 0x31, 0x26, 0x1a, 0x2e, 0xd4, 0x42, 0x92, 0x61, 0xe4, 0x27, 0x6a, 0x26, 0xd4, 0x28, 0x59, 0xfa, 0xbd, 0xa3, 0x1a, 0xa9, 0x67, 0x09, 0x87, 0x43, 0x71], rfl⟩
  dk := ⟨[0x5e, 0x5b, 0x60, 0xc0, 0x5b, 0x53, 0xd0, 0xbc, 0xd2, 0xda, 0x46, 0xa1, 0x31, 0x29, 0x12, 0x51, 0x5c, 0xc7, 0xcf, 0x2d, 0x97, 0x4c, 0x11, 0x7c, 0x8d, 0xde, 0xa9, 0xfa, 0xb6, 0x20, 0xc6, 0x68], rfl⟩
  defaultD := ⟨[0x99, 0xaf, 0x6b, 0xf3, 0xf4, 0x75, 0xbd, 0xe8, 0x89, 0xaa, 0xca], rfl⟩
  defaultPkD := ⟨[0xac, 0xdc, 0xd3, 0x48, 0xca, 0x45, 0xee, 0x58, 0x32, 0x78, 0x30, 0x38, 0x46, 0xca, 0x07, 0x84, 0x59, 0xd5, 0xbe, 0x5c, 0x5d, 0xcf, 0x34, 0x7e, 0x3b, 0x9a, 0x34, 0xcb, 0xa1, 0x24, 0xb4, 0xa3], rfl⟩
  internalRivk := ⟨[0x94, 0x1a, 0x17, 0xe1, 0x20, 0x2a, 0x62, 0x71, 0xa4, 0x4a, 0x01, 0x66, 0x65, 0x53, 0xb5, 0x81, 0xbf, 0x25, 0xef, 0x99, 0xe8, 0xe9, 0x5f, 0x13, 0x2a, 0xce, 0x38, 0x1d, 0x96, 0x01, 0x84, 0x32], rfl⟩
  internalIvk := ⟨[0xa2, 0x76, 0x29, 0xac, 0x1c, 0x62, 0xc9, 0xf4, 0xda, 0xd5, 0x7c, 0x95, 0x30, 0xab, 0x2a, 0x59, 0x80, 0x0d, 0x2e, 0xf4, 0x55, 0xcd, 0x17, 0x44, 0x6f, 0x3f, 0xc6, 0x08, 0x1a, 0x58, 0x1e, 0x3b], rfl⟩
  internalOvk := ⟨[0xe9, 0x89, 0x8e, 0xd6, 0xb6, 0x69, 0xc8, 0xd9, 0xd5, 0x90, 0xb7, 0x59, 0xd0, 0x29, 0x5f, 0xcf, 0xaf, 0x95, 0xe2, 0xda, 0xf7, 0xda, 0x99, 0x1c, 0x27, 0x57, 0xdc, 0xef, 0xe1, 0x62, 0x6e, 0x0e], rfl⟩
  internalDk := ⟨[0x61, 0x0c, 0xbd, 0x9a, 0x57, 0x79, 0x79, 0xe1, 0xf7, 0x1d, 0xa8, 0x10, 0x0f, 0x6f, 0xe6, 0xb8, 0xf6, 0xd1, 0x0a, 0x74, 0x7f, 0xed, 0x2a, 0x1c, 0x91, 0xcb, 0xe1, 0x42, 0x47, 0x5c, 0x30, 0x82], rfl⟩
  noteV := 2558469029534639129
  noteRho := ⟨[0x72, 0x2d, 0xb0, 0x41, 0xa3, 0xef, 0x66, 0xfa, 0x48, 0x3a, 0xfd, 0x3c, 0x2e, 0x19, 0xe5, 0x94, 0x44, 0xa6, 0x4a, 0xdd, 0x6d, 0xf1, 0xd9, 0x63, 0xf5, 0xdd, 0x5b, 0x50, 0x10, 0xd3, 0xd0, 0x25], rfl⟩
  noteRseed := ⟨[0xf0, 0x28, 0x7c, 0x4c, 0xf1, 0x9c, 0x75, 0xf3, 0x3d, 0x51, 0xdd, 0xdd, 0xba, 0x5d, 0x65, 0x7b, 0x43, 0xee, 0x8d, 0xa6, 0x45, 0x44, 0x38, 0x14, 0xcc, 0x73, 0x29, 0xf3, 0xe9, 0xb4, 0xe5, 0x4c], rfl⟩
  noteCmx := ⟨[0x1e, 0x61, 0x9e, 0x46, 0xbb, 0x62, 0xb6, 0x1d, 0x4e, 0x1c, 0xf3, 0x62, 0x2e, 0xa7, 0x0a, 0x90, 0x8d, 0xe7, 0xf0, 0x76, 0xec, 0xf8, 0x7f, 0x54, 0x1e, 0x0b, 0x7b, 0x48, 0xad, 0x4a, 0x26, 0x01], rfl⟩
  noteNf := ⟨[0x3b, 0x94, 0x8d, 0xb2, 0x16, 0x08, 0xe9, 0xac, 0xb2, 0x2a, 0x54, 0x17, 0xb9, 0x8c, 0x0d, 0xed, 0xd5, 0x27, 0xa9, 0x64, 0x87, 0x81, 0x4e, 0x64, 0x20, 0xcb, 0xff, 0x6e, 0x4e, 0xee, 0x4e, 0x31], rfl⟩

/-- Intermediate values for `keys6` (computed outside; checked below). -/
def keysWitness6 : KeyWitness where
  neg := true
  ask := 8062077880545254016298118694741888389139438219980689466722695401337107677836
  ax := 20237816312244448452419395402657249263044801858302684248186929170103128857156
  ay := 17744641979166496198234290891540818504589189969999842507733702213281661839469
  ivk := (18137582393262094764842521974760662698801175603507131996540157012173645443415, 15318460502316024487413986120959457371667084828938105121404107888960325957891, 23184143224089639264104600777478284586311773162391326656638167343524778679904, 16721958436352816616102145476591773424314530025483678013597069612083251612438, 12709663642975681501385488484545353296984391332100266184065780465235392948887, 13180702582464480322892420810005273968038085139183871897542599436162703937244)
  ivkI := (18137582393262094764842521974760662698801175603507131996540157012173645443415, 15318460502316024487413986120959457371667084828938105121404107888960325957891, 22754492076352279416059024344776848957048577740834706349889951000367706744664, 16868422073809650305285558109320016686489586985215211520900159193049273098786, 26740071533917252103904126369110209435207949522972858922016175718895048029858, 5572909805406429788533493736899032962068355381635108914482456281888626002669)
  gx := 4474484302527441238816251517482833331816954767962438924147627611951586949297
  gy := 24313753755969580902027364507979000323014184806187103415587317179946017677998
  px := 16149234996894365253805365805170065631474721135376720616565436416569784917164
  py := 26232623517047974656474329017479068091368094447003816651276692433939105781239
  psi := 519374421734520401743252642301783406673827574848992749324943824340878379223
  rcm := 9626288357268227701321351857318619608665895685194256302575097405907856445491
  cm := (14262563859618599153895816729393697336073827255117628530330872355537845201914, 8445305591512153574208534550999256822443649858816380442545158210930030899591, 8615093578819011373798338210340374026280016172186002505750144394069761825883, 17931456225855432060776364683758001678711488036467095694044026217235296358981, 519968437978383043655658876774401923996062217690859261656603324439458636062, 11638034652430661596027540140297821024587115238464789430850696794713228639721)
  s := 20393889950181627385736974383046726020782101882051346939995173048203061919811
  sx := 25347612053847157272956396757101286071523469817561136536518449437729649617661
  sy := 19326941603741085217534137758615604822522648060186249676218166275354328205413
  nx := 22302788381828722610751964283312205028168208513210378075681116859763277009979
  ny := 28239562262440382493884572904285065840610783311130503156030667538437728563615

set_option maxRecDepth 100000 in
theorem keysOk6 : keysOk keys6 keysWitness6 = true := by decide +kernel

/-- The test of `keys.rs:1027-1080` passes for vector 6, whose `ask` is negated. -/
theorem keys6_passes : keysTest Prims.zcash keys6 = .ret () :=
  keysOk_sound keysOk6

set_option maxRecDepth 100000 in
/-- The default diversifier of vector 6, which the Rust test takes as given, is the one at index 0: FF1 with AES-256. -/
theorem keys6_default_diversifier : dkGet Prims.zcash keys6.dk (Bytes.replicate 11 0) = keys6.defaultD := by decide +kernel

/-- `test_vectors/keys.rs:665-755`. -/
def keys7 : KeyVector where
  sk := ⟨[0x23, 0x6c, 0x29, 0xaf, 0x39, 0x23, 0x10, 0x17, 0x56, 0xd9, 0xfa, 0x4b, 0xd0, 0xf7, 0xd2, 0xdd, 0xaa, 0xcb, 0x6b, 0x0f, 0x86, 0xa2, 0x65, 0x8e, 0x0a, 0x07, 0xa0, 0x5a, 0xc5, 0xb9, 0x50, 0x05], rfl⟩
  ask := ⟨[0xb4, 0xde, 0xd9, 0x0d, 0x62, 0x11, 0x7f, 0x18, 0xf3, 0xdd, 0x5f, 0xdb, 0x22, 0x23, 0x8a, 0x35, 0xca, 0x37, 0xc4, 0x0f, 0xee, 0xc8, 0x45, 0xce, 0x5f, 0xc2, 0x7f, 0xe8, 0xbc, 0xa5, 0xef, 0x0f], rfl⟩
  ak := ⟨[0x4e, 0xfd, 0x5a, 0x2e, 0xf1, 0xff, 0xa9, 0x9a, 0x0f, 0xf6, 0x2b, 0x76, 0x7d, 0x44, 0xb3, 0x65, 0x1f, 0xfa, 0x1c, 0x69, 0x69, 0x15, 0xac, 0x00, 0xa2, 0x5e, 0xa3, 0xac, 0x7d, 0xff, 0x99, 0x01], rfl⟩
  nk := ⟨[0x02, 0xab, 0x99, 0x5c, 0xe9, 0x8f, 0x63, 0x02, 0x5f, 0xb6, 0x24, 0x28, 0xa0, 0xfb, 0xf5, 0x2f, 0x25, 0x22, 0xe6, 0xa2, 0x72, 0x61, 0x07, 0x8a, 0x9f, 0x4d, 0x6a, 0x36, 0xa1, 0xc0, 0x5d, 0x39], rfl⟩
  rivk := ⟨[0xd9, 0x84, 0x0d, 0x0b, 0xd8, 0x95, 0x20, 0xab, 0xbc, 0xa7, 0xf1, 0x0b, 0xe6, 0xeb, 0xa3, 0x66, 0xf8, 0x6e, 0xc3, 0xb7, 0x8d, 0xbd, 0xf1, 0xeb, 0xfe, 0x20, 0xd9, 0x95, 0x12, 0xaf, 0x15, 0x15], rfl⟩
  ivk := ⟨[0x58, 0xf5, 0xbb, 0x5c, 0x32, 0x31, 0x15, 0x25, 0x29, 0x42, 0x3b, 0x67, 0xfa, 0x43, 0x28, 0x79, 0x11, 0x26, 0x35, 0xcd, 0xa0, 0xda, 0x2e, 0xc2, 0x41, 0x9c, 0x6f, 0xe9, 0x1e, 0xa4, 0x8d, 0x24], rfl⟩
  ovk := ⟨[0x78, 0xf5, 0xd3, 0x48, 0x67, 0x2e, 0x8d, 0x20, 0x9c, 0x41, 0xb7, 0x83, 0xf8, 0xca, 0x14, 0xa7, 0x7b, 0x3e, 0xa3, 0xe6, 0x00, 0x4c, 0xa4, 0xe0, 0xc2, 0x5a, 0xa4, 0x45, 0x63, 0x98, 0x1d, 0xcb], rfl⟩
  dk := ⟨[0x5d, 0x7f, 0xe3, 0x96, 0xbb, 0xfd, 0x22, 0x67, 0xac, 0xa7, 0x11, 0xab, 0x5b, 0x3e, 0x1f, 0x02, 0x4f, 0x49, 0x11, 0xf3, 0xa1, 0x81, 0x73, 0x2f, 0x13, 0x22, 0xa1, 0x59, 0x2f, 0x9e, 0x0e, 0xbe], rfl⟩
  defaultD := ⟨[0x2f, 0xbe, 0x4b, 0x4b, 0x1e, 0xdf, 0xf3, 0x31, 0x23, 0xce, 0x65], rfl⟩
  defaultPkD := ⟨[0xeb, 0x2c, 0x6f, 0xee, 0x34, 0x1e, 0xad, 0xe0, 0x7d, 0x74, 0x87, 0x99, 0x7a, 0xa7, 0x23, 0x69, 0x7d, 0x05, 0xe6, 0x29, 0x60, 0xdf, 0x37, 0x9c, 0x9e, 0x4a, 0x8d, 0x47, 0x6d, 0xfa, 0xc5, 0xbf], rfl⟩
  internalRivk := ⟨[0x66, 0x3b, 0x67, 0xd3, 0xac, 0x15, 0x99, 0x27, 0xf0, 0x6e, 0x6c, 0x8d, 0xab, 0x80, 0xa5, 0x89, 0x67, 0xc5, 0x45, 0xda, 0xac, 0x3d, 0x98, 0x72, 0x9a, 0x0b, 0xcc, 0x41, 0xfd, 0x53, 0x6d, 0x2b], rfl⟩
  internalIvk := ⟨[0xaa, 0x6a, 0xcc, 0x8a, 0x7a, 0xa9, 0xa8, 0x05, 0x20, 0x04, 0xff, 0x93, 0x83, 0x3f, 0x4a, 0xbb, 0x15, 0x3b, 0x45, 0x79, 0x7f, 0xd9, 0x07, 0xe3, 0x05, 0xc8, 0x92, 0x7b, 0xb0, 0x37, 0x82, 0x20], rfl⟩
  internalOvk := ⟨[0xbf, 0xd1, 0x09, 0x67, 0x27, 0xb6, 0xd5, 0xa2, 0xe1, 0x7a, 0xcb, 0xc5, 0xb2, 0x46, 0x80, 0xcb, 0x88, 0xdb, 0x34, 0xcf, 0x53, 0xb6, 0xb7, 0x46, 0x6c, 0xef, 0x67, 0x6f, 0xb3, 0xf7, 0x22, 0x29], rfl⟩
  internalDk := ⟨[0x47, 0xbd, 0xf9, 0x27, 0x1e, 0xcc, 0x50, 0xe7, 0x05, 0xc5, 0x21, 0xcd, 0x0d, 0xbb, 0xaf, 0x1c, 0x4e, 0x6a, 0x96, 0x2f, 0xc9, 0x14, 0x13, 0x48, 0xb8, 0xbd, 0x7b, 0x35, 0xc4, 0x00, 0x1e, 0x62], rfl⟩
  noteV := 15425828902564319772
  noteRho := ⟨[0x73, 0x6c, 0x23, 0x35, 0x7c, 0x85, 0xf4, 0x57, 0x91, 0xe1, 0x70, 0x80, 0x29, 0xd9, 0x82, 0x4d, 0x90, 0x70, 0x46, 0x07, 0xf3, 0x87, 0xa0, 0x3e, 0x49, 0xbf, 0x98, 0x36, 0x57, 0x44, 0x31, 0x34], rfl⟩
  noteRseed := ⟨[0x5a, 0x78, 0x77, 0xef, 0xaa, 0x8a, 0x08, 0xe7, 0x30, 0x81, 0xef, 0x8d, 0x62, 0xcb, 0x78, 0x0a, 0xb6, 0x88, 0x3a, 0x50, 0xa0, 0xd4, 0x70, 0x19, 0x0d, 0xfb, 0xa1, 0x0a, 0x85, 0x7f, 0x82, 0x84], rfl⟩
  noteCmx := ⟨[0xc8, 0x52, 0x8f, 0x72, 0x2c, 0xd3, 0xe4, 0x7d, 0xc9, 0x9e, 0x1e, 0x38, 0x80, 0x56, 0x37, 0x08, 0x15, 0xa9, 0xd0, 0x37, 0x97, 0x3d, 0x85, 0xca, 0xc7, 0xea, 0x38, 0xb5, 0xa7, 0x16, 0xfa, 0x3b], rfl⟩
  noteNf := ⟨[0xac, 0xc2, 0xed, 0x2c, 0x7e, 0x3b, 0x19, 0x7e, 0x5c, 0xdb, 0x4a, 0x57, 0x63, 0x57, 0xd5, 0xf1, 0x35, 0x39, 0x16, 0x26, 0xc7, 0xa8, 0x25, 0xd1, 0x0a, 0xa2, 0x60, 0xae, 0x0b, 0x95, 0x81, 0x28], rfl⟩

/-- Intermediate values for `keys7` (computed outside; checked below). -/
def keysWitness7 : KeyWitness where
  neg := true
  ask := 21739909250995816524014011536396784351768593995618506769733278651559165960525
  ax := 724403782987044725181137948068393389996471237005214860252504687417059114318
  ay := 7996787590653906323462204646429247673231299323598322436656053297955177802783
  ivk := (22747886625034285470625986178514213438980706539426128977273334820269912933129, 8936072938433161054974626083331703166854844748095565926783486839731064276548, 12836233065915696689520693213039306238216784445412464354411245559018141080916, 2826115466102247491392937542322955144843170088029624425502334961976115562548, 16533520704914293644238606907348164582398519922705779400086236047588458231128, 9832359096015086993891265069618933674834779257076995774092838392866139768471)
  ivkI := (22747886625034285470625986178514213438980706539426128977273334820269912933129, 8936072938433161054974626083331703166854844748095565926783486839731064276548, 6457496782907295116981571316384154835232379812420718873530845262699555729748, 14074101518587707538050942652378828426863486458543917695892927349024095671935, 14704085627099195506449008680386768321408191048565737861680945521578132400810, 15627137241585810089739163695091250015784054967680044951678431217782806670456)
  gx := 27850040150372878231244254865762457993430337489075579887837188866857237515062
  gy := 574909204250109653204987332135809846025090294668018079250388778248973775160
  px := 28845506715263305193954870530384264417863274844716685466881657801673121148139
  py := 24832539251311186580217926230902869207848366478345671879096036610036935450309
  psi := 27768023298649704198372563749775065966730347040709283860236387877857542510228
  rcm := 12325456043448700205176444993198097644134761913257924766099325004462166443214
  cm := (4092933684591734205987358715504573719382890553644512020534734174589363268432, 22126345086237912474466724752069810954973063607033658493586441063738502274629, 11423319681076003888010515996453419269190491415743565915652720331292295114464, 9948392036033944584316079483791480381529600302095596482107176167546056813609, 27128326192422974936404856224091505984830689921511832020842592939587918582472, 8173330858578235497718042993922894125231413401058377923655054917463242133697)
  s := 27114887486325302027097291819112391414148333654406420384859939981679460121941
  sx := 12504393860474037589260888760061587400969730361231637906447673680244847633638
  sy := 1406098655007622009987032945849066720024984207392652098064767674960381940708
  nx := 18321465889816243497677696177817334954280460062304868819945055205435806433964
  ny := 3678991017537742878167297851932106884228443649204931823409065096999845055343

set_option maxRecDepth 100000 in
theorem keysOk7 : keysOk keys7 keysWitness7 = true := by decide +kernel

/-- The test of `keys.rs:1027-1080` passes for vector 7, whose `ask` is negated. -/
theorem keys7_passes : keysTest Prims.zcash keys7 = .ret () :=
  keysOk_sound keysOk7

set_option maxRecDepth 100000 in
/-- The default diversifier of vector 7, which the Rust test takes as given, is the one at index 0: FF1 with AES-256. -/
theorem keys7_default_diversifier : dkGet Prims.zcash keys7.dk (Bytes.replicate 11 0) = keys7.defaultD := by decide +kernel

/-- `test_vectors/keys.rs:756-846`. -/
def keys8 : KeyVector where
  sk := ⟨[0x2d, 0x38, 0x25, 0xb3, 0xd6, 0xda, 0x05, 0x73, 0xd3, 0x16, 0xeb, 0x16, 0x0d, 0xc0, 0xb7, 0x16, 0xc4, 0x8f, 0xbd, 0x46, 0x7f, 0x75, 0xb7, 0x80, 0x14, 0x9a, 0xe8, 0x80, 0x8f, 0x4e, 0x68, 0xf5], rfl⟩
  ask := ⟨[0x2d, 0x6e, 0x97, 0x3e, 0x17, 0x54, 0xd4, 0x17, 0x87, 0x93, 0x4c, 0x34, 0x55, 0x8c, 0xfe, 0x99, 0x38, 0x44, 0x19, 0x99, 0x72, 0xd9, 0xa6, 0x34, 0x8b, 0x7a, 0x3d, 0xad, 0xfc, 0xb6, 0x77, 0x2a], rfl⟩
  ak := ⟨[0x76, 0x21, 0x59, 0xa4, 0x14, 0xf5, 0x74, 0xb5, 0x39, 0x75, 0x0f, 0x22, 0xc8, 0x86, 0x3b, 0x02, 0xd2, 0x5c, 0xc1, 0x0c, 0x90, 0x71, 0xfc, 0x02, 0x19, 0xe9, 0x7f, 0x93, 0x92, 0xd0, 0x67, 0x0c], rfl⟩
  nk := ⟨[0x25, 0x91, 0xed, 0xf7, 0xef, 0x4c, 0xf2, 0x18, 0x4c, 0x34, 0xbe, 0x93, 0xfc, 0xf6, 0x12, 0x91, 0x50, 0x42, 0xf1, 0x5a, 0xb5, 0x08, 0x4b, 0x14, 0xe1, 0x66, 0x79, 0x5b, 0x09, 0xce, 0xa1, 0x33], rfl⟩
  rivk := ⟨[0x75, 0x8f, 0xb2, 0x50, 0xdd, 0x29, 0x50, 0xe5, 0xd2, 0xb2, 0xee, 0xd7, 0xff, 0xcf, 0x94, 0xae, 0x67, 0xcd, 0xe1, 0x25, 0xb9, 0x5b, 0x47, 0x9e, 0x23, 0x77, 0x81, 0x3a, 0x85, 0xa0, 0x3d, 0x2f], rfl⟩
  ivk := ⟨[0x6e, 0xa4, 0x36, 0x3c, 0xb2, 0xdf, 0x62, 0xb1, 0x0d, 0xa1, 0x30, 0x8a, 0x0b, 0x96, 0x79, 0xbd, 0x0f, 0x74, 0x95, 0xff, 0xe7, 0xd4, 0xe2, 0x61, 0x8f, 0x54, 0xdf, 0x9b, 0x67, 0x0c, 0x33, 0x16], rfl⟩
  ovk := ⟨[0xa6, 0x3c, 0xbc, 0xd3, 0x1b, 0xa1, 0x36, 0xd8, 0x3b, 0x8f, 0x1e, 0x88, 0xef, 0xb6, 0x00, 0x55, 0xef, 0x6f, 0x98, 0x25, 0x2d, 0xdb, 0xd7, 0x5f, 0x62, 0x5f, 0x44, 0xdc, 0xb6, 0x63, 0x2c, 0x72], rfl⟩
  dk := ⟨[0x02, 0xf0, 0x74, 0x08, 0xf3, 0x3e, 0x87, 0x12, 0xe4, 0xc9, 0xec, 0x42, 0xde, 0x56, 0x04, 0x20, 0x01, 0x09, 0x86, 0x17, 0x24, 0xd3, 0x3e, 0xb6, 0x36, 0x8b, 0x70, 0xf6, 0x5e, 0x0a, 0x16, 0x21], rfl⟩
  defaultD := ⟨[0x08, 0xdf, 0x1d, 0x4b, 0x45, 0xc6, 0x73, 0xa4, 0x59, 0xff, 0x58], rfl⟩
  defaultPkD := ⟨[0x26, 0x8c, 0xc2, 0x4b, 0x38, 0xa6, 0x28, 0x80, 0xb6, 0xee, 0x3c, 0xbc, 0xb8, 0x5a, 0x71, 0x2f, 0xa6, 0x86, 0xcf, 0xfc, 0xa6, 0xdb, 0x2f, 0xee, 0xc5, 0xf3, 0xc3, 0x56, 0x6f, 0x84, 0x21, 0x8f], rfl⟩
  internalRivk := ⟨[0x00, 0x57, 0x37, 0x74, 0x61, 0xf2, 0x19, 0x1a, 0x7e, 0xca, 0x2b, 0x02, 0xed, 0xfd, 0x9c, 0x9b, 0x44, 0x84, 0x5d, 0x2f, 0xdb, 0x8a, 0x99, 0xc7, 0x61, 0x20, 0x52, 0x7e, 0x53, 0xdd, 0x09, 0x17], rfl⟩
  internalIvk := ⟨[0x81, 0x62, 0x97, 0x35, 0x09, 0x47, 0x0c, 0x44, 0x24, 0x19, 0x11, 0xc0, 0x6d, 0x04, 0x02, 0x9f, 0x5f, 0x1f, 0x0e, 0x98, 0x51, 0xe3, 0x2b, 0xa6, 0x9b, 0x18, 0xe5, 0x81, 0x05, 0xdd, 0x4e, 0x2b], rfl⟩
  internalOvk := ⟨[0x69, 0x47, 0x91, 0x0e, 0xa3, 0xe7, 0x33, 0x1d, 0x15, 0xa7, 0x1a, 0x64, 0xb2, 0xa8, 0xc1, 0x6a, 0x6d, 0xa0, 0x8e, 0x6f, 0x34, 0x29, 0xdb, 0x26, 0xf9, 0x37, 0xab, 0x9d, 0xd1, 0x33, 0xb5, 0xfd], rfl⟩
  internalDk := ⟨[0x32, 0x7f, 0x76, 0xcc, 0x42, 0x44, 0xce, 0x0a, 0x91, 0x48, 0xa3, 0x5a, 0x7e, 0xa6, 0x22, 0x8d, 0x44, 0x1c, 0x4c, 0x7b, 0x05, 0xbd, 0x02, 0x65, 0x7c, 0xea, 0xab, 0xb6, 0x09, 0xbc, 0x3c, 0x52], rfl⟩
  noteV := 12606128263924155660
  noteRho := ⟨[0x12, 0xf6, 0xb0, 0x2f, 0xe8, 0x06, 0xb9, 0x45, 0x69, 0xcd, 0x40, 0x59, 0xf3, 0x96, 0xbf, 0x29, 0xb9, 0x9d, 0x0a, 0x40, 0xe5, 0xe1, 0x71, 0x1c, 0xa9, 0x44, 0xf7, 0x2d, 0x43, 0x6a, 0x10, 0x2f], rfl⟩
  noteRseed := ⟨[0xca, 0x4b, 0x97, 0x69, 0x3d, 0xa0, 0xb0, 0x86, 0xfe, 0x9d, 0x2e, 0x71, 0x62, 0x47, 0x0d, 0x02, 0xe0, 0xf0, 0x5d, 0x4b, 0xec, 0x95, 0x12, 0xbf, 0xb3, 0xf3, 0x83, 0x27, 0x29, 0x6e, 0xfa, 0xa7], rfl⟩
  noteCmx := ⟨[0x6a, 0x11, 0x95, 0xaa, 0x05, 0x36, 0xf6, 0x0e, 0xcf, 0xae, 0xcb, 0xdf, 0x53, 0x74, 0xe4, 0x94, 0xea, 0x07, 0x2a, 0x2b, 0x86, 0x7b, 0x5f, 0x69, 0x43, 0x40, 0xc9, 0x6f, 0xc3, 0x70, 0xa9, 0x10], rfl⟩
  noteNf := ⟨[0xb0, 0xf1, 0x60, 0x2a, 0x2b, 0x1a, 0xf2, 0xfc, 0x55, 0xf1, 0x59, 0x50, 0xa6, 0x83, 0x83, 0x85, 0xe5, 0xe3, 0x9f, 0xec, 0xfd, 0x05, 0xcc, 0xec, 0x79, 0x9b, 0x75, 0xc6, 0x5c, 0x8d, 0xa2, 0x35], rfl⟩

/-- Intermediate values for `keys8` (computed outside; checked below). -/
def keysWitness8 : KeyWitness where
  neg := false
  ask := 19208657371191809374879668306737013733562250631817420066622459860356716523053
  ax := 5611178945597242306226095632220680023882471937932267171554773122850471092598
  ay := 22451193125409625420765920915695177605517181666850660626009553771812139550318
  ivk := (18727985321456254452341668855166703222543539378921686866689408351841014123659, 25222025724275059706793418351534480905041393457433278051765470245263364694973, 6999510598024125245994388974164084063666271803401705269384016448678370012456, 8454023951215802938612065704590094186016281953899746592806900005508552349455, 10041077483381504318821674091622290991479249485573514631435218937294838211694, 13086939036523622611966172912182070148031486703382121602141914359696299296119)
  ivkI := (18727985321456254452341668855166703222543539378921686866689408351841014123659, 25222025724275059706793418351534480905041393457433278051765470245263364694973, 2768801434568765950516897249286573257721444065880633411733050657097142084367, 14179546618829728086610651139352669686855234000823499622578942621606274667074, 19588791994555073032799517266602302904676278707661013466166910670490513662593, 2594528281361859774284066770677526901036544768536408038320717204942568798332)
  gx := 20413244399937448313710951700525992025772339136139283299168530957990318479164
  gy := 4745057313072828433917085579601256974924937184786873132119718908056823668900
  px := 6843912714096006075656520379527850035143913909896882395182495454717783739430
  py := 19822560480036189805985248129392168586450678195203777838439341065669835568409
  psi := 7404001712228801429318490464250399819121291452450353275396480825545560135867
  rcm := 26815575440924838623772381438137771594300176955384923810539898678885139198143
  cm := (16995189435698416069561193988696283978508206135730490853865743482595527827113, 10900874135254840882067654163281304694774365605503499908298809813335538730534, 8423809395268883339773370597636573606388438249488502619859593938416704411166, 25888519612541452693505242896008173699294339906536993252171008973605982413255, 7536380995832704049591341583545282701569956585223437305731144149145268588906, 19775269985542243397506766221278678936403472481776103646453578708574037087341)
  s := 26240736402045666874772760798940474519289560200435501324279922519079224608850
  sx := 5935358823740646693683458250704609990518780169748033416100173406846461000942
  sy := 6333424222529827810805703559268082299101234993381772559089562532449178506253
  nx := 24259785846857422291939947185632657980288944795961880385187589326734822011312
  ny := 18586663254426424084592500872003853594906064697901796468816993908486183149856

set_option maxRecDepth 100000 in
theorem keysOk8 : keysOk keys8 keysWitness8 = true := by decide +kernel

/-- The test of `keys.rs:1027-1080` passes for vector 8, whose `ask` is not negated. -/
theorem keys8_passes : keysTest Prims.zcash keys8 = .ret () :=
  keysOk_sound keysOk8

set_option maxRecDepth 100000 in
/-- The default diversifier of vector 8, which the Rust test takes as given, is the one at index 0: FF1 with AES-256. -/
theorem keys8_default_diversifier : dkGet Prims.zcash keys8.dk (Bytes.replicate 11 0) = keys8.defaultD := by decide +kernel

/-- `test_vectors/keys.rs:847-937`. -/
def keys9 : KeyVector where
  sk := ⟨[0x43, 0x28, 0xb1, 0x18, 0xc2, 0x74, 0x02, 0xc7, 0x0c, 0x3a, 0x90, 0xb4, 0x9a, 0xd4, 0xbb, 0xc6, 0x8e, 0x37, 0xc0, 0xaa, 0x7d, 0x9b, 0x3f, 0xe1, 0x77, 0x99, 0xd7, 0x3b, 0x84, 0x1e, 0x75, 0x17], rfl⟩
  ask := ⟨[0x28, 0xdc, 0x45, 0xf1, 0x15, 0x44, 0x42, 0x5c, 0x1b, 0xef, 0x86, 0x61, 0xda, 0x11, 0x15, 0x5f, 0xdb, 0xb7, 0xe3, 0xbc, 0xfc, 0x0f, 0x0d, 0x49, 0xe6, 0xf1, 0x31, 0xe7, 0xc0, 0x9d, 0x35, 0x2f], rfl⟩
  ak := ⟨[0x0d, 0x21, 0x1a, 0x90, 0x60, 0xfb, 0xaa, 0x66, 0x4e, 0x41, 0xa7, 0x34, 0xad, 0x1d, 0x8d, 0x4b, 0x02, 0x5f, 0x8c, 0xc1, 0x60, 0xe1, 0xf4, 0xe9, 0x5f, 0x0a, 0x85, 0x3e, 0xbc, 0x41, 0x6a, 0x2b], rfl⟩
  nk := ⟨[0x3e, 0x88, 0xf2, 0x07, 0x1f, 0xd9, 0xa2, 0xbb, 0x26, 0xcd, 0xa2, 0xea, 0x85, 0x6a, 0xa0, 0xfb, 0x3a, 0x80, 0xa8, 0x7d, 0x2f, 0xb6, 0x13, 0x6f, 0xab, 0x85, 0xe3, 0x6c, 0x5b, 0x38, 0xd8, 0x24], rfl⟩
  rivk := ⟨[0x2c, 0x37, 0x38, 0x82, 0xc4, 0x08, 0xcd, 0x5f, 0xd4, 0x82, 0xa0, 0xc9, 0x81, 0x6f, 0xc3, 0x22, 0x03, 0xa1, 0x0f, 0xbf, 0xce, 0x0e, 0x20, 0x0c, 0xcf, 0xd9, 0xee, 0x30, 0x7c, 0x5e, 0x12, 0x24], rfl⟩
  ivk := ⟨[0xbb, 0x9e, 0x20, 0xb2, 0x99, 0x1c, 0x99, 0x6d, 0xa2, 0x1e, 0x3e, 0xcd, 0x39, 0xfb, 0x7b, 0x3a, 0xa2, 0xba, 0xbc, 0x6b, 0xde, 0x18, 0x6f, 0x7d, 0xd8, 0xa8, 0x75, 0xd1, 0x0c, 0x51, 0xa4, 0x30], rfl⟩
  ovk := ⟨[0x93, 0x21, 0x83, 0x8a, 0x2d, 0xb7, 0xf1, 0x68, 0xf0, 0xce, 0x77, 0xc4, 0x5b, 0x21, 0x1f, 0xfb, 0xb9, 0xb3, 0x65, 0xe8, 0x5e, 0x67, 0x31, 0xd9, 0x09, 0x70, 0x05, 0x53, 0xde, 0x49, 0x2b, 0x28], rfl⟩
  dk := ⟨[0x3d, 0xf5, 0x83, 0x36, 0x1b, 0x33, 0x38, 0xbb, 0x68, 0x15, 0xf8, 0x58, 0x72, 0xe3, 0x9f, 0x04, 0xdf, 0x50, 0x08, 0x52, 0x48, 0x84, 0xaf, 0x0f, 0x8c, 0x55, 0x97, 0x16, 0xfc, 0xb1, 0x49, 0x58], rfl⟩
  defaultD := ⟨[0x4c, 0x40, 0x64, 0xc4, 0x7a, 0x5c, 0xa6, 0xe7, 0x5d, 0x46, 0x44], rfl⟩
  defaultPkD := ⟨[0xf5, 0x17, 0x17, 0x4b, 0xe2, 0x58, 0x92, 0x32, 0x78, 0xcf, 0x45, 0x89, 0x08, 0xc0, 0x73, 0x56, 0x49, 0xf1, 0x89, 0x9d, 0xb9, 0x9c, 0x3b, 0xa9, 0x00, 0x3f, 0x4b, 0xa3, 0x0a, 0xb0, 0xd2, 0x10], rfl⟩
  internalRivk := ⟨[0xd8, 0x09, 0xa2, 0xa3, 0xd3, 0x6e, 0xf9, 0x6d, 0xc5, 0x63, 0xf8, 0xa7, 0xb4, 0x13, 0x90, 0x8b, 0xfd, 0xff, 0xc0, 0x6d, 0x51, 0x06, 0x48, 0x49, 0xef, 0x88, 0x6b, 0x6a, 0x1d, 0x1d, 0x7c, 0x3f], rfl⟩
  internalIvk := ⟨[0xae, 0x18, 0xa9, 0xa4, 0x25, 0x12, 0x38, 0x7f, 0x92, 0xee, 0xc1, 0x34, 0xbd, 0xe5, 0x28, 0xb6, 0x2b, 0x61, 0xe9, 0x95, 0x6f, 0x9f, 0xb3, 0xc7, 0xd6, 0x5e, 0x19, 0x45, 0xda, 0x34, 0xf3, 0x09], rfl⟩
  internalOvk := ⟨[0x67, 0xa6, 0xd8, 0x4a, 0x81, 0x66, 0x32, 0x6c, 0xf3, 0x4c, 0xed, 0xff, 0xd4, 0x29, 0x8a, 0x13, 0xb8, 0x01, 0xcb, 0x12, 0x2d, 0x5f, 0x33, 0x29, 0xa1, 0x59, 0x9f, 0x31, 0xea, 0xdf, 0x5b, 0x17], rfl⟩
  internalDk := ⟨[0xa0, 0x07, 0x3a, 0xdd, 0xfb, 0x89, 0xc9, 0xcc, 0x34, 0x9e, 0xad, 0x5a, 0x92, 0xb7, 0xd4, 0x17, 0xfe, 0x0e, 0x61, 0xf4, 0xa7, 0xe5, 0x66, 0x69, 0xc9, 0x07, 0xd4, 0x17, 0x46, 0xc0, 0x72, 0xb9], rfl⟩
  noteV := 625536973899669523
  noteRho := ⟨[0x03, 0xfd, 0x69, 0x44, 0x2e, 0xb7, 0x68, 0x1e, 0xc2, 0xa0, 0x56, 0x00, 0x05, 0x4e, 0x92, 0xee, 0xd5, 0x55, 0x02, 0x8f, 0x21, 0xb6, 0xa1, 0x55, 0x26, 0x8a, 0x2d, 0xd6, 0x64, 0x0a, 0x69, 0x30], rfl⟩
  noteRseed := ⟨[0x1a, 0x52, 0xa3, 0x8d, 0x4d, 0x9f, 0x9f, 0x95, 0x7a, 0xe3, 0x5a, 0xf7, 0x16, 0x71, 0x18, 0x14, 0x1c, 0xe4, 0xc9, 0xbe, 0x0a, 0x6a, 0x49, 0x2f, 0xe7, 0x9f, 0x15, 0x81, 0xa1, 0x55, 0xfa, 0x3a], rfl⟩
  noteCmx := ⟨[0xf7, 0x0e, 0xbf, 0x0f, 0x5e, 0xe5, 0xda, 0x6c, 0x6c, 0xde, 0xff, 0x8f, 0xec, 0x2f, 0x8e, 0xed, 0x65, 0xc8, 0x8e, 0x67, 0x55, 0xda, 0xf1, 0x14, 0xd5, 0x54, 0xaf, 0x19, 0x67, 0xa7, 0xf4, 0x0a], rfl⟩
  noteNf := ⟨[0x95, 0x64, 0x97, 0x28, 0x46, 0x5e, 0x68, 0x2a, 0xc0, 0x57, 0xad, 0x87, 0x62, 0x94, 0xd7, 0x00, 0xc2, 0x7f, 0xeb, 0xa2, 0xf7, 0x50, 0x92, 0x2f, 0x95, 0x51, 0x85, 0x70, 0x62, 0x61, 0xc3, 0x0c], rfl⟩

/-- Intermediate values for `keys9` (computed outside; checked below). -/
def keysWitness9 : KeyWitness where
  neg := false
  ask := 21353435552680666358308784511945268756636491007389061909814733119987458104360
  ax := 19637191966513570031378414464846350689349748891274669764405872112426276233485
  ay := 4361968978700839950380132255908280490334146290943755689959820036157717421792
  ivk := (1283110232644361338489883503409740276388443043699260093167878223561188323130, 17680310850500378632485037713329331285784310508025728798826395997293679576312, 25770237273527539659522450272545821167146653092107901899780740256314133210374, 5186673826647673199904764916074378051959508401759424186924456908524200969515, 22001339037652563004996819955048112394883670370494717090843058355965909835451, 24024037057227078862539304023098377778364468182418261980747238325024253249144)
  ivkI := (1283110232644361338489883503409740276388443043699260093167878223561188323130, 17680310850500378632485037713329331285784310508025728798826395997293679576312, 3077821894465029456121947248801012489828496094741732564159185928545199387486, 1396674487070148977894037244386334063352545898001734354248247544756399548486, 4500524249345936364591385964887336788943961856917108729604644091320798353582, 15153289130943786102029009599747740560563342537066247935113151654063333882111)
  gx := 27160609168329561085910372815209617122183054095445346685791099151988978868056
  gy := 10658162115796442717024734673118319604523247876400368972894880444448137521334
  px := 7609258455089082727589625520954207647502258547603604366140308829887083780085
  py := 9788765876540986515143831258098955533766041534311586856049615420728872842920
  psi := 22904269323822916263262906282745169223784901297618986605468174042652201030422
  rcm := 11279745431674443025795285789394701909763313725407206171032275680658077007650
  cm := (8837538984763946808011887591805008811546443518245014199519044350844038498300, 5469344114363453813062147221322687385930261059231229111461703448267609888612, 15404417788236916564454862424423543482579599663183191391934682249271146127637, 1098626460267473694414094942288376611548955672262933375363498968639421986477, 4955394540857944837248649946816678994435350613178126032077013803831962570487, 4993481107273755605780393967712218087675019319186414098425849189229840141060)
  s := 28378000250833277087012615368217850646218673314757024626018102063490656850667
  sx := 9009308237909224136177897647351920433724921867569477717729503649181466047214
  sy := 9359746353924814321134576101357853090668857856707814164729530122787240748666
  nx := 5772961483951214462044243507525553651168418739043407335318384562563645400213
  ny := 21396272837755799429752827140318851469694226980571634474846955316236373600990

set_option maxRecDepth 100000 in
theorem keysOk9 : keysOk keys9 keysWitness9 = true := by decide +kernel

/-- The test of `keys.rs:1027-1080` passes for vector 9, whose `ask` is not negated. -/
theorem keys9_passes : keysTest Prims.zcash keys9 = .ret () :=
  keysOk_sound keysOk9

set_option maxRecDepth 100000 in
/-- The default diversifier of vector 9, which the Rust test takes as given, is the one at index 0: FF1 with AES-256. -/
theorem keys9_default_diversifier : dkGet Prims.zcash keys9.dk (Bytes.replicate 11 0) = keys9.defaultD := by decide +kernel

end Orchard.Vectors
