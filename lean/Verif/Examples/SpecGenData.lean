import Verif.Model.SpecGen

/-
What the generator of the `spec` modules reads in /repo: the items of the files listed in
`Fork::modules_in_diff` (/repo/spec-gen/src/generator.rs:31-109), and the items of the modules it wrote
(/repo/ethereum-consensus/src/*/spec/mod.rs).  Extracted from the sources by a script.  Names are
numbers, in alphabetical order; the tables are at the end.  `mentions` and `bounds` keep only the names
of items of these files, once each; `calls` are the functions of these files whose names appear in the
text.  The text of a function is numbered by its fork and its name: that the functions written out in
the generated modules have the text of their sources, up to generic arguments, was checked by the
script.
-/

namespace Verif.SpecGen.Repo

def skip : Item := .skipped
def con (n : Name) : Item := .decl ⟨.constant, true, n, [], [], [], 0⟩
def str (n : Name) : Item := .decl ⟨.container, true, n, [], [], [], 0⟩
def typ (n : Name) : Item := .decl ⟨.typeDef, true, n, [], [], [], 0⟩
def trt (n : Name) : Item := .decl ⟨.traitDef, true, n, [], [], [], 0⟩
/-- An item that is not public. -/
def hid (k : Kind) (n : Name) : Item := .decl ⟨k, false, n, [], [], [], 0⟩
def fn (n : Name) (mentions bounds calls : List Name) (text : Nat) : Item :=
  .decl ⟨.fn, true, n, mentions, bounds, calls, text⟩

/-- /repo/ethereum-consensus/src/phase0 -/
def phase0 : Source := [
  -- beacon_block.rs
  (0, [
    skip, str 6, str 5, str 63, str 7, str 64]),
  -- beacon_state.rs
  (1, [
    skip, str 38, str 39, str 40, str 41, str 8]),
  -- block_processing.rs
  (4, [
    skip, skip, fn 202 [8, 59] [] [174, 124, 96, 126, 218] 202,
    fn 180 [8, 3] [] [173, 177, 124, 174, 218] 180,
    fn 179 [8, 1] [] [142, 124, 96, 121, 117, 177, 135, 118] 179, fn 154 [84] [] [] 154,
    fn 90 [8] [] [154] 90, fn 91 [8] [] [160, 95, 90] 91, fn 185 [8, 24] [] [91] 185,
    fn 213 [8, 69] [] [124, 163, 126, 162] 213, fn 182 [8, 5] [] [118] 182, fn 225 [] [] [] 225,
    fn 203 [8, 6] [] [124, 118, 126, 225, 144] 203, fn 189 [8, 6] [] [] 189,
    fn 197 [8, 6] [] [202, 180, 179, 185, 213] 197, fn 181 [8, 5] [] [182, 203, 189, 197] 181]),
  -- constants.rs
  (6, [
    con 4, con 21, con 43, con 22, skip]),
  -- epoch_processing.rs
  (7, [
    skip, skip, skip, fn 137 [8, 54] [] [142, 124] 137, fn 138 [8, 54] [] [137, 119] 138,
    fn 136 [8, 54] [] [138, 120] 136, fn 150 [8, 54] [] [113] 150,
    fn 196 [8] [] [124, 138, 142, 148, 112, 224] 196, fn 206 [8] [] [124, 110, 160, 105] 206,
    fn 205 [8] [] [124, 166, 163, 162, 165, 92, 153] 205, fn 207 [8] [] [124, 148, 105] 207,
    fn 190 [8] [] [124] 190, fn 187 [8] [] [] 187, fn 208 [8] [] [124] 208, fn 204 [8] [] [124, 144] 204,
    fn 193 [8] [] [124] 193, fn 199 [8] [] [] 199, fn 112 [8, 54] [] [149, 150] 112,
    fn 224 [8] [] [142, 124, 119] 224, fn 115 [8] [] [148] 115, fn 143 [8] [] [115] 143,
    fn 129 [8] [] [142] 129, fn 169 [8] [] [129] 169, fn 109 [8, 54] [] [148, 150, 149, 127, 169, 115] 109,
    fn 146 [8] [] [142, 137, 109] 146, fn 147 [8] [] [142, 138, 109] 147,
    fn 132 [8] [] [142, 136, 109] 132, fn 134 [8] [] [142, 137, 150, 113, 143, 115] 134,
    fn 133 [8] [] [142, 169, 138, 150, 127, 115, 143, 129] 133,
    fn 110 [8] [] [146, 147, 132, 134, 133] 110,
    fn 188 [8] [] [196, 206, 205, 207, 190, 187, 208, 204, 193, 199] 188]),
  -- genesis.rs
  (11, [
    skip, fn 161 [24, 8] [] [185] 161, fn 176 [8] [] [108] 176, fn 131 [8, 5] [] [] 131]),
  -- helpers.rs
  (12, [
    skip, skip, fn 163 [84] [] [] 163, fn 166 [84] [] [] 166, fn 165 [8, 84] [] [] 165,
    fn 174 [84] [] [] 174, fn 173 [2] [] [] 173, fn 177 [8, 42] [] [126] 177, fn 223 [8, 63] [] [126] 223,
    fn 126 [8] [] [124, 95] 126, fn 124 [8] [] [96] 124, fn 101 [] [] [] 101, fn 102 [] [] [] 102,
    fn 217 [8] [] [] 217, fn 100 [8] [] [102, 217, 101] 100, fn 93 [] [] [102, 101] 93, fn 96 [] [] [] 96,
    fn 103 [] [] [] 103, fn 92 [] [] [] 92, fn 99 [] [] [98] 99, fn 95 [] [] [98] 95, fn 98 [] [] [] 98,
    fn 142 [8] [] [124] 142, fn 119 [8] [] [120, 103] 119, fn 120 [8] [] [] 120, fn 144 [8] [] [] 144,
    fn 108 [8] [] [163] 108, fn 153 [8] [] [108, 124] 153, fn 145 [8] [] [144] 145,
    fn 121 [8] [] [108] 121, fn 117 [8] [] [96, 121, 108, 145, 93] 117,
    fn 118 [8] [] [124, 145, 108, 100] 118, fn 149 [8] [] [] 149, fn 148 [8] [] [108, 124, 149] 148,
    fn 135 [8, 1, 42] [] [113] 135, fn 113 [8, 2] [] [117] 113, fn 160 [8] [] [] 160, fn 105 [8] [] [] 105,
    fn 162 [8] [] [92, 124, 153] 162, fn 218 [8] [] [124, 162, 105, 118, 160] 218,
    fn 127 [8] [] [142, 163] 127]),
  -- operations.rs
  (14, [
    skip, str 18, str 2, str 42, str 54, str 1, str 31, str 26, str 25, str 59, str 3, hid .fn 125,
    hid .constant 23, str 24, str 86, str 69]),
  -- slot_processing.rs
  (15, [
    skip, fn 210 [8] [] [209, 188] 210, fn 209 [8] [] [] 209]),
  -- state_transition.rs
  (16, [
    skip, fn 220 [8, 63] [] [223, 181] 220, fn 219 [8, 63] [] [210, 220] 219]),
  -- validator.rs
  (18, [
    skip, str 84, str 30, str 0, str 62])]

/-- /repo/ethereum-consensus/src/altair -/
def altair : Source := [
  -- beacon_block.rs
  (0, [
    skip, str 6, str 5, str 63]),
  -- beacon_state.rs
  (1, [
    skip, str 8]),
  -- block_processing.rs
  (4, [
    skip, skip, fn 179 [8, 1] [] [142, 124, 96, 121, 117, 111, 177, 135, 113, 159, 89, 115, 160, 118] 1179,
    fn 90 [8] [] [154] 1090, fn 211 [8, 70] [] [126, 96, 120, 148, 116, 160, 118, 105] 1211,
    fn 181 [8, 5] [] [182, 203, 189, 197, 211] 1181]),
  -- constants.rs
  (6, [
    con 77, con 79, con 75, con 78, con 80, con 76, con 61, con 53, con 87, con 52, con 60]),
  -- epoch_processing.rs
  (7, [
    skip, skip, fn 115 [8] [] [116] 1115, fn 196 [8] [] [124, 151, 142, 148, 149, 224] 1196,
    fn 195 [8] [] [124, 127, 151, 142, 169] 1195, fn 206 [8] [] [124, 130, 133, 160, 105] 1206,
    fn 198 [8] [] [] 1198, fn 207 [8] [] [124, 148, 105] 1207, fn 212 [8] [] [124, 139] 1212,
    fn 188 [8] [] [196, 195, 206, 205, 207, 190, 187, 208, 204, 193, 198, 212] 1188]),
  -- genesis.rs
  (11, [
    skip, fn 161 [24, 8] [] [185, 139] 1161]),
  -- helpers.rs
  (12, [
    skip, skip, skip, fn 89 [] [] [] 1089, fn 159 [] [] [] 1159, fn 140 [8] [] [124, 108, 145, 101] 1140,
    fn 139 [8, 72] [] [140] 1139, fn 116 [8] [] [148] 1116, fn 151 [8] [] [142, 124, 108, 159] 1151,
    fn 111 [8, 2] [] [124, 119, 120] 1111, fn 130 [8] [] [142, 151, 149, 148, 169, 127, 115] 1130,
    fn 133 [8] [] [142, 151, 127] 1133, fn 218 [8] [] [124, 162, 105, 118, 160] 1218]),
  -- light_client.rs
  (13, [
    skip, con 35, con 36, con 16, con 17, con 49, con 50, str 46, str 44, str 48, str 45, str 47]),
  -- sync.rs
  (17, [
    skip, str 70, str 72]),
  -- validator.rs
  (18, [
    skip, str 74, str 73, str 20, str 68, str 71])]

/-- /repo/ethereum-consensus/src/bellatrix -/
def bellatrix : Source := [
  -- beacon_block.rs
  (0, [
    skip, str 6, str 5, str 63]),
  -- beacon_state.rs
  (1, [
    skip, str 8]),
  -- blinded_beacon_block.rs
  (2, [
    skip, str 10, str 9, str 65]),
  -- block_processing.rs
  (4, [
    skip, fn 192 [8, 6] [] [171, 124, 144, 104] 2192,
    fn 181 [8, 5] [] [182, 167, 192, 203, 189, 197, 211] 2181]),
  -- epoch_processing.rs
  (7, [
    skip, fn 207 [8] [] [124, 148, 105] 2207,
    fn 188 [8] [] [196, 195, 206, 205, 207, 190, 187, 208, 204, 193, 198, 212] 2188]),
  -- execution_payload.rs
  (9, [
    skip, typ 81, str 33, skip, str 34, skip]),
  -- fork_choice.rs
  (10, [
    skip, str 58]),
  -- genesis.rs
  (11, [
    skip, fn 161 [24, 34, 8] [] [185, 139] 2161]),
  -- helpers.rs
  (12, [
    skip, fn 133 [8] [] [142, 151, 127] 2133, fn 218 [8] [] [124, 162, 105, 118, 160] 2218,
    fn 171 [8] [] [] 2171, fn 170 [8, 6] [] [171] 2170, fn 167 [8, 6] [] [170, 171] 2167,
    fn 104 [8] [] [] 2104]),
  -- state_transition.rs
  (16, [
    skip, fn 220 [8, 63] [] [223, 181] 2220, fn 219 [8, 63] [] [210, 220] 2219])]

/-- /repo/ethereum-consensus/src/capella -/
def capella : Source := [
  -- beacon_block.rs
  (0, [
    skip, str 6, str 5, str 63]),
  -- beacon_state.rs
  (1, [
    skip, skip, str 8]),
  -- blinded_beacon_block.rs
  (2, [
    skip, str 10, str 9, str 65]),
  -- block_processing.rs
  (4, [
    skip, fn 183 [8, 66] [] [95] 3183, fn 197 [8, 6] [] [202, 180, 179, 185, 213, 183] 3197,
    fn 192 [8, 6] [] [124, 144, 104] 3192, fn 214 [8, 33] [] [128, 105] 3214,
    fn 128 [8, 88] [] [124, 168, 172] 3128, fn 181 [8, 5] [] [182, 214, 192, 203, 189, 197, 211] 3181]),
  -- bls_to_execution_change.rs
  (5, [
    skip, str 15, str 66]),
  -- epoch_processing.rs
  (7, [
    skip, fn 194 [8] [] [124] 3194,
    fn 188 [8] [] [196, 195, 206, 205, 207, 190, 187, 208, 204, 194, 198, 212] 3188]),
  -- execution_payload.rs
  (9, [
    skip, str 33, skip, str 34, skip]),
  -- genesis.rs
  (11, [
    skip, fn 161 [24, 34, 8] [] [185, 139] 3161]),
  -- helpers.rs
  (12, [
    skip, fn 157 [84] [] [] 3157, fn 168 [84] [] [157] 3168, fn 172 [84] [] [157] 3172]),
  -- light_client.rs
  (13, [
    skip, con 28, con 29, str 46, str 44, str 48, str 45, str 47]),
  -- withdrawal.rs
  (19, [
    skip, str 88])]

/-- /repo/ethereum-consensus/src/deneb -/
def deneb : Source := [
  -- beacon_block.rs
  (0, [
    skip, str 6, str 5, str 63, skip]),
  -- beacon_state.rs
  (1, [
    skip, str 8]),
  -- blinded_beacon_block.rs
  (2, [
    skip, str 10, str 9, str 65]),
  -- blob_sidecar.rs
  (3, [
    skip, skip, con 83, typ 85, typ 11, str 12, str 14, str 13, fn 222 [13] [] [] 4222, skip]),
  -- block_processing.rs
  (4, [
    skip, fn 179 [8, 1] [] [142, 124, 96, 121, 117, 111, 177, 135, 113, 159, 89, 115, 160, 118] 4179,
    fn 192 [8, 6] [] [124, 144, 104, 178] 4192, fn 213 [8, 69] [] [124, 163, 95, 162] 4213,
    fn 181 [8, 5] [] [182, 214, 192, 203, 189, 197, 211] 4181]),
  -- epoch_processing.rs
  (7, [
    skip, fn 205 [8] [] [124, 166, 163, 162, 165, 92, 152] 4205]),
  -- execution_engine.rs
  (8, [
    skip, str 51, skip]),
  -- execution_payload.rs
  (9, [
    skip, str 33, str 34, skip]),
  -- genesis.rs
  (11, [
    skip, fn 161 [24, 34, 8] [] [185, 139] 4161]),
  -- helpers.rs
  (12, [
    skip, skip, fn 178 [85] [] [] 4178, fn 111 [8, 2] [] [124, 119, 120] 4111, fn 152 [8] [] [153] 4152]),
  -- light_client.rs
  (13, [
    skip, str 46, str 44, str 48, str 45, str 47])]

/-- /repo/ethereum-consensus/src/electra -/
def electra : Source := [
  -- beacon_block.rs
  (0, [
    skip, str 6, str 5, str 63]),
  -- beacon_state.rs
  (1, [
    skip, str 27, str 55, str 57, str 56, str 32, str 8]),
  -- block_processing.rs
  (4, [
    skip, fn 128 [8, 88] [] [124, 168, 172, 155] 5128, fn 214 [8, 33] [] [128, 105] 5214,
    fn 192 [8, 6] [] [124, 144, 104, 178] 5192,
    fn 197 [8, 6] [] [202, 180, 179, 185, 213, 183, 191, 186, 184] 5197,
    fn 179 [8, 1] [] [142, 124, 96, 122, 121, 117, 111, 177, 135, 113, 159, 89, 115, 160, 118] 5179,
    fn 91 [8] [] [175, 164, 157, 221, 90] 5091, fn 175 [] [] [95] 5175, fn 90 [8] [] [154] 5090,
    fn 154 [84] [] [] 5154, fn 213 [8, 69] [] [124, 163, 141, 95, 162] 5213,
    fn 191 [8, 32] [] [158, 124, 163, 141, 162, 156, 97] 5191, fn 186 [8, 27] [] [91] 5186,
    fn 184 [8, 67] [] [123, 124, 163, 158, 95, 94] 5184]),
  -- constants.rs
  (6, [
    skip, con 82, con 37]),
  -- epoch_processing.rs
  (7, [
    skip, fn 188 [8] [] [196, 195, 206, 205, 207, 190, 200, 201, 187, 208, 204, 194, 198, 212] 5188,
    fn 205 [8] [] [124, 166, 163, 162, 92, 165] 5205, fn 200 [8] [] [106, 160] 5200,
    fn 201 [8] [] [124, 221, 107, 105, 160] 5201, fn 187 [8] [] [156] 5187]),
  -- execution_engine.rs
  (8, [
    skip, str 51, skip]),
  -- execution_payload.rs
  (9, [
    skip, str 33, str 34, skip]),
  -- genesis.rs
  (11, [
    skip, fn 161 [24, 34, 8] [] [185, 160, 139] 5161]),
  -- helpers.rs
  (12, [
    skip, skip, fn 166 [84] [] [] 5166, fn 164 [] [] [] 5164, fn 156 [84] [] [164] 5156,
    fn 158 [84] [] [156, 157] 5158, fn 168 [84] [] [158] 5168, fn 172 [84] [] [155, 158] 5172,
    fn 122 [] [] [] 5122, fn 155 [84] [] [156] 5155, fn 114 [8] [] [148] 5114, fn 106 [8] [] [114] 5106,
    fn 123 [8] [] [114, 106] 5123, fn 107 [8] [] [155] 5107, fn 141 [8] [] [] 5141,
    fn 113 [8, 1] [] [122, 117] 5113, fn 135 [8, 1, 42] [] [113] 5135, fn 162 [8] [] [97] 5162,
    fn 221 [8] [] [157, 216] 5221, fn 216 [8] [] [] 5216, fn 215 [8] [] [] 5215,
    fn 97 [8] [] [124, 92, 106] 5097, fn 94 [8] [] [124, 92, 106] 5094,
    fn 218 [8] [] [124, 162, 105, 118, 160] 5218]),
  -- operations.rs
  (14, [
    skip, str 3, str 42, str 1, str 19, str 67])]

/-- The forks, in order. -/
def sources : List Source := [phase0, altair, bellatrix, capella, deneb, electra]

/-- generator.rs:111-133 `should_filter_fn_by_name` -/
def dropped (fork : Nat) (n : Name) : Bool :=
  fork == 1 && [150, 137, 138, 136, 146, 147, 132, 134, 133, 110, 109, 112, 199].contains n

/-- /repo/ethereum-consensus/src/phase0/spec/mod.rs, but for the fixed imports -/
def phase0Spec : List Export := [
  .use 0 0 5, .use 0 0 6, .use 0 0 7, .use 0 0 63, .use 0 0 64, .use 0 1 8, .use 0 1 38, .use 0 1 39,
  .use 0 1 40, .use 0 1 41, .use 0 4 90, .use 0 4 91, .use 0 4 154, .use 0 4 179, .use 0 4 180,
  .use 0 4 181, .use 0 4 182, .use 0 4 185, .use 0 4 189, .use 0 4 197, .use 0 4 202, .use 0 4 203,
  .use 0 4 213, .use 0 4 225, .use 0 6 4, .use 0 6 21, .use 0 6 22, .use 0 6 43, .use 0 7 109,
  .use 0 7 110, .use 0 7 112, .use 0 7 115, .use 0 7 129, .use 0 7 132, .use 0 7 133, .use 0 7 134,
  .use 0 7 136, .use 0 7 137, .use 0 7 138, .use 0 7 143, .use 0 7 146, .use 0 7 147, .use 0 7 150,
  .use 0 7 169, .use 0 7 187, .use 0 7 188, .use 0 7 190, .use 0 7 193, .use 0 7 196, .use 0 7 199,
  .use 0 7 204, .use 0 7 205, .use 0 7 206, .use 0 7 207, .use 0 7 208, .use 0 7 224, .use 0 11 131,
  .use 0 11 161, .use 0 11 176, .use 0 12 92, .use 0 12 93, .use 0 12 95, .use 0 12 96, .use 0 12 98,
  .use 0 12 99, .use 0 12 100, .use 0 12 101, .use 0 12 102, .use 0 12 103, .use 0 12 105, .use 0 12 108,
  .use 0 12 113, .use 0 12 117, .use 0 12 118, .use 0 12 119, .use 0 12 120, .use 0 12 121, .use 0 12 124,
  .use 0 12 126, .use 0 12 127, .use 0 12 135, .use 0 12 142, .use 0 12 144, .use 0 12 145, .use 0 12 148,
  .use 0 12 149, .use 0 12 153, .use 0 12 160, .use 0 12 162, .use 0 12 163, .use 0 12 165, .use 0 12 166,
  .use 0 12 173, .use 0 12 174, .use 0 12 177, .use 0 12 217, .use 0 12 218, .use 0 12 223, .use 0 14 1,
  .use 0 14 2, .use 0 14 3, .use 0 14 18, .use 0 14 24, .use 0 14 25, .use 0 14 26, .use 0 14 31,
  .use 0 14 42, .use 0 14 54, .use 0 14 59, .use 0 14 69, .use 0 14 86, .use 0 15 209, .use 0 15 210,
  .use 0 16 219, .use 0 16 220, .use 0 18 0, .use 0 18 30, .use 0 18 62, .use 0 18 84]

/-- /repo/ethereum-consensus/src/altair/spec/mod.rs, but for the fixed imports -/
def altairSpec : List Export := [
  .use 1 0 5, .use 1 0 6, .use 1 0 63, .use 1 1 8, .use 1 4 90, .use 1 4 179, .use 1 4 181, .use 1 4 211,
  .use 1 6 52, .use 1 6 53, .use 1 6 60, .use 1 6 61, .use 1 6 75, .use 1 6 76, .use 1 6 77, .use 1 6 78,
  .use 1 6 79, .use 1 6 80, .use 1 6 87, .use 1 7 115, .use 1 7 188, .use 1 7 195, .use 1 7 196,
  .use 1 7 198, .use 1 7 206, .use 1 7 207, .use 1 7 212, .use 1 11 161, .use 1 12 89, .use 1 12 111,
  .use 1 12 116, .use 1 12 130, .use 1 12 133, .use 1 12 139, .use 1 12 140, .use 1 12 151, .use 1 12 159,
  .use 1 12 218, .use 1 13 44, .use 1 13 45, .use 1 13 46, .use 1 13 47, .use 1 13 48, .use 1 13 16,
  .use 1 13 17, .use 1 13 35, .use 1 13 36, .use 1 13 49, .use 1 13 50, .use 1 17 70, .use 1 17 72,
  .use 1 18 20, .use 1 18 68, .use 1 18 71, .use 1 18 73, .use 1 18 74, .use 0 0 7, .use 0 0 64,
  .use 0 1 38, .use 0 1 39, .use 0 1 40, .use 0 1 41, .use 0 4 154, .use 0 4 225, .use 0 6 4, .use 0 6 21,
  .use 0 6 22, .use 0 6 43, .use 0 12 92, .use 0 12 93, .use 0 12 95, .use 0 12 96, .use 0 12 98,
  .use 0 12 99, .use 0 12 101, .use 0 12 102, .use 0 12 103, .use 0 12 163, .use 0 12 166, .use 0 12 173,
  .use 0 12 174, .use 0 14 1, .use 0 14 2, .use 0 14 3, .use 0 14 18, .use 0 14 24, .use 0 14 25,
  .use 0 14 26, .use 0 14 31, .use 0 14 42, .use 0 14 54, .use 0 14 59, .use 0 14 69, .use 0 14 86,
  .use 0 18 0, .use 0 18 30, .use 0 18 62, .use 0 18 84, .define 202 202, .define 180 180, .define 91 91,
  .define 185 185, .define 213 213, .define 182 182, .define 203 203, .define 189 189, .define 197 197,
  .define 205 205, .define 190 190, .define 187 187, .define 208 208, .define 204 204, .define 193 193,
  .define 224 224, .define 143 143, .define 129 129, .define 169 169, .define 176 176, .define 131 131,
  .define 165 165, .define 177 177, .define 223 223, .define 126 126, .define 124 124, .define 217 217,
  .define 100 100, .define 142 142, .define 119 119, .define 120 120, .define 144 144, .define 108 108,
  .define 153 153, .define 145 145, .define 121 121, .define 117 117, .define 118 118, .define 149 149,
  .define 148 148, .define 135 135, .define 113 113, .define 160 160, .define 105 105, .define 162 162,
  .define 127 127, .define 210 210, .define 209 209, .define 220 220, .define 219 219]

/-- /repo/ethereum-consensus/src/bellatrix/spec/mod.rs, but for the fixed imports -/
def bellatrixSpec : List Export := [
  .use 1 6 52, .use 1 6 53, .use 1 6 60, .use 1 6 61, .use 1 6 75, .use 1 6 76, .use 1 6 77, .use 1 6 78,
  .use 1 6 79, .use 1 6 80, .use 1 6 87, .use 1 12 89, .use 1 12 159, .use 1 13 44, .use 1 13 45,
  .use 1 13 46, .use 1 13 47, .use 1 13 48, .use 1 13 16, .use 1 13 17, .use 1 13 35, .use 1 13 36,
  .use 1 13 49, .use 1 13 50, .use 1 17 70, .use 1 17 72, .use 1 18 20, .use 1 18 68, .use 1 18 71,
  .use 1 18 73, .use 1 18 74, .use 2 0 5, .use 2 0 6, .use 2 0 63, .use 2 1 8, .use 2 2 9, .use 2 2 10,
  .use 2 2 65, .use 2 4 181, .use 2 4 192, .use 2 7 188, .use 2 7 207, .use 2 9 33, .use 2 9 34,
  .use 2 9 81, .use 2 10 58, .use 2 11 161, .use 2 12 104, .use 2 12 133, .use 2 12 167, .use 2 12 170,
  .use 2 12 171, .use 2 12 218, .use 2 16 219, .use 2 16 220, .use 0 0 7, .use 0 0 64, .use 0 1 38,
  .use 0 1 39, .use 0 1 40, .use 0 1 41, .use 0 4 154, .use 0 4 225, .use 0 6 4, .use 0 6 21, .use 0 6 22,
  .use 0 6 43, .use 0 12 92, .use 0 12 93, .use 0 12 95, .use 0 12 96, .use 0 12 98, .use 0 12 99,
  .use 0 12 101, .use 0 12 102, .use 0 12 103, .use 0 12 163, .use 0 12 166, .use 0 12 173, .use 0 12 174,
  .use 0 14 1, .use 0 14 2, .use 0 14 3, .use 0 14 18, .use 0 14 24, .use 0 14 25, .use 0 14 26,
  .use 0 14 31, .use 0 14 42, .use 0 14 54, .use 0 14 59, .use 0 14 69, .use 0 14 86, .use 0 18 0,
  .use 0 18 30, .use 0 18 62, .use 0 18 84, .define 179 1179, .define 90 1090, .define 211 1211,
  .define 202 202, .define 180 180, .define 91 91, .define 185 185, .define 213 213, .define 182 182,
  .define 203 203, .define 189 189, .define 197 197, .define 115 1115, .define 196 1196, .define 195 1195,
  .define 206 1206, .define 198 1198, .define 212 1212, .define 205 205, .define 190 190, .define 187 187,
  .define 208 208, .define 204 204, .define 193 193, .define 224 224, .define 143 143, .define 129 129,
  .define 169 169, .define 176 176, .define 131 131, .define 140 1140, .define 139 1139, .define 116 1116,
  .define 151 1151, .define 111 1111, .define 130 1130, .define 165 165, .define 177 177, .define 223 223,
  .define 126 126, .define 124 124, .define 217 217, .define 100 100, .define 142 142, .define 119 119,
  .define 120 120, .define 144 144, .define 108 108, .define 153 153, .define 145 145, .define 121 121,
  .define 117 117, .define 118 118, .define 149 149, .define 148 148, .define 135 135, .define 113 113,
  .define 160 160, .define 105 105, .define 162 162, .define 127 127, .define 210 210, .define 209 209]

/-- /repo/ethereum-consensus/src/capella/spec/mod.rs, but for the fixed imports -/
def capellaSpec : List Export := [
  .use 1 6 52, .use 1 6 53, .use 1 6 60, .use 1 6 61, .use 1 6 75, .use 1 6 76, .use 1 6 77, .use 1 6 78,
  .use 1 6 79, .use 1 6 80, .use 1 6 87, .use 1 12 89, .use 1 12 159, .use 1 13 16, .use 1 13 17,
  .use 1 13 35, .use 1 13 36, .use 1 13 49, .use 1 13 50, .use 1 17 70, .use 1 17 72, .use 1 18 20,
  .use 1 18 68, .use 1 18 71, .use 1 18 73, .use 1 18 74, .use 2 9 81, .use 2 10 58, .use 3 0 5,
  .use 3 0 6, .use 3 0 63, .use 3 1 8, .use 3 2 9, .use 3 2 10, .use 3 2 65, .use 3 4 128, .use 3 4 181,
  .use 3 4 183, .use 3 4 192, .use 3 4 197, .use 3 4 214, .use 3 5 15, .use 3 5 66, .use 3 7 188,
  .use 3 7 194, .use 3 9 33, .use 3 9 34, .use 3 11 161, .use 3 12 157, .use 3 12 168, .use 3 12 172,
  .use 3 13 44, .use 3 13 45, .use 3 13 46, .use 3 13 47, .use 3 13 48, .use 3 13 28, .use 3 13 29,
  .use 3 19 88, .use 0 0 7, .use 0 0 64, .use 0 1 38, .use 0 1 39, .use 0 1 40, .use 0 1 41, .use 0 4 154,
  .use 0 4 225, .use 0 6 4, .use 0 6 21, .use 0 6 22, .use 0 6 43, .use 0 12 92, .use 0 12 93,
  .use 0 12 95, .use 0 12 96, .use 0 12 98, .use 0 12 99, .use 0 12 101, .use 0 12 102, .use 0 12 103,
  .use 0 12 163, .use 0 12 166, .use 0 12 173, .use 0 12 174, .use 0 14 1, .use 0 14 2, .use 0 14 3,
  .use 0 14 18, .use 0 14 24, .use 0 14 25, .use 0 14 26, .use 0 14 31, .use 0 14 42, .use 0 14 54,
  .use 0 14 59, .use 0 14 69, .use 0 14 86, .use 0 18 0, .use 0 18 30, .use 0 18 62, .use 0 18 84,
  .define 179 1179, .define 90 1090, .define 211 1211, .define 202 202, .define 180 180, .define 91 91,
  .define 185 185, .define 213 213, .define 182 182, .define 203 203, .define 189 189, .define 207 2207,
  .define 115 1115, .define 196 1196, .define 195 1195, .define 206 1206, .define 198 1198,
  .define 212 1212, .define 205 205, .define 190 190, .define 187 187, .define 208 208, .define 204 204,
  .define 193 193, .define 224 224, .define 143 143, .define 129 129, .define 169 169, .define 176 176,
  .define 131 131, .define 133 2133, .define 218 2218, .define 171 2171, .define 170 2170,
  .define 167 2167, .define 104 2104, .define 140 1140, .define 139 1139, .define 116 1116,
  .define 151 1151, .define 111 1111, .define 130 1130, .define 165 165, .define 177 177, .define 223 223,
  .define 126 126, .define 124 124, .define 217 217, .define 100 100, .define 142 142, .define 119 119,
  .define 120 120, .define 144 144, .define 108 108, .define 153 153, .define 145 145, .define 121 121,
  .define 117 117, .define 118 118, .define 149 149, .define 148 148, .define 135 135, .define 113 113,
  .define 160 160, .define 105 105, .define 162 162, .define 127 127, .define 210 210, .define 209 209,
  .define 220 2220, .define 219 2219]

/-- /repo/ethereum-consensus/src/deneb/spec/mod.rs, but for the fixed imports -/
def denebSpec : List Export := [
  .use 1 6 52, .use 1 6 53, .use 1 6 60, .use 1 6 61, .use 1 6 75, .use 1 6 76, .use 1 6 77, .use 1 6 78,
  .use 1 6 79, .use 1 6 80, .use 1 6 87, .use 1 12 89, .use 1 12 159, .use 1 13 16, .use 1 13 17,
  .use 1 13 35, .use 1 13 36, .use 1 13 49, .use 1 13 50, .use 1 17 70, .use 1 17 72, .use 1 18 20,
  .use 1 18 68, .use 1 18 71, .use 1 18 73, .use 1 18 74, .use 2 9 81, .use 2 10 58, .use 3 5 15,
  .use 3 5 66, .use 3 12 157, .use 3 12 168, .use 3 12 172, .use 3 13 28, .use 3 13 29, .use 3 19 88,
  .use 4 0 5, .use 4 0 6, .use 4 0 63, .use 4 1 8, .use 4 2 9, .use 4 2 10, .use 4 2 65, .use 4 3 222,
  .use 4 3 11, .use 4 3 12, .use 4 3 13, .use 4 3 14, .use 4 3 85, .use 4 3 83, .use 4 4 179, .use 4 4 181,
  .use 4 4 192, .use 4 4 213, .use 4 7 205, .use 4 8 51, .use 4 9 33, .use 4 9 34, .use 4 11 161,
  .use 4 12 111, .use 4 12 152, .use 4 12 178, .use 4 13 44, .use 4 13 45, .use 4 13 46, .use 4 13 47,
  .use 4 13 48, .use 0 0 7, .use 0 0 64, .use 0 1 38, .use 0 1 39, .use 0 1 40, .use 0 1 41, .use 0 4 154,
  .use 0 4 225, .use 0 6 4, .use 0 6 21, .use 0 6 22, .use 0 6 43, .use 0 12 92, .use 0 12 93,
  .use 0 12 95, .use 0 12 96, .use 0 12 98, .use 0 12 99, .use 0 12 101, .use 0 12 102, .use 0 12 103,
  .use 0 12 163, .use 0 12 166, .use 0 12 173, .use 0 12 174, .use 0 14 1, .use 0 14 2, .use 0 14 3,
  .use 0 14 18, .use 0 14 24, .use 0 14 25, .use 0 14 26, .use 0 14 31, .use 0 14 42, .use 0 14 54,
  .use 0 14 59, .use 0 14 69, .use 0 14 86, .use 0 18 0, .use 0 18 30, .use 0 18 62, .use 0 18 84,
  .define 183 3183, .define 197 3197, .define 214 3214, .define 128 3128, .define 90 1090,
  .define 211 1211, .define 202 202, .define 180 180, .define 91 91, .define 185 185, .define 182 182,
  .define 203 203, .define 189 189, .define 194 3194, .define 188 3188, .define 207 2207, .define 115 1115,
  .define 196 1196, .define 195 1195, .define 206 1206, .define 198 1198, .define 212 1212,
  .define 190 190, .define 187 187, .define 208 208, .define 204 204, .define 193 193, .define 224 224,
  .define 143 143, .define 129 129, .define 169 169, .define 176 176, .define 131 131, .define 133 2133,
  .define 218 2218, .define 171 2171, .define 170 2170, .define 167 2167, .define 104 2104,
  .define 140 1140, .define 139 1139, .define 116 1116, .define 151 1151, .define 130 1130,
  .define 165 165, .define 177 177, .define 223 223, .define 126 126, .define 124 124, .define 217 217,
  .define 100 100, .define 142 142, .define 119 119, .define 120 120, .define 144 144, .define 108 108,
  .define 153 153, .define 145 145, .define 121 121, .define 117 117, .define 118 118, .define 149 149,
  .define 148 148, .define 135 135, .define 113 113, .define 160 160, .define 105 105, .define 162 162,
  .define 127 127, .define 210 210, .define 209 209, .define 220 2220, .define 219 2219]

/-- /repo/ethereum-consensus/src/electra/spec/mod.rs, but for the fixed imports -/
def electraSpec : List Export := [
  .use 1 6 52, .use 1 6 53, .use 1 6 60, .use 1 6 61, .use 1 6 75, .use 1 6 76, .use 1 6 77, .use 1 6 78,
  .use 1 6 79, .use 1 6 80, .use 1 6 87, .use 1 12 89, .use 1 12 159, .use 1 13 16, .use 1 13 17,
  .use 1 13 35, .use 1 13 36, .use 1 13 49, .use 1 13 50, .use 1 17 70, .use 1 17 72, .use 1 18 20,
  .use 1 18 68, .use 1 18 71, .use 1 18 73, .use 1 18 74, .use 2 9 81, .use 2 10 58, .use 3 5 15,
  .use 3 5 66, .use 3 12 157, .use 3 13 28, .use 3 13 29, .use 3 19 88, .use 4 2 9, .use 4 2 10,
  .use 4 2 65, .use 4 3 222, .use 4 3 11, .use 4 3 12, .use 4 3 13, .use 4 3 14, .use 4 3 85, .use 4 3 83,
  .use 4 12 178, .use 4 13 44, .use 4 13 45, .use 4 13 46, .use 4 13 47, .use 4 13 48, .use 5 0 5,
  .use 5 0 6, .use 5 0 63, .use 5 1 8, .use 5 1 27, .use 5 1 32, .use 5 1 55, .use 5 1 56, .use 5 1 57,
  .use 5 4 90, .use 5 4 91, .use 5 4 128, .use 5 4 154, .use 5 4 175, .use 5 4 179, .use 5 4 184,
  .use 5 4 186, .use 5 4 191, .use 5 4 192, .use 5 4 197, .use 5 4 213, .use 5 4 214, .use 5 6 37,
  .use 5 6 82, .use 5 7 187, .use 5 7 188, .use 5 7 200, .use 5 7 201, .use 5 7 205, .use 5 8 51,
  .use 5 9 33, .use 5 9 34, .use 5 11 161, .use 5 12 94, .use 5 12 97, .use 5 12 106, .use 5 12 107,
  .use 5 12 113, .use 5 12 114, .use 5 12 122, .use 5 12 123, .use 5 12 135, .use 5 12 141, .use 5 12 155,
  .use 5 12 156, .use 5 12 158, .use 5 12 162, .use 5 12 164, .use 5 12 166, .use 5 12 168, .use 5 12 172,
  .use 5 12 215, .use 5 12 216, .use 5 12 218, .use 5 12 221, .use 5 14 1, .use 5 14 3, .use 5 14 19,
  .use 5 14 42, .use 5 14 67, .use 0 0 7, .use 0 0 64, .use 0 1 38, .use 0 1 39, .use 0 1 40, .use 0 1 41,
  .use 0 4 225, .use 0 6 4, .use 0 6 21, .use 0 6 22, .use 0 6 43, .use 0 12 92, .use 0 12 93,
  .use 0 12 95, .use 0 12 96, .use 0 12 98, .use 0 12 99, .use 0 12 101, .use 0 12 102, .use 0 12 103,
  .use 0 12 163, .use 0 12 173, .use 0 12 174, .use 0 14 2, .use 0 14 18, .use 0 14 24, .use 0 14 25,
  .use 0 14 26, .use 0 14 31, .use 0 14 54, .use 0 14 59, .use 0 14 69, .use 0 14 86, .use 0 18 0,
  .use 0 18 30, .use 0 18 62, .use 0 18 84, .define 181 4181, .define 183 3183, .define 211 1211,
  .define 202 202, .define 180 180, .define 185 185, .define 182 182, .define 203 203, .define 189 189,
  .define 194 3194, .define 207 2207, .define 115 1115, .define 196 1196, .define 195 1195,
  .define 206 1206, .define 198 1198, .define 212 1212, .define 190 190, .define 208 208, .define 204 204,
  .define 193 193, .define 224 224, .define 143 143, .define 129 129, .define 169 169, .define 176 176,
  .define 131 131, .define 111 4111, .define 152 4152, .define 133 2133, .define 171 2171,
  .define 170 2170, .define 167 2167, .define 104 2104, .define 140 1140, .define 139 1139,
  .define 116 1116, .define 151 1151, .define 130 1130, .define 165 165, .define 177 177, .define 223 223,
  .define 126 126, .define 124 124, .define 217 217, .define 100 100, .define 142 142, .define 119 119,
  .define 120 120, .define 144 144, .define 108 108, .define 153 153, .define 145 145, .define 121 121,
  .define 117 117, .define 118 118, .define 149 149, .define 148 148, .define 160 160, .define 105 105,
  .define 127 127, .define 210 210, .define 209 209, .define 220 2220, .define 219 2219]

/-- The generated modules, in order. -/
def committed : List (List Export) := [phase0Spec, altairSpec, bellatrixSpec, capellaSpec, denebSpec, electraSpec]

/-
Files:
  0 beacon_block, 1 beacon_state, 2 blinded_beacon_block, 3 blob_sidecar, 4 block_processing,
  5 bls_to_execution_change, 6 constants, 7 epoch_processing, 8 execution_engine, 9 execution_payload,
  10 fork_choice, 11 genesis, 12 helpers, 13 light_client, 14 operations, 15 slot_processing,
  16 state_transition, 17 sync, 18 validator, 19 withdrawal
Names:
  0 AggregateAndProof, 1 Attestation, 2 AttestationData, 3 AttesterSlashing, 4 BASE_REWARDS_PER_EPOCH,
  5 BeaconBlock, 6 BeaconBlockBody, 7 BeaconBlockHeader, 8 BeaconState, 9 BlindedBeaconBlock,
  10 BlindedBeaconBlockBody, 11 Blob, 12 BlobIdentifier, 13 BlobSidecar, 14 BlobsBundle,
  15 BlsToExecutionChange, 16 CURRENT_SYNC_COMMITTEE_INDEX, 17 CURRENT_SYNC_COMMITTEE_INDEX_FLOOR_LOG_2,
  18 Checkpoint, 19 Consolidation, 20 ContributionAndProof, 21 DEPOSIT_CONTRACT_TREE_DEPTH,
  22 DEPOSIT_DATA_LIST_BOUND, 23 DEPOSIT_PROOF_LENGTH, 24 Deposit, 25 DepositData, 26 DepositMessage,
  27 DepositReceipt, 28 EXECUTION_PAYLOAD_INDEX, 29 EXECUTION_PAYLOAD_INDEX_FLOOR_LOG_2, 30 Eth1Block,
  31 Eth1Data, 32 ExecutionLayerWithdrawalRequest, 33 ExecutionPayload, 34 ExecutionPayloadHeader,
  35 FINALIZED_ROOT_INDEX, 36 FINALIZED_ROOT_INDEX_FLOOR_LOG_2, 37 FULL_EXIT_REQUEST_AMOUNT, 38 Fork,
  39 ForkData, 40 HistoricalBatch, 41 HistoricalSummary, 42 IndexedAttestation,
  43 JUSTIFICATION_BITS_LENGTH, 44 LightClientBootstrap, 45 LightClientFinalityUpdate,
  46 LightClientHeader, 47 LightClientOptimisticUpdate, 48 LightClientUpdate, 49 NEXT_SYNC_COMMITTEE_INDEX,
  50 NEXT_SYNC_COMMITTEE_INDEX_FLOOR_LOG_2, 51 NewPayloadRequest, 52 PARTICIPATION_FLAG_WEIGHTS,
  53 PROPOSER_WEIGHT, 54 PendingAttestation, 55 PendingBalanceDeposit, 56 PendingConsolidation,
  57 PendingPartialWithdrawal, 58 PowBlock, 59 ProposerSlashing, 60 SYNC_COMMITTEE_SUBNET_COUNT,
  61 SYNC_REWARD_WEIGHT, 62 SignedAggregateAndProof, 63 SignedBeaconBlock, 64 SignedBeaconBlockHeader,
  65 SignedBlindedBeaconBlock, 66 SignedBlsToExecutionChange, 67 SignedConsolidation,
  68 SignedContributionAndProof, 69 SignedVoluntaryExit, 70 SyncAggregate, 71 SyncAggregatorSelectionData,
  72 SyncCommittee, 73 SyncCommitteeContribution, 74 SyncCommitteeMessage, 75 TIMELY_HEAD_FLAG_INDEX,
  76 TIMELY_HEAD_WEIGHT, 77 TIMELY_SOURCE_FLAG_INDEX, 78 TIMELY_SOURCE_WEIGHT, 79 TIMELY_TARGET_FLAG_INDEX,
  80 TIMELY_TARGET_WEIGHT, 81 Transaction, 82 UNSET_DEPOSIT_RECEIPTS_START_INDEX,
  83 VERSIONED_HASH_VERSION_KZG, 84 Validator, 85 VersionedHash, 86 VoluntaryExit, 87 WEIGHT_DENOMINATOR,
  88 Withdrawal, 89 add_flag, 90 add_validator_to_registry, 91 apply_deposit,
  92 compute_activation_exit_epoch, 93 compute_committee, 94 compute_consolidation_epoch_and_update_churn,
  95 compute_domain, 96 compute_epoch_at_slot, 97 compute_exit_epoch_and_update_churn,
  98 compute_fork_data_root, 99 compute_fork_digest, 100 compute_proposer_index,
  101 compute_shuffled_index, 102 compute_shuffled_indices, 103 compute_start_slot_at_epoch,
  104 compute_timestamp_at_slot, 105 decrease_balance, 106 get_activation_exit_churn_limit,
  107 get_active_balance, 108 get_active_validator_indices, 109 get_attestation_component_deltas,
  110 get_attestation_deltas, 111 get_attestation_participation_flag_indices, 112 get_attesting_balance,
  113 get_attesting_indices, 114 get_balance_churn_limit, 115 get_base_reward,
  116 get_base_reward_per_increment, 117 get_beacon_committee, 118 get_beacon_proposer_index,
  119 get_block_root, 120 get_block_root_at_slot, 121 get_committee_count_per_slot,
  122 get_committee_indices, 123 get_consolidation_churn_limit, 124 get_current_epoch,
  125 get_deposit_proof_length, 126 get_domain, 127 get_eligible_validator_indices,
  128 get_expected_withdrawals, 129 get_finality_delay, 130 get_flag_index_deltas, 131 get_genesis_block,
  132 get_head_deltas, 133 get_inactivity_penalty_deltas, 134 get_inclusion_delay_deltas,
  135 get_indexed_attestation, 136 get_matching_head_attestations, 137 get_matching_source_attestations,
  138 get_matching_target_attestations, 139 get_next_sync_committee, 140 get_next_sync_committee_indices,
  141 get_pending_balance_to_withdraw, 142 get_previous_epoch, 143 get_proposer_reward, 144 get_randao_mix,
  145 get_seed, 146 get_source_deltas, 147 get_target_deltas, 148 get_total_active_balance,
  149 get_total_balance, 150 get_unslashed_attesting_indices, 151 get_unslashed_participating_indices,
  152 get_validator_activation_churn_limit, 153 get_validator_churn_limit, 154 get_validator_from_deposit,
  155 get_validator_max_effective_balance, 156 has_compounding_withdrawal_credential,
  157 has_eth1_withdrawal_credential, 158 has_execution_withdrawal_credential, 159 has_flag,
  160 increase_balance, 161 initialize_beacon_state_from_eth1, 162 initiate_validator_exit,
  163 is_active_validator, 164 is_compounding_withdrawal_credential, 165 is_eligible_for_activation,
  166 is_eligible_for_activation_queue, 167 is_execution_enabled, 168 is_fully_withdrawable_validator,
  169 is_in_inactivity_leak, 170 is_merge_transition_block, 171 is_merge_transition_complete,
  172 is_partially_withdrawable_validator, 173 is_slashable_attestation_data, 174 is_slashable_validator,
  175 is_valid_deposit_signature, 176 is_valid_genesis_state, 177 is_valid_indexed_attestation,
  178 kzg_commitment_to_versioned_hash, 179 process_attestation, 180 process_attester_slashing,
  181 process_block, 182 process_block_header, 183 process_bls_to_execution_change,
  184 process_consolidation, 185 process_deposit, 186 process_deposit_receipt,
  187 process_effective_balance_updates, 188 process_epoch, 189 process_eth1_data,
  190 process_eth1_data_reset, 191 process_execution_layer_withdrawal_request,
  192 process_execution_payload, 193 process_historical_roots_update,
  194 process_historical_summaries_update, 195 process_inactivity_updates,
  196 process_justification_and_finalization, 197 process_operations,
  198 process_participation_flag_updates, 199 process_participation_record_updates,
  200 process_pending_balance_deposits, 201 process_pending_consolidations, 202 process_proposer_slashing,
  203 process_randao, 204 process_randao_mixes_reset, 205 process_registry_updates,
  206 process_rewards_and_penalties, 207 process_slashings, 208 process_slashings_reset, 209 process_slot,
  210 process_slots, 211 process_sync_aggregate, 212 process_sync_committee_updates,
  213 process_voluntary_exit, 214 process_withdrawals, 215 queue_entire_balance_and_reset_validator,
  216 queue_excess_active_balance, 217 sample_proposer_index, 218 slash_validator, 219 state_transition,
  220 state_transition_block_in_slot, 221 switch_to_compounding_validator,
  222 verify_blob_sidecar_inclusion_proof, 223 verify_block_signature,
  224 weigh_justification_and_finalization, 225 xor
-/

end Verif.SpecGen.Repo
