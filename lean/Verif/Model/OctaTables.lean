import Verif.Model.Angular

/-!
# Octahedral angular grids: `s2/lebedev_laikov/*.hpp`, `s2/delley/*.hpp`

The static arrays of these two families are lists of orbits of the octahedral group: consecutive
points with the same absolute values of the coordinates (up to order) and the same weight.  Each
orbit of one kind is written in the files in one fixed order of signs and permutations.  An orbit
is stored here as its kind, the values occurring in it (in order of first appearance) and its
weight; `octaPoints` writes out the points in file order.  The script that made the tables checked
that this reproduces every number of every file exactly.

Decimal literals are exact here: coordinates are multiples of `10^-18`, weights of `10^-21`.
-/

namespace IntegratorXX

open Arith

/-- The kinds of orbits: 6, 8, 12, 24, 24 and 48 points.
Encodes `s2/lebedev_laikov/*.hpp` and `s2/delley/*.hpp`, from line 13. -/
inductive OctaKind where
  | vertex
  | face
  | edge
  | plane
  | mirror
  | general
deriving DecidableEq, Repr

/-- An orbit: the values `a`, `b`, `c` in units of `10^-18` (0 when there are fewer), and the weight in
units of `10^-21`. -/
structure OctaRow where
  kind : OctaKind
  a : Nat
  b : Nat
  c : Nat
  w : Int
deriving DecidableEq, Repr

/-- Signs and places of the points of an orbit in the files `s2/lebedev_laikov/lebedev_laikov_<n>.hpp`:
`±1`, `±2`, `±3` stand for `±a`, `±b`, `±c`. -/
def OctaKind.llPattern : OctaKind → List (Int × Int × Int)
  | .vertex => [
   (1, 0, 0), (-1, 0, 0), (0, 1, 0), (0, -1, 0), (0, 0, 1), (0, 0, -1)]
  | .face => [
   (1, 1, 1), (-1, 1, 1), (1, -1, 1), (-1, -1, 1), (1, 1, -1), (-1, 1, -1),
   (1, -1, -1), (-1, -1, -1)]
  | .edge => [
   (0, 1, 1), (0, -1, 1), (0, 1, -1), (0, -1, -1), (1, 0, 1), (-1, 0, 1),
   (1, 0, -1), (-1, 0, -1), (1, 1, 0), (-1, 1, 0), (1, -1, 0), (-1, -1, 0)]
  | .plane => [
   (1, 2, 0), (-1, 2, 0), (1, -2, 0), (-1, -2, 0), (2, 1, 0), (-2, 1, 0),
   (2, -1, 0), (-2, -1, 0), (1, 0, 2), (-1, 0, 2), (1, 0, -2), (-1, 0, -2),
   (2, 0, 1), (-2, 0, 1), (2, 0, -1), (-2, 0, -1), (0, 1, 2), (0, -1, 2),
   (0, 1, -2), (0, -1, -2), (0, 2, 1), (0, -2, 1), (0, 2, -1), (0, -2, -1)]
  | .mirror => [
   (1, 1, 2), (-1, 1, 2), (1, -1, 2), (-1, -1, 2), (1, 1, -2), (-1, 1, -2),
   (1, -1, -2), (-1, -1, -2), (1, 2, 1), (-1, 2, 1), (1, -2, 1), (-1, -2, 1),
   (1, 2, -1), (-1, 2, -1), (1, -2, -1), (-1, -2, -1), (2, 1, 1), (-2, 1, 1),
   (2, -1, 1), (-2, -1, 1), (2, 1, -1), (-2, 1, -1), (2, -1, -1), (-2, -1, -1)]
  | .general => [
   (1, 2, 3), (-1, 2, 3), (1, -2, 3), (-1, -2, 3), (1, 2, -3), (-1, 2, -3),
   (1, -2, -3), (-1, -2, -3), (1, 3, 2), (-1, 3, 2), (1, -3, 2), (-1, -3, 2),
   (1, 3, -2), (-1, 3, -2), (1, -3, -2), (-1, -3, -2), (2, 1, 3), (-2, 1, 3),
   (2, -1, 3), (-2, -1, 3), (2, 1, -3), (-2, 1, -3), (2, -1, -3), (-2, -1, -3),
   (2, 3, 1), (-2, 3, 1), (2, -3, 1), (-2, -3, 1), (2, 3, -1), (-2, 3, -1),
   (2, -3, -1), (-2, -3, -1), (3, 1, 2), (-3, 1, 2), (3, -1, 2), (-3, -1, 2),
   (3, 1, -2), (-3, 1, -2), (3, -1, -2), (-3, -1, -2), (3, 2, 1), (-3, 2, 1),
   (3, -2, 1), (-3, -2, 1), (3, 2, -1), (-3, 2, -1), (3, -2, -1), (-3, -2, -1)]

/-- The same for `s2/delley/delley_<n>.hpp`. -/
def OctaKind.dePattern : OctaKind → List (Int × Int × Int)
  | .vertex => [
   (1, 0, 0), (-1, 0, 0), (0, 1, 0), (0, -1, 0), (0, 0, 1), (0, 0, -1)]
  | .face => [
   (1, 1, 1), (1, 1, -1), (1, -1, 1), (1, -1, -1), (-1, 1, 1), (-1, 1, -1),
   (-1, -1, 1), (-1, -1, -1)]
  | .edge => [
   (1, 1, 0), (0, 1, 1), (1, 0, 1), (1, -1, 0), (0, 1, -1), (-1, 0, 1),
   (-1, 1, 0), (0, -1, 1), (1, 0, -1), (-1, -1, 0), (0, -1, -1), (-1, 0, -1)]
  | .plane => [
   (0, 1, 2), (2, 0, 1), (1, 2, 0), (0, 2, 1), (1, 0, 2), (2, 1, 0),
   (0, 1, -2), (-2, 0, 1), (1, -2, 0), (0, -2, 1), (1, 0, -2), (-2, 1, 0),
   (0, -1, 2), (2, 0, -1), (-1, 2, 0), (0, 2, -1), (-1, 0, 2), (2, -1, 0),
   (0, -1, -2), (-2, 0, -1), (-1, -2, 0), (0, -2, -1), (-1, 0, -2), (-2, -1, 0)]
  | .mirror => [
   (1, 2, 2), (2, 1, 2), (2, 2, 1), (1, 2, -2), (2, 1, -2), (2, 2, -1),
   (1, -2, 2), (2, -1, 2), (2, -2, 1), (1, -2, -2), (2, -1, -2), (2, -2, -1),
   (-1, 2, 2), (-2, 1, 2), (-2, 2, 1), (-1, 2, -2), (-2, 1, -2), (-2, 2, -1),
   (-1, -2, 2), (-2, -1, 2), (-2, -2, 1), (-1, -2, -2), (-2, -1, -2), (-2, -2, -1)]
  | .general => [
   (1, 2, 3), (1, 3, 2), (3, 1, 2), (2, 1, 3), (2, 3, 1), (3, 2, 1),
   (1, 2, -3), (1, -3, 2), (-3, 1, 2), (2, 1, -3), (2, -3, 1), (-3, 2, 1),
   (1, -2, 3), (1, 3, -2), (3, 1, -2), (-2, 1, 3), (-2, 3, 1), (3, -2, 1),
   (1, -2, -3), (1, -3, -2), (-3, 1, -2), (-2, 1, -3), (-2, -3, 1), (-3, -2, 1),
   (-1, 2, 3), (-1, 3, 2), (3, -1, 2), (2, -1, 3), (2, 3, -1), (3, 2, -1),
   (-1, 2, -3), (-1, -3, 2), (-3, -1, 2), (2, -1, -3), (2, -3, -1), (-3, 2, -1),
   (-1, -2, 3), (-1, 3, -2), (3, -1, -2), (-2, -1, 3), (-2, 3, -1), (3, -2, -1),
   (-1, -2, -3), (-1, -3, -2), (-3, -1, -2), (-2, -1, -3), (-2, -3, -1), (-3, -2, -1)]

/-- The value of a signed place.
A coordinate in `s2/lebedev_laikov/*.hpp`, `s2/delley/*.hpp`. -/
def OctaRow.coord (r : OctaRow) (s : Int) : Rat :=
  match s with
  | 1 => (r.a : Rat) / 10 ^ 18
  | -1 => -((r.a : Rat) / 10 ^ 18)
  | 2 => (r.b : Rat) / 10 ^ 18
  | -2 => -((r.b : Rat) / 10 ^ 18)
  | 3 => (r.c : Rat) / 10 ^ 18
  | -3 => -((r.c : Rat) / 10 ^ 18)
  | _ => 0

/-- The points of an orbit in file order.
Consecutive lines of `s2/lebedev_laikov/*.hpp`, `s2/delley/*.hpp`, from line 14. -/
def octaPoints {F : Type} [Arith F] (pattern : OctaKind → List (Int × Int × Int)) (r : OctaRow) :
    List (Pt F) :=
  (pattern r.kind).map (fun t => ⟨lit (r.coord t.1), lit (r.coord t.2.1), lit (r.coord t.2.2)⟩)

/-- The weights of an orbit.
The `weights` of `s2/lebedev_laikov/*.hpp`, `s2/delley/*.hpp`. -/
def octaWeights {F : Type} [Arith F] (pattern : OctaKind → List (Int × Int × Int)) (r : OctaRow) :
    List F :=
  (pattern r.kind).map (fun _ => lit ((r.w : Rat) / 10 ^ 21))

/-- The static arrays given by a list of orbits.
`s2/lebedev_laikov/*.hpp`, `s2/delley/*.hpp`, from line 13. -/
def octaGrid {F : Type} [Arith F] (pattern : OctaKind → List (Int × Int × Int))
    (rows : List OctaRow) : StaticGrid F :=
  ⟨rows.flatMap (octaPoints pattern), rows.flatMap (octaWeights pattern)⟩

namespace Tables

/-- `s2/lebedev_laikov/lebedev_laikov_6.hpp:13-20`, `23-30`, `points` and `weights`. -/
def llRows6 : List OctaRow := [
   ⟨.vertex, 1000000000000000000, 0, 0, 166666666666666700000⟩]

/-- `s2/lebedev_laikov/lebedev_laikov_14.hpp:13-28`, `31-46`, `points` and `weights`. -/
def llRows14 : List OctaRow := [
   ⟨.vertex, 1000000000000000000, 0, 0, 66666666666666670000⟩,
   ⟨.face, 577350269189625700, 0, 0, 75000000000000000000⟩]

/-- `s2/lebedev_laikov/lebedev_laikov_26.hpp:13-40`, `43-70`, `points` and `weights`. -/
def llRows26 : List OctaRow := [
   ⟨.vertex, 1000000000000000000, 0, 0, 47619047619047620000⟩,
   ⟨.edge, 707106781186547600, 0, 0, 38095238095238100000⟩,
   ⟨.face, 577350269189625700, 0, 0, 32142857142857140000⟩]

/-- `s2/lebedev_laikov/lebedev_laikov_38.hpp:13-52`, `55-94`, `points` and `weights`. -/
def llRows38 : List OctaRow := [
   ⟨.vertex, 1000000000000000000, 0, 0, 9523809523809525000⟩,
   ⟨.face, 577350269189625700, 0, 0, 32142857142857140000⟩,
   ⟨.plane, 459700843380983100, 888073833977115300, 0, 28571428571428570000⟩]

/-- `s2/lebedev_laikov/lebedev_laikov_50.hpp:13-64`, `67-118`, `points` and `weights`. -/
def llRows50 : List OctaRow := [
   ⟨.vertex, 1000000000000000000, 0, 0, 12698412698412700000⟩,
   ⟨.edge, 707106781186547600, 0, 0, 22574955908289240000⟩,
   ⟨.face, 577350269189625700, 0, 0, 21093750000000000000⟩,
   ⟨.mirror, 301511344577763600, 904534033733290900, 0, 20173335537918870000⟩]

/-- `s2/lebedev_laikov/lebedev_laikov_74.hpp:13-88`, `91-166`, `points` and `weights`. -/
def llRows74 : List OctaRow := [
   ⟨.vertex, 1000000000000000000, 0, 0, 513067179733846400⟩,
   ⟨.edge, 707106781186547600, 0, 0, 16604069565742040000⟩,
   ⟨.face, 577350269189625700, 0, 0, -29586038961038960000⟩,
   ⟨.mirror, 480384461415261400, 733799385705342800, 0, 26576207082159460000⟩,
   ⟨.plane, 320772648980776400, 947156221362587900, 0, 16522170993715710000⟩]

/-- `s2/lebedev_laikov/lebedev_laikov_86.hpp:13-100`, `103-190`, `points` and `weights`. -/
def llRows86 : List OctaRow := [
   ⟨.vertex, 1000000000000000000, 0, 0, 11544011544011540000⟩,
   ⟨.face, 577350269189625700, 0, 0, 11943909085856280000⟩,
   ⟨.mirror, 369602846454150200, 852518311701267600, 0, 11110555710603400000⟩,
   ⟨.mirror, 694354006602666400, 189063552885395000, 0, 11876501294537140000⟩,
   ⟨.plane, 374243039090341200, 927330657151172500, 0, 11812303746904480000⟩]

/-- `s2/lebedev_laikov/lebedev_laikov_110.hpp:13-124`, `127-238`, `points` and `weights`. -/
def llRows110 : List OctaRow := [
   ⟨.vertex, 1000000000000000000, 0, 0, 3828270494937162000⟩,
   ⟨.face, 577350269189625700, 0, 0, 9793737512487513000⟩,
   ⟨.mirror, 185115635344736200, 965124035086594100, 0, 8211737283191111000⟩,
   ⟨.mirror, 690421048382292200, 215957291845848400, 0, 9942814891178103000⟩,
   ⟨.mirror, 395689473055941900, 828769981252592300, 0, 9595471336070962000⟩,
   ⟨.plane, 478369028812150200, 878158910604066100, 0, 9694996361663029000⟩]

/-- `s2/lebedev_laikov/lebedev_laikov_146.hpp:13-160`, `163-310`, `points` and `weights`. -/
def llRows146 : List OctaRow := [
   ⟨.vertex, 1000000000000000000, 0, 0, 599631368862138100⟩,
   ⟨.edge, 707106781186547600, 0, 0, 7372999718620756000⟩,
   ⟨.face, 577350269189625700, 0, 0, 7210515360144488000⟩,
   ⟨.mirror, 676441040011426400, 291298882209526800, 0, 7116355493117555000⟩,
   ⟨.mirror, 417496122796545300, 807089818359582600, 0, 6753829486314477000⟩,
   ⟨.mirror, 157467667203908200, 974888643677173200, 0, 7574394159054034000⟩,
   ⟨.general, 140355381171318300, 449332832326955700, 882270011260322700, 6991087353303262000⟩]

/-- `s2/lebedev_laikov/lebedev_laikov_170.hpp:13-184`, `187-358`, `points` and `weights`. -/
def llRows170 : List OctaRow := [
   ⟨.vertex, 1000000000000000000, 0, 0, 5544842902037365000⟩,
   ⟨.edge, 707106781186547600, 0, 0, 6071332770670752000⟩,
   ⟨.face, 577350269189625700, 0, 0, 6383674773515093000⟩,
   ⟨.mirror, 255125262111413400, 932642590312690600, 0, 5183387587747790000⟩,
   ⟨.mirror, 674360146036276600, 300793595137701500, 0, 6317929009813725000⟩,
   ⟨.mirror, 431891069671941000, 791795559393492100, 0, 6201670006589077000⟩,
   ⟨.plane, 261393136033598800, 965232421976448400, 0, 5477143385137348000⟩,
   ⟨.general, 499045316179603700, 144663074432511500, 854415804684658800, 5968383987681156000⟩]

/-- `s2/lebedev_laikov/lebedev_laikov_194.hpp:13-208`, `211-406`, `points` and `weights`. -/
def llRows194 : List OctaRow := [
   ⟨.vertex, 1000000000000000000, 0, 0, 1782340447244611000⟩,
   ⟨.edge, 707106781186547600, 0, 0, 5716905949977102000⟩,
   ⟨.face, 577350269189625700, 0, 0, 5573383178848738000⟩,
   ⟨.mirror, 671297344269522600, 314196994182586300, 0, 5608704082587997000⟩,
   ⟨.mirror, 289246562757543900, 912509096867473700, 0, 5158237711805383000⟩,
   ⟨.mirror, 444693317871743700, 777493219314767100, 0, 5518771467273614000⟩,
   ⟨.mirror, 129933544765006700, 982972302707253200, 0, 4106777028169394000⟩,
   ⟨.plane, 345770219761128300, 938319218137591600, 0, 5051846064614808000⟩,
   ⟨.general, 159041710538353000, 836036015482458900, 525118572443642000, 5530248916233094000⟩]

/-- `s2/lebedev_laikov/lebedev_laikov_230.hpp:13-244`, `247-478`, `points` and `weights`. -/
def llRows230 : List OctaRow := [
   ⟨.vertex, 1000000000000000000, 0, 0, -55226399197273250000⟩,
   ⟨.face, 577350269189625700, 0, 0, 4450274607445226000⟩,
   ⟨.mirror, 449204468739761100, 772289253148364100, 0, 4496841067921404000⟩,
   ⟨.mirror, 252041949021020100, 934317778845811700, 0, 5049153450478750000⟩,
   ⟨.mirror, 698190665844724200, 158302205463478300, 0, 3976408018051883000⟩,
   ⟨.mirror, 658740524346096000, 363485684956727100, 0, 4401400650381014000⟩,
   ⟨.mirror, 40385440500976600, 998367683967727500, 0, 17245443505444010000⟩,
   ⟨.plane, 582384230971558400, 812913653173365300, 0, 4231083095357343000⟩,
   ⟨.plane, 354587739051868800, 935022745880593000, 0, 5198069864064399000⟩,
   ⟨.general, 227218180899818700, 486466153588664700, 843636521068894300, 4695720972568883000⟩]

/-- `s2/lebedev_laikov/lebedev_laikov_266.hpp:13-280`, `283-550`, `points` and `weights`. -/
def llRows266 : List OctaRow := [
   ⟨.vertex, 1000000000000000000, 0, 0, -1313769127326952000⟩,
   ⟨.edge, 707106781186547600, 0, 0, -2522728704859336000⟩,
   ⟨.face, 577350269189625700, 0, 0, 4186853881700583000⟩,
   ⟨.mirror, 703937339158547500, 94575076403713100, 0, 5315167977810885000⟩,
   ⟨.mirror, 101252624857241400, 989694807462905400, 0, 4047142377086219000⟩,
   ⟨.mirror, 464744872642053900, 753673939250815700, 0, 4112482394406990000⟩,
   ⟨.mirror, 327742065497162900, 886098344997499100, 0, 3595584899758782000⟩,
   ⟨.mirror, 662033866369997400, 351315128564633400, 0, 4256131351428158000⟩,
   ⟨.plane, 850650808352039900, 525731112119133700, 0, 4229582700647240000⟩,
   ⟨.general, 323348454269289900, 115311201100970100, 939227929749915800, 4080914225780505000⟩,
   ⟨.general, 231479015871260100, 524493924092236500, 819343388819120300, 4071467593830964000⟩]

/-- `s2/lebedev_laikov/lebedev_laikov_302.hpp:13-316`, `319-622`, `points` and `weights`. -/
def llRows302 : List OctaRow := [
   ⟨.vertex, 1000000000000000000, 0, 0, 854591172512814800⟩,
   ⟨.face, 577350269189625700, 0, 0, 3599119285025571000⟩,
   ⟨.mirror, 351564034557010500, 867643624544083400, 0, 3449788424305883000⟩,
   ⟨.mirror, 656632941021961200, 371034178384820900, 0, 3604822601419882000⟩,
   ⟨.mirror, 472905413258100500, 743452042987555700, 0, 3576729661743367000⟩,
   ⟨.mirror, 96183085226147840, 990705621379408100, 0, 2352101413689164000⟩,
   ⟨.mirror, 221964523629417800, 949454317226443100, 0, 3108953122413675000⟩,
   ⟨.mirror, 701176641608954500, 129238672710514400, 0, 3650045807677255000⟩,
   ⟨.plane, 264415288706066300, 964408914879206000, 0, 2982344963171804000⟩,
   ⟨.plane, 571895589187896100, 820326419827759300, 0, 3600820932216460000⟩,
   ⟨.general, 251003475177046500, 800072749407395100, 544867737258077400, 3571540554273387000⟩,
   ⟨.general, 123354853258332700, 412772408316853100, 902442529533000400, 3392312205006170000⟩]

/-- `s2/lebedev_laikov/lebedev_laikov_350.hpp:13-364`, `367-718`, `points` and `weights`. -/
def llRows350 : List OctaRow := [
   ⟨.vertex, 1000000000000000000, 0, 0, 3006796749453936000⟩,
   ⟨.face, 577350269189625700, 0, 0, 3050627745650771000⟩,
   ⟨.mirror, 706896546391231600, 24383301669355530, 0, 1621104600288991000⟩,
   ⟨.mirror, 479468262571202500, 734996850587745600, 0, 3005701484901752000⟩,
   ⟨.mirror, 192753315487801900, 962129055136014400, 0, 2990992529653774000⟩,
   ⟨.mirror, 693035796132712300, 198501311223365400, 0, 2982170644107595000⟩,
   ⟨.mirror, 360830211552009100, 860001812127547000, 0, 2721564237310992000⟩,
   ⟨.mirror, 649848616149616900, 394199888605838900, 0, 3033513795811141000⟩,
   ⟨.plane, 193294501323033900, 981140782843257200, 0, 3007949555218533000⟩,
   ⟨.plane, 380049491989930300, 924966152698679000, 0, 2881964603055307000⟩,
   ⟨.general, 289955882549957400, 793453785658231500, 535123047718276200, 2958357626535696000⟩,
   ⟨.general, 96841214551039570, 828080150668686200, 552182074349399300, 3036020026407088000⟩,
   ⟨.general, 183343464704165900, 907465826530512700, 378009189874486700, 2832187403926303000⟩]

/-- `s2/lebedev_laikov/lebedev_laikov_434.hpp:13-448`, `451-886`, `points` and `weights`. -/
def llRows434 : List OctaRow := [
   ⟨.vertex, 1000000000000000000, 0, 0, 526589796822443600⟩,
   ⟨.edge, 707106781186547600, 0, 0, 2548219972002607000⟩,
   ⟨.face, 577350269189625700, 0, 0, 2512317418927307000⟩,
   ⟨.mirror, 690934630750911100, 212646824707551900, 0, 2530403801186355000⟩,
   ⟨.mirror, 177483605460915800, 967987158791472800, 0, 2014279020918528000⟩,
   ⟨.mirror, 491434263778474600, 719016501040843500, 0, 2501725168402936000⟩,
   ⟨.mirror, 645666470742425600, 407712664897769700, 0, 2513267174597564000⟩,
   ⟨.mirror, 286128901030763800, 914472801120872500, 0, 2302694782227416000⟩,
   ⟨.mirror, 75680843671780180, 994255912631277900, 0, 1462495621594614000⟩,
   ⟨.mirror, 392725976336800200, 831584400419232300, 0, 2445373437312980000⟩,
   ⟨.plane, 881813287779428800, 471598691151316000, 0, 2417442375638981000⟩,
   ⟨.plane, 977642811118264900, 210272522857306800, 0, 1910951282179532000⟩,
   ⟨.general, 205482369640304400, 868946032287241200, 450233038258262500, 2416930044324775000⟩,
   ⟨.general, 590515704892527100, 799927854385728600, 106801826075804900, 2512236854563495000⟩,
   ⟨.general, 555015236107680700, 771746262691590100, 310428403516654500, 2496644054553086000⟩,
   ⟨.general, 937180985855372200, 334436314534345500, 99217696364292480, 2236607760437849000⟩]

/-- `s2/lebedev_laikov/lebedev_laikov_590.hpp:13-604`, `607-1198`, `points` and `weights`. -/
def llRows590 : List OctaRow := [
   ⟨.vertex, 1000000000000000000, 0, 0, 309512129530618700⟩,
   ⟨.face, 577350269189625700, 0, 0, 1852379698597489000⟩,
   ⟨.mirror, 704095493822746900, 92190407076898250, 0, 1871790639277744000⟩,
   ⟨.mirror, 680774406645524400, 270356088359164800, 0, 1858812585438317000⟩,
   ⟨.mirror, 637254693925875200, 433373868777154400, 0, 1852028828296213000⟩,
   ⟨.mirror, 504441970780035800, 700768575373573000, 0, 1846715956151242000⟩,
   ⟨.mirror, 421576178401096700, 802836877335273800, 0, 1818471778162769000⟩,
   ⟨.mirror, 331792073647212300, 883078727934132600, 0, 1749564657281154000⟩,
   ⟨.mirror, 238473670142188700, 941414158220402500, 0, 1617210647254411000⟩,
   ⟨.mirror, 145903644915776300, 978480583762693900, 0, 1384737234851692000⟩,
   ⟨.mirror, 60950341155071960, 996278129754016400, 0, 976433116505105000⟩,
   ⟨.plane, 611684344200987600, 791101929626902000, 0, 1857161196774078000⟩,
   ⟨.plane, 396475534819985800, 918045287711454000, 0, 1705153996395864000⟩,
   ⟨.plane, 172478200990772400, 985013335028001900, 0, 1300321685886048000⟩,
   ⟨.general, 561026380862206000, 351828092773351900, 749310611904115900, 1842866472905286000⟩,
   ⟨.general, 474239284255198000, 263471665593795000, 840047488359050400, 1802658934377451000⟩,
   ⟨.general, 598412649788538000, 181664084036020900, 780320742479920300, 1849830560443660000⟩,
   ⟨.general, 379103540769556300, 172079522565687800, 909213475092373600, 1713904507106709000⟩,
   ⟨.general, 277867319058624400, 82130215819325110, 957102074310072500, 1555213603396808000⟩,
   ⟨.general, 503356427107511700, 89992058420748760, 859379855890721200, 1802239128008525000⟩]

/-- `s2/lebedev_laikov/lebedev_laikov_770.hpp:13-784`, `787-1558`, `points` and `weights`. -/
def llRows770 : List OctaRow := [
   ⟨.vertex, 1000000000000000000, 0, 0, 219294208818118400⟩,
   ⟨.edge, 707106781186547600, 0, 0, 1436433617319080000⟩,
   ⟨.face, 577350269189625700, 0, 0, 1421940344335877000⟩,
   ⟨.mirror, 50872044105023600, 997408677652823000, 0, 679812351105050200⟩,
   ⟨.mirror, 122819879017883100, 984799753572301200, 0, 991318423529491100⟩,
   ⟨.mirror, 202689081440878600, 958036675983391400, 0, 1180207833238949000⟩,
   ⟨.mirror, 284774515646429400, 915317950483154800, 0, 1296599602080921000⟩,
   ⟨.mirror, 365671907897802600, 855901928697886500, 0, 1365871427428316000⟩,
   ⟨.mirror, 442826488671346900, 779621319527635100, 0, 1402988604775325000⟩,
   ⟨.mirror, 514061962724973500, 686644447264154300, 0, 1418645563595609000⟩,
   ⟨.mirror, 630640121916680300, 452311920313658400, 0, 1421376741851662000⟩,
   ⟨.mirror, 671688333202261200, 312521305001653300, 0, 1423996475490962000⟩,
   ⟨.mirror, 697979268533688100, 160155803498829000, 0, 1431554042178567000⟩,
   ⟨.plane, 144686567419530900, 989477537495598500, 0, 925440149986536800⟩,
   ⟨.plane, 339026347541121600, 940776878793758700, 0, 1250239995053509000⟩,
   ⟨.plane, 533580465126350600, 845749305193653300, 0, 1394365843329230000⟩,
   ⟨.general, 69440243933494130, 235518789424232600, 969385863498432100, 1127089094671749000⟩,
   ⟨.general, 226900410952946000, 410218247404573000, 883310360522112800, 1345753760910670000⟩,
   ⟨.general, 80255746077753390, 621430241748160500, 779348105702660900, 1424957283316783000⟩,
   ⟨.general, 146799952789657200, 324528434571739400, 934414827052402200, 1261523341237750000⟩,
   ⟨.general, 157150776982472700, 522448218969663000, 838064133458312400, 1392547106052696000⟩,
   ⟨.general, 236570299315724600, 601754663408955800, 762840624604669800, 1418761677877656000⟩,
   ⟨.general, 77148158667657330, 434657551614116300, 897285336132833300, 1338366684479554000⟩,
   ⟨.general, 306293666621073000, 490882658903761600, 815609223203975400, 1393700862676131000⟩,
   ⟨.general, 382247737952478700, 564876814909950000, 731300793659765700, 1415914757466932000⟩]

/-- `s2/lebedev_laikov/lebedev_laikov_974.hpp:13-988`, `991-1966`, `points` and `weights`. -/
def llRows974 : List OctaRow := [
   ⟨.vertex, 1000000000000000000, 0, 0, 143829419052743100⟩,
   ⟨.face, 577350269189625700, 0, 0, 1125772288287004000⟩,
   ⟨.mirror, 42929635453413470, 998155345023846500, 0, 494802934194924100⟩,
   ⟨.mirror, 105142685408640400, 988883224354685600, 0, 735799010912547000⟩,
   ⟨.mirror, 175002486762308700, 968890220434707400, 0, 888913277130438400⟩,
   ⟨.mirror, 247765337965025700, 936602730407163100, 0, 988834783892143500⟩,
   ⟨.mirror, 320656712395595700, 891267942647606100, 0, 1053299681709471000⟩,
   ⟨.mirror, 391652074984998300, 832596723702351900, 0, 1092778807014578000⟩,
   ⟨.mirror, 459082587418762400, 760582905315251400, 0, 1114389394063227000⟩,
   ⟨.mirror, 521456388841586100, 675400969108414300, 0, 1123724788051555000⟩,
   ⟨.mirror, 625317024465419900, 466858905695743200, 0, 1125239325243814000⟩,
   ⟨.mirror, 663792674452317000, 344613654237437900, 0, 1126153271815905000⟩,
   ⟨.mirror, 691041039849830100, 211954151850184300, 0, 1130286931123841000⟩,
   ⟨.mirror, 705290700745776000, 71624401449955550, 0, 1134986534363955000⟩,
   ⟨.plane, 123668676265799000, 992323565431490100, 0, 682336792710993100⟩,
   ⟨.plane, 294077711446838700, 955781512496548400, 0, 945415816044709600⟩,
   ⟨.plane, 469775384920764900, 882785980701181600, 0, 1074429975385679000⟩,
   ⟨.plane, 633456324113956700, 773778447257374800, 0, 1129300086569132000⟩,
   ⟨.general, 59740486141813420, 202912875277752300, 977372722845310000, 843688450090195400⟩,
   ⟨.general, 137576040847363600, 460262194248405400, 877058461865802700, 1075255720448885000⟩,
   ⟨.general, 339101652633628600, 503067399966203600, 794942299964208400, 1108577236864462000⟩,
   ⟨.general, 127167519143982000, 281760642244213400, 951020169374389900, 956647532378335700⟩,
   ⟨.general, 269312074041351200, 433156129172015700, 860143461601762000, 1080663250717391000⟩,
   ⟨.general, 141978645260191800, 625616735858081400, 767102186220558300, 1126797131196295000⟩,
   ⟨.general, 67092846007382550, 379839521685915700, 922616110730809000, 1022568715358061000⟩,
   ⟨.general, 70577381832561720, 551750542142352000, 831017552413474300, 1108960267713108000⟩,
   ⟨.general, 278388847788215500, 602961915615918700, 747620610834085700, 1122790653435766000⟩,
   ⟨.general, 197957893891740700, 358960632958909600, 912118378409121500, 1032401847117460000⟩,
   ⟨.general, 208730706110327400, 534866643813547600, 818748536281021800, 1107249382283854000⟩,
   ⟨.general, 405512213787283600, 567499754607437300, 716591845467023800, 1121780048519972000⟩]

/-- `s2/lebedev_laikov/lebedev_laikov_1202.hpp:13-1216`, `1219-2422`, `points` and `weights`. -/
def llRows1202 : List OctaRow := [
   ⟨.vertex, 1000000000000000000, 0, 0, 110518923326757200⟩,
   ⟨.edge, 707106781186547600, 0, 0, 920523273809074100⟩,
   ⟨.face, 577350269189625700, 0, 0, 913315978644356100⟩,
   ⟨.mirror, 37126364496570890, 998620681799919300, 0, 369042189801789900⟩,
   ⟨.mirror, 91400604122622230, 991610739722013900, 0, 560399092868066000⟩,
   ⟨.mirror, 153107785246990600, 976276606394685100, 0, 686529762928260900⟩,
   ⟨.mirror, 218092889166061200, 951247067480578500, 0, 772033855114563000⟩,
   ⟨.mirror, 283987453220017500, 915806886208668300, 0, 830154595889479500⟩,
   ⟨.mirror, 349117760096376400, 869616915181954100, 0, 868669255017962800⟩,
   ⟨.mirror, 412143146144430900, 812573722299915600, 0, 892707628584689000⟩,
   ⟨.mirror, 471899362714912700, 744729469632106500, 0, 906082023856821900⟩,
   ⟨.mirror, 527314545284233700, 666242253736104400, 0, 911977725494086700⟩,
   ⟨.mirror, 620947533244401900, 478380938076952300, 0, 912872013860418100⟩,
   ⟨.mirror, 656972271185729100, 369830866459425800, 0, 913071493569173500⟩,
   ⟨.mirror, 684178830907014300, 252583955700718300, 0, 915287378455411600⟩,
   ⟨.mirror, 701260433012363100, 128326186659723100, 0, 918743627432165400⟩,
   ⟨.plane, 107238221547816600, 994233354821322400, 0, 517697731296569400⟩,
   ⟨.plane, 258206895949696800, 966089643296119000, 0, 733114368210141700⟩,
   ⟨.plane, 417275295530671700, 908780131681910500, 0, 846323283637992800⟩,
   ⟨.plane, 570036691179250300, 821619237061433500, 0, 903112269425399200⟩,
   ⟨.general, 982798601826394700, 177177402261532500, 52106394770112540, 648577845316325700⟩,
   ⟨.general, 962424923032622800, 247571646342628800, 111564095715648500, 743503091098236900⟩,
   ⟨.general, 940200799412881100, 335461628906648900, 59058888532353720, 799852789183905400⟩,
   ⟨.general, 932082204014320200, 317361524661197700, 174655167757862900, 810173149746801800⟩,
   ⟨.general, 904367419939329900, 409026842708535700, 121723505109598900, 848338957459433000⟩,
   ⟨.general, 891240756007474700, 385429115066922400, 239027847938172400, 855629925731181200⟩,
   ⟨.general, 867643562846270800, 493222118485128500, 62662506241541990, 880320867973826000⟩,
   ⟨.general, 858197998604161900, 478532067592243500, 185750519454733700, 881104818242572000⟩,
   ⟨.general, 839675362404985600, 450742259315706400, 302946697352898300, 885028234126544400⟩,
   ⟨.general, 816528856402218800, 563212302076210000, 126777480068428200, 902134229904065300⟩,
   ⟨.general, 801546937078352900, 543430356969390000, 249411216236223800, 901009167710508600⟩,
   ⟨.general, 777356306907035100, 512351848641987100, 364983226059765400, 902269293842691500⟩,
   ⟨.general, 766162121390039400, 639427963474910200, 64245492242207850, 915801617469346500⟩,
   ⟨.general, 755358414353351000, 626980550902439200, 190601822277923100, 913157800318943500⟩,
   ⟨.general, 734430575755950300, 603116169309631000, 311227594714960800, 910781357948270500⟩,
   ⟨.general, 704383718402176500, 569370249846844100, 423864478152233800, 910576025897012600⟩]

/-- `s2/lebedev_laikov/lebedev_laikov_1454.hpp:13-1468`, `1471-2926`, `points` and `weights`. -/
def llRows1454 : List OctaRow := [
   ⟨.vertex, 1000000000000000000, 0, 0, 77771607432612470⟩,
   ⟨.face, 577350269189625700, 0, 0, 755764641300470100⟩,
   ⟨.mirror, 32292906634138540, 998956623864238400, 0, 284163380609061700⟩,
   ⟨.mirror, 80367332714622220, 993520097262594000, 0, 437441912705355500⟩,
   ⟨.mirror, 135428996053165300, 981487633165117100, 0, 541717474087217200⟩,
   ⟨.mirror, 193896386111442600, 961669580940275300, 0, 614800089135859300⟩,
   ⟨.mirror, 253734371501127500, 933401166400522400, 0, 666439448580070400⟩,
   ⟨.mirror, 313525143475257000, 896328047546008100, 0, 702503935692322000⟩,
   ⟨.mirror, 372155833937533800, 850294108254618800, 0, 726851178924962700⟩,
   ⟨.mirror, 428680957519569600, 795276853253136000, 0, 742263753420862900⟩,
   ⟨.mirror, 482251012828299400, 731346649169980600, 0, 750954503584121400⟩,
   ⟨.mirror, 532067933356626300, 658640591360126800, 0, 754853505771840100⟩,
   ⟨.mirror, 617299819539427400, 487731345715221400, 0, 755408896977400100⟩,
   ⟨.mirror, 651067984912748100, 390155043595885400, 0, 755314717444280800⟩,
   ⟨.mirror, 677731525168736000, 285236672931300700, 0, 756476765329229700⟩,
   ⟨.mirror, 696310941064874100, 174075117999956700, 0, 758799180851873000⟩,
   ⟨.mirror, 705893500983174900, 58555363028785180, 0, 760826183203302700⟩,
   ⟨.plane, 995554619409185700, 94185985013862420, 0, 402168044787491600⟩,
   ⟨.plane, 973411590179420900, 229063039585986300, 0, 580487179394596400⟩,
   ⟨.plane, 927569373238862600, 373650983980055400, 0, 679215195594515900⟩,
   ⟨.plane, 856802242279510300, 515645147000147100, 0, 733674121128629400⟩,
   ⟨.plane, 762349555371937200, 647165477620839800, 0, 758186630098960800⟩,
   ⟨.general, 570752290889222300, 438702803988950100, 694104943230443600, 753825785980074300⟩,
   ⟨.general, 519646338840308300, 385890841476261700, 762270254565010700, 748351724705312300⟩,
   ⟨.general, 464633753121535100, 330193737234385400, 821637128756597800, 737176366111205900⟩,
   ⟨.general, 406390169755769100, 272542357356377700, 872105322408082600, 718344889575693400⟩,
   ⟨.general, 345632946664308700, 213951023749525000, 913653558859525900, 689581552982219100⟩,
   ⟨.general, 283139512105033200, 155592230978664700, 946373644151191300, 648010580179288600⟩,
   ⟨.general, 219768202292533000, 98928789796860970, 970523071240677300, 589755889659463600⟩,
   ⟨.general, 156469609865035500, 45986429106755100, 986611630545014900, 509570884924734600⟩,
   ⟨.general, 602735667372129500, 337662514017342600, 722975616397234700, 753690642890975500⟩,
   ⟨.general, 549603232025509600, 282230130972798800, 786309379645308900, 747250596557511800⟩,
   ⟨.general, 492170775523456700, 224863234259254000, 840954489612313700, 734301713227969800⟩,
   ⟨.general, 430942299859848300, 166622472345647900, 886862833757807500, 713087158217744500⟩,
   ⟨.general, 366410818231367200, 108696490182216900, 924082347686117900, 681702203211277600⟩,
   ⟨.general, 299018905775843600, 52519897841200850, 952800794667682300, 638094114560412100⟩,
   ⟨.general, 626872401314499800, 229752365755002300, 744476220506855600, 755038137792031000⟩,
   ⟨.general, 570732414483460700, 172308060709380000, 802853936449496300, 747864664014480200⟩,
   ⟨.general, 509636090196036500, 114023846539051300, 852801042441985100, 733591872060122000⟩,
   ⟨.general, 443872993831245600, 56115220958825370, 894330949550572800, 711012052765811800⟩,
   ⟨.general, 641997847108238900, 116417442314087300, 757816431224232800, 757136397868950100⟩,
   ⟨.general, 581721806180261100, 57975895314452190, 811319009870262100, 748990832907923300⟩]

/-- `s2/lebedev_laikov/lebedev_laikov_1730.hpp:13-1744`, `1747-3478`, `points` and `weights`. -/
def llRows1730 : List OctaRow := [
   ⟨.vertex, 1000000000000000000, 0, 0, 63090494374209760⟩,
   ⟨.edge, 707106781186547600, 0, 0, 639828770557174800⟩,
   ⟨.face, 577350269189625700, 0, 0, 635718507353071900⟩,
   ⟨.mirror, 28609231261946620, 999181176650761900, 0, 222120716218816800⟩,
   ⟨.mirror, 71425567677115220, 994885308246133300, 0, 347578402228684800⟩,
   ⟨.mirror, 120919954099555900, 985269876430373000, 0, 435074244358980400⟩,
   ⟨.mirror, 173867310659437900, 969298878864568200, 0, 497856913652212700⟩,
   ⟨.mirror, 228464543846773400, 946365629347226200, 0, 543503622199805300⟩,
   ⟨.mirror, 283480767170151200, 916120794049149900, 0, 576591338821954200⟩,
   ⟨.mirror, 337968014546733900, 878382173251869500, 0, 600120035922600300⟩,
   ⟨.mirror, 391135545481953700, 833082210901822800, 0, 616217817271751200⟩,
   ⟨.mirror, 442286035300140300, 780234660827732100, 0, 626521815243848400⟩,
   ⟨.mirror, 490778156872605700, 719912217894276400, 0, 632398716097421200⟩,
   ⟨.mirror, 536000615321146800, 652232075837047300, 0, 635076785154056900⟩,
   ⟨.mirror, 614210597359660300, 495470164775012900, 0, 635436277529710700⟩,
   ⟨.mirror, 645930038797750300, 406876848637856800, 0, 635230246270623600⟩,
   ⟨.mirror, 671805612508922500, 312016727120555200, 0, 635811788141797200⟩,
   ⟨.mirror, 691088853318625400, 211642135779941300, 0, 637310159031011600⟩,
   ⟨.mirror, 703046741682325200, 107007280218366200, 0, 639042896136866500⟩,
   ⟨.plane, 83549511663546460, 996503627239150100, 0, 318691344994657600⟩,
   ⟨.plane, 205014300909948600, 978758977696963400, 0, 467802855859171100⟩,
   ⟨.plane, 337020829070663700, 941497191059284300, 0, 553882969759862600⟩,
   ⟨.plane, 468905148423396300, 883248527755372300, 0, 604447590719047600⟩,
   ⟨.plane, 593940042455733400, 804509307570572300, 0, 631357510350901200⟩,
   ⟨.general, 139498331183226100, 40975811620503430, 989374144830526700, 407862643185563000⟩,
   ⟨.general, 196799918048501400, 88519873912933480, 976439462628657600, 475993305781272500⟩,
   ⟨.general, 254618373254896700, 139768018296981900, 956887864413780000, 526815118641344000⟩,
   ⟨.general, 312128107471387500, 192945254222652600, 930240922234281100, 564304856050731600⟩,
   ⟨.general, 368598107850249200, 246789833706156200, 896231115766744500, 591450107661307300⟩,
   ⟨.general, 423376032154785600, 300310412478540900, 854731765850456000, 610456125787419500⟩,
   ⟨.general, 475867123605924600, 352668432817503300, 805714252800004600, 623025286070780600⟩,
   ⟨.general, 525517857979646300, 403113486114571300, 749219926494912200, 630561876176079600⟩,
   ⟨.general, 571802563373458900, 450942644834235100, 685341199395926000, 634309276759788900⟩,
   ⟨.general, 268692777272341500, 47113225024232480, 962073040610478800, 517626894573782700⟩,
   ⟨.general, 330600681990480900, 97844873039426950, 938685021659197100, 556484031331369200⟩,
   ⟨.general, 390490685059498300, 150539581002527300, 908215205462530900, 585642667103898000⟩,
   ⟨.general, 447995795190439000, 203972815629605000, 870456695060597200, 606638692577709100⟩,
   ⟨.general, 502707684891978000, 257152994112110700, 825322555834822900, 620882496223445800⟩,
   ⟨.general, 554208739226021700, 309219137581567000, 772810583725931900, 629631429782290700⟩,
   ⟨.general, 602085088737518600, 359380750613027600, 712978977255817300, 634042375679185900⟩,
   ⟨.general, 401985140917959400, 50633899343786710, 914245128353666200, 582962767710734200⟩,
   ⟨.general, 463561456744980000, 103242226916061200, 880029441781287600, 604869337608111000⟩,
   ⟨.general, 521586093159157500, 156632209400625400, 838697978059590500, 620236231773246100⟩,
   ⟨.general, 575820249909927100, 209808282749109900, 790197142669814100, 629900532840377900⟩,
   ⟨.general, 625989368387679500, 261882411455339100, 734544017221521300, 634772239060935200⟩,
   ⟨.general, 531379512481189100, 52632450193385560, 845497273148704300, 620377898123883400⟩,
   ⟨.general, 589331795593199500, 106105973098200500, 800892974857302300, 630841467123997900⟩,
   ⟨.general, 642624632121580100, 159417156403422100, 749412938529120100, 636270646695949800⟩,
   ⟨.general, 651190436737611300, 53547895365655400, 757022878124160700, 637541417033323300⟩]

/-- `s2/lebedev_laikov/lebedev_laikov_2030.hpp:13-2044`, `2047-4078`, `points` and `weights`. -/
def llRows2030 : List OctaRow := [
   ⟨.vertex, 1000000000000000000, 0, 0, 46560318991974310⟩,
   ⟨.face, 577350269189625700, 0, 0, 542154919529550700⟩,
   ⟨.mirror, 25408353368143480, 999354207054855600, 0, 177852213334655300⟩,
   ⟨.mirror, 63993228005049150, 995896447196689000, 0, 281132540568279600⟩,
   ⟨.mirror, 108826946980412500, 988085720583920300, 0, 354889631263145900⟩,
   ⟨.mirror, 157067079881828700, 975017879238524800, 0, 409031089717336400⟩,
   ⟨.mirror, 207116393228251400, 956140993427350500, 0, 449328613416996500⟩,
   ⟨.mirror, 257891404445084400, 931119781245508600, 0, 479372844796272300⟩,
   ⟨.mirror, 308568755816962300, 899761438308590700, 0, 501541531916426500⟩,
   ⟨.mirror, 358471970626702400, 861971978981925600, 0, 517512737267793700⟩,
   ⟨.mirror, 407013559442870900, 817728515376154100, 0, 528552226208101900⟩,
   ⟨.mirror, 453661862622263800, 767060511826933000, 0, 535683270371396200⟩,
   ⟨.mirror, 497919568646357700, 710036764060883100, 0, 539791473617517000⟩,
   ⟨.mirror, 539307511112699900, 646757154513848500, 0, 541689944159993000⟩,
   ⟨.mirror, 611561767684391600, 501980486287549200, 0, 541930847688993800⟩,
   ⟨.mirror, 641430843516015900, 420871650236345500, 0, 541693690203059600⟩,
   ⟨.mirror, 666409941272160700, 334358460857910200, 0, 541954433870316400⟩,
   ⟨.mirror, 685916177121491300, 242977356817621700, 0, 542898365663097400⟩,
   ⟨.mirror, 699362559350389000, 147594109495423800, 0, 544228650009819300⟩,
   ⟨.mirror, 706239338771938000, 49517600325051240, 0, 545225034505730100⟩,
   ⟨.plane, 74790281683497630, 997199284880260600, 0, 256800249772853000⟩,
   ⟨.plane, 184895115396936600, 982758259340695400, 0, 382721170029214500⟩,
   ⟨.plane, 305952906658130500, 952046647442992300, 0, 457949156191782400⟩,
   ⟨.plane, 428555610102136200, 903515406094431700, 0, 504200396908357400⟩,
   ⟨.plane, 546875865349652600, 837213705034783000, 0, 531270888997602400⟩,
   ⟨.plane, 656582197834343900, 754254477936341200, 0, 543840179074711700⟩,
   ⟨.general, 125390157236711700, 36819172264396410, 991424055095455800, 331604187319734400⟩,
   ⟨.general, 177572151038394100, 79824876072133010, 980864985783296400, 389911356715377100⟩,
   ⟨.general, 230569335821611400, 126464096659233500, 964802888488081300, 434334332720130900⟩,
   ⟨.general, 283650284599206300, 175158568341895700, 942794777235855700, 467941526231891900⟩,
   ⟨.general, 336179474623259000, 224799590763267000, 914575587272422900, 493084798163103100⟩,
   ⟨.general, 387597917226482400, 274529925742224600, 880000667291600100, 511503186754009100⟩,
   ⟨.general, 437401931699907400, 323637348244111800, 839010379534549700, 524521714845736700⟩,
   ⟨.general, 485127584334002200, 371496785943674100, 791606824725365500, 533204149989532100⟩,
   ⟨.general, 530339180380686800, 417535364632174500, 737837768777539900, 538458312602154200⟩,
   ⟨.general, 572619738059628700, 461208440635546100, 677785666616704300, 541106721079885200⟩,
   ⟨.general, 243152073256486300, 42580401330439520, 969053135123978200, 425979739146871400⟩,
   ⟨.general, 300209680089586900, 88694243067227220, 949740743164806800, 460493136846002100⟩,
   ⟨.general, 355855445745743200, 136881170651065500, 924462247392662500, 487181487825520200⟩,
   ⟨.general, 409778253704888700, 186073998501503300, 893005179084776900, 507224291007488500⟩,
   ⟨.general, 461633766606745800, 235423507739585300, 855260216268743500, 521706984523535000⟩,
   ⟨.general, 511070700841787400, 284207492134701100, 811192233786534700, 531578596628031000⟩,
   ⟨.general, 557741528616379500, 331778441498410200, 760820250133729200, 537683370875890500⟩,
   ⟨.general, 601306043136695000, 377529900204070000, 704203249736321500, 540803209206952100⟩,
   ⟨.general, 366159676726178100, 45993678871645920, 929414693580660300, 484274491790486600⟩,
   ⟨.general, 423763315350658100, 94048937736544210, 900877044814466500, 504892607618813000⟩,
   ⟨.general, 478632845465845200, 143137710909197100, 866269123862176800, 520260798047837300⟩,
   ⟨.general, 530570207678977400, 192418638884357000, 825512157471577200, 530993238832574300⟩,
   ⟨.general, 579343622423178800, 241159094477519000, 778590558835882800, 537741977089520800⟩,
   ⟨.general, 624706901709474700, 288687149158360500, 725534986659752400, 541169633167771700⟩,
   ⟨.general, 487431555253520400, 48049787749532060, 871838113895211200, 519799629328242000⟩,
   ⟨.general, 542733732205905300, 97168571993666640, 834265164406713300, 531112083662294500⟩,
   ⟨.general, 594349374724670000, 146520583979505500, 790746823727227200, 538430931995695100⟩,
   ⟨.general, 642131403356494300, 195357944980357400, 741284381432976700, 542185950405188600⟩,
   ⟨.general, 602062837471398000, 49163750157381080, 796933664370097800, 539094835504631400⟩,
   ⟨.general, 652922252985688100, 98616215401270050, 750977611927295400, 543331270502784500⟩]

/-- `s2/lebedev_laikov/lebedev_laikov_2354.hpp:13-2368`, `2371-4726`, `points` and `weights`. -/
def llRows2354 : List OctaRow := [
   ⟨.vertex, 1000000000000000000, 0, 0, 39226162706652920⟩,
   ⟨.edge, 707106781186547600, 0, 0, 470383175085442400⟩,
   ⟨.face, 577350269189625700, 0, 0, 467820280128213600⟩,
   ⟨.mirror, 22900246465305890, 999475441130824600, 0, 143783222897990000⟩,
   ⟨.mirror, 57790866522712840, 996654619962757200, 0, 230357249357764400⟩,
   ⟨.mirror, 98631035763759840, 990224135016076000, 0, 293311075244745400⟩,
   ⟨.mirror, 142815579298218500, 979391352126119500, 0, 340290599835983800⟩,
   ⟨.mirror, 188897811660146300, 963657217842535400, 0, 375913846687037200⟩,
   ⟨.mirror, 235909168297021000, 942705536541934000, 0, 403063844789979800⟩,
   ⟨.mirror, 283122883370617100, 916342111781301900, 0, 423659143224221100⟩,
   ⟨.mirror, 329949585796669300, 884458332351057000, 0, 439052265694674600⟩,
   ⟨.mirror, 375884080266079600, 847007860887398700, 0, 450252346662624700⟩,
   ⟨.mirror, 420475183100948000, 803990821335945600, 0, 458057772778354100⟩,
   ⟨.mirror, 463306851875105100, 755442600077040200, 0, 463139161661589900⟩,
   ⟨.mirror, 503984947450731300, 701425937277890500, 0, 466092895369867600⟩,
   ⟨.mirror, 542126579344074700, 642026124030311800, 0, 467475180793695300⟩,
   ⟨.mirror, 609266023055731000, 507533079020182700, 0, 467641490393292000⟩,
   ⟨.mirror, 637465420498486900, 432753596562032800, 0, 467408649234787000⟩,
   ⟨.mirror, 661513647260989200, 353269569839983900, 0, 467492853948320700⟩,
   ⟨.mirror, 680948728595812700, 269476637294390600, 0, 468074897968644700⟩,
   ⟨.mirror, 695298002166519600, 181992792072908900, 0, 469044980638904000⟩,
   ⟨.mirror, 704124549769540000, 91745500291214420, 0, 469987707586081800⟩,
   ⟨.plane, 67440330883060650, 997723309224748600, 0, 209994228106917600⟩,
   ⟨.plane, 167868448533416600, 985809405507466100, 0, 317226915071280400⟩,
   ⟨.plane, 279355904953961300, 960187626647705400, 0, 383205135854652300⟩,
   ⟨.plane, 393526421805763900, 919313306409056600, 0, 425219381814698500⟩,
   ⟨.plane, 505262926823255800, 862965453988742900, 0, 451380796375500000⟩,
   ⟨.plane, 610790531543753100, 791792224372341000, 0, 465779746911417800⟩,
   ⟨.general, 113508103984352400, 33319548846625880, 992978206203205000, 273336280052283600⟩,
   ⟨.general, 161286662609937800, 72471674654365380, 984243094381129000, 323548536846355900⟩,
   ⟨.general, 210078655016820500, 115153911084974500, 970879258954561100, 362490872601345300⟩,
   ⟨.general, 259228200945994200, 159949109714367700, 952479407722752000, 392554007071282800⟩,
   ⟨.general, 308174056132020300, 205869995602802700, 928787540849703900, 415612978111623500⟩,
   ⟨.general, 356428978157816400, 252162495350291100, 899651298819764500, 433064498462326300⟩,
   ⟨.general, 403558728824070300, 298209078579767400, 864992310857447200, 445967772592131200⟩,
   ⟨.general, 449167119637390300, 343476208723573300, 824786634638032000, 455159300445679500⟩,
   ⟨.general, 492885478291748900, 387483135720343700, 779051169578381200, 461334146274991800⟩,
   ⟨.general, 534364679195898800, 429781482174692600, 727833955794581300, 465101961826980600⟩,
   ⟨.general, 573268321653099000, 469940226094353700, 671207579879299800, 467024953610062500⟩,
   ⟨.general, 221413158321898600, 38736020406438950, 974410454605754800, 354955557644170800⟩,
   ⟨.general, 274179650475007100, 80894962569020120, 958270068559150900, 385610824524901000⟩,
   ⟨.general, 325979743914948500, 125173217762087200, 937053292034252200, 409862284575688200⟩,
   ⟨.general, 376544114882689100, 170626028640318500, 910549991981574600, 428632860426895000⟩,
   ⟨.general, 425577357453055800, 216511514730040800, 878639104987125700, 442780219899394500⟩,
   ⟨.general, 472779511705843000, 262208981222525900, 841264514571623800, 453047351148856100⟩,
   ⟨.general, 517854689581901200, 307172143129620100, 798418308259015900, 460080547570313800⟩,
   ⟨.general, 560514119209746000, 350899899880113800, 750128777231382300, 464459905995801700⟩,
   ⟨.general, 600476331935251200, 392916087616693100, 696451809443824600, 466727445571250800⟩,
   ⟨.general, 335284263494694900, 42025634572880190, 941179211782520600, 406936051802035600⟩,
   ⟨.general, 389197162981467000, 86143097588708500, 917117732390449200, 426044281991919500⟩,
   ⟨.general, 440987556554228100, 131450087938000100, 887834922350671900, 440867850802906300⟩,
   ⟨.general, 490489305859248400, 177218965738385900, 853237176299960200, 451874811554859700⟩,
   ⟨.general, 537505613876954900, 222827711005029400, 813286865908344100, 459556487537511600⟩,
   ⟨.general, 581825570866996900, 267717993501438600, 767988333922369400, 464398877431584600⟩,
   ⟨.general, 623233485814495900, 311367503554416500, 717377376204326000, 466882749164694600⟩,
   ⟨.general, 448948535449205800, 44091623783681740, 892469126205568700, 440054182374197300⟩,
   ⟨.general, 501513687593315000, 89390099177484890, 860519280042925100, 451451289019379700⟩,
   ⟨.general, 551130055051262300, 135180602938336500, 823396542990326400, 459619862734754900⟩,
   ⟨.general, 597672040985800000, 180837035505319600, 781080084250978700, 464865901680178100⟩,
   ⟨.general, 640995637898935400, 225785219230160200, 733584096727652100, 467550201715767300⟩,
   ⟨.general, 558122233082751400, 45321734216371600, 828520074196360900, 459849447645552300⟩,
   ⟨.general, 607470598416169500, 91174880318403140, 789092271701368100, 465491695515204800⟩,
   ⟨.general, 653227253737903200, 136929421314015500, 744677439266589900, 468470977950513700⟩,
   ⟨.general, 659476149450048700, 45899014872755830, 750322922974000200, 469144553910698600⟩]

/-- `s2/lebedev_laikov/lebedev_laikov_2702.hpp:13-2716`, `2719-5422`, `points` and `weights`. -/
def llRows2702 : List OctaRow := [
   ⟨.vertex, 1000000000000000000, 0, 0, 29986751498881610⟩,
   ⟨.face, 577350269189625700, 0, 0, 407786052949535500⟩,
   ⟨.mirror, 20655625388187030, 999573254083784400, 0, 118534919252066700⟩,
   ⟨.mirror, 52509181730223790, 997238974202294600, 0, 191340864342575100⟩,
   ⟨.mirror, 89934800820383760, 991878754285419600, 0, 245288657720989700⟩,
   ⟨.mirror, 130602392443601900, 982795009234385000, 0, 286240818328870200⟩,
   ⟨.mirror, 173206038853141800, 969535629159448600, 0, 317803225825735700⟩,
   ⟨.mirror, 216872708482024900, 951804841672567500, 0, 342294566763369000⟩,
   ⟨.mirror, 260952830917358600, 929412308974027400, 0, 361279052023592200⟩,
   ⟨.mirror, 304925292793895200, 902242279894438700, 0, 375863822981852100⟩,
   ⟨.mirror, 348348413808440400, 870233741700634700, 0, 386871179885995300⟩,
   ⟨.mirror, 390832154910640600, 833366938014587900, 0, 394942993318993800⟩,
   ⟨.mirror, 432021007189481400, 791653774508763500, 0, 400606810754115600⟩,
   ⟨.mirror, 471582479589005300, 745130813944350800, 0, 404319214967272300⟩,
   ⟨.mirror, 509198479407845400, 693854319823315800, 0, 406494749580807800⟩,
   ⟨.mirror, 544558014565080400, 637897434973582100, 0, 407524561981315200⟩,
   ⟨.mirror, 607257579684176800, 512324568835256300, 0, 407642354089356600⟩,
   ⟨.mirror, 633948450575580200, 442965827153339500, 0, 407428086225155500⟩,
   ⟨.mirror, 657071825748695800, 369476970343959300, 0, 407416375601224400⟩,
   ⟨.mirror, 676255733009070900, 292158120107465800, 0, 407764779507124600⟩,
   ⟨.mirror, 691116169692379000, 211463661132284400, 0, 408451755278253000⟩,
   ⟨.mirror, 701284191165996100, 128066258012442100, 0, 409246845922405200⟩,
   ⟨.mirror, 706455927241002000, 42895754243421920, 0, 409787268724090600⟩,
   ⟨.plane, 61235549898947650, 998123342793150700, 0, 173898681174502800⟩,
   ⟨.plane, 153307034831239300, 988178603831945600, 0, 265961604528019100⟩,
   ⟨.plane, 256390260524420600, 966573346574495500, 0, 324059600817153300⟩,
   ⟨.plane, 362934699166336100, 931814576050965800, 0, 362119596443294300⟩,
   ⟨.plane, 468394996898753800, 883519171767209800, 0, 386883833076053900⟩,
   ⟨.plane, 569447924065795300, 822027409383139900, 0, 401891153269311100⟩,
   ⟨.plane, 663446543099395500, 748223686105607000, 0, 408992943298325200⟩,
   ⟨.general, 103395857355230500, 30345440090635840, 994177273401219100, 227990752770640900⟩,
   ⟨.general, 147352141241439500, 66188030442471350, 986867007806882500, 271520549057889700⟩,
   ⟨.general, 192455215870596700, 105443112898771500, 975624282101680200, 305791789670397600⟩,
   ⟨.general, 238109436289032800, 146826355123885800, 960075995841555000, 332691305245255500⟩,
   ⟨.general, 283812170793676000, 189448610818788600, 939978656974833800, 353733471189003700⟩,
   ⟨.general, 329132313337341500, 232637423876157900, 915178534128437100, 370056750078312900⟩,
   ⟨.general, 373689697874146000, 275848580848576800, 885586568409071800, 382524537258912200⟩,
   ⟨.general, 417140604076001300, 318617933199692100, 851161752591518500, 391812517151829600⟩,
   ⟨.general, 459167798525691500, 360532979630379400, 811899564845252500, 398472041993757900⟩,
   ⟨.general, 499473383171841800, 401214725358650900, 767823601915346700, 402974600333821100⟩,
   ⟨.general, 537773183044509600, 440305002557069200, 718979490890662000, 405742863215662700⟩,
   ⟨.general, 573791783000133100, 477456590427748300, 665430833384385400, 407171927411485700⟩,
   ⟨.general, 202732358627138900, 35441225049761470, 978592617145893500, 299023695066411900⟩,
   ⟨.general, 251694237518727300, 74183043886463280, 964959525990393800, 326295173421287800⟩,
   ⟨.general, 300022799525718100, 115050274572718600, 946968718641483400, 348263460824241300⟩,
   ⟨.general, 347480669104634200, 157196337120936400, 924416841146004100, 365659668170089200⟩,
   ⟨.general, 393810318035920900, 199963187724710000, 897177884793990700, 379174046779421800⟩,
   ⟨.general, 438751959045570300, 242807345784653500, 865182819562828500, 389403445015690500⟩,
   ⟨.general, 482050396007778700, 285257513290615500, 828405436256908000, 396860024550837100⟩,
   ⟨.general, 523457377847510100, 326888420867463900, 786852167741682500, 401993135142005000⟩,
   ⟨.general, 562731864723528200, 367303332167593900, 740554596639142400, 405210880127859900⟩,
   ⟨.general, 599639060715695400, 406121155183029000, 689564068217595500, 406897861394093400⟩,
   ⟨.general, 308478075379194700, 38601255231000590, 950447904992661400, 345427535131970400⟩,
   ⟨.general, 358998827592022300, 79289389871048670, 929963996314604800, 362996353700792000⟩,
   ⟨.general, 407862841588197300, 121261464303008700, 904955004255289600, 377018723388987300⟩,
   ⟨.general, 454928725888973500, 163877082738269300, 875319459462789300, 387860861369437800⟩,
   ⟨.general, 500027851295727900, 206596579826017600, 841005351429329100, 395906527022127400⟩,
   ⟨.general, 542978504492819900, 248943637885223500, 801998384546509800, 401528697546357000⟩,
   ⟨.general, 583593985049171100, 290481136894689100, 758313107972423700, 405086678561471700⟩,
   ⟨.general, 621687035344485600, 330794195766660900, 709986218268828400, 406932018505191300⟩,
   ⟨.general, 415110466270909100, 40648291460525540, 908862485304398800, 376012096406276300⟩,
   ⟨.general, 464980427500921800, 82584245472947560, 881460744696395500, 387096956441806400⟩,
   ⟨.general, 512469575700966200, 125184196202728900, 849531547973321900, 395528779053405500⟩,
   ⟨.general, 557471110060622400, 167910750597633100, 813038708353739400, 401536191130266800⟩,
   ⟨.general, 599859733328722700, 210280505735871500, 771978244018741600, 405383698671954800⟩,
   ⟨.general, 639500714851660000, 251841808777410700, 726370799974736000, 407357867329911700⟩,
   ⟨.general, 518845622474625200, 41943216760775180, 853838384360106700, 395462837923140600⟩,
   ⟨.general, 566419070794277800, 84576615519214980, 819765961935394000, 401764550884753000⟩,
   ⟨.general, 611046435328315300, 127365293251939600, 781281214382764000, 405903034865129300⟩,
   ⟨.general, 652643030205156300, 169817323907635400, 738389566303235800, 408056580948488000⟩,
   ⟨.general, 616755188037754800, 42663988515488640, 785997978440443600, 406301875366465100⟩,
   ⟨.general, 660719541835538300, 85519258142383490, 745745361047196000, 408719129279967100⟩]

/-- `s2/lebedev_laikov/lebedev_laikov_3074.hpp:13-3088`, `3091-6166`, `points` and `weights`. -/
def llRows3074 : List OctaRow := [
   ⟨.vertex, 1000000000000000000, 0, 0, 25990959537547340⟩,
   ⟨.edge, 707106781186547600, 0, 0, 360313408968754100⟩,
   ⟨.face, 577350269189625700, 0, 0, 358606797441244700⟩,
   ⟨.mirror, 18861085187233920, 999644196167376200, 0, 98315284743858800⟩,
   ⟨.mirror, 48002172446253030, 997693130617265700, 0, 160502310795445000⟩,
   ⟨.mirror, 82449220583972420, 993178862063722600, 0, 207220013146409900⟩,
   ⟨.mirror, 120040836248402300, 985484852884897700, 0, 243129761881418700⟩,
   ⟨.mirror, 159577353080996500, 974202307925477000, 0, 271181906449670700⟩,
   ⟨.mirror, 200263597343406400, 959056298221410900, 0, 293276203832111600⟩,
   ⟨.mirror, 241512759013998200, 939863380745783100, 0, 310703251419736800⟩,
   ⟨.mirror, 282858415845847700, 916505446339712200, 0, 324380805892121300⟩,
   ⟨.mirror, 323909101533813800, 888912699812031600, 0, 334989909137403000⟩,
   ⟨.mirror, 364322509796219400, 857052050759793300, 0, 343058068850521800⟩,
   ⟨.mirror, 403789708369180200, 820918840586732300, 0, 349012410929034300⟩,
   ⟨.mirror, 442024751519412700, 780530741283393100, 0, 353214894856195500⟩,
   ⟨.mirror, 478757253846493800, 735923218670757700, 0, 355986266906283300⟩,
   ⟨.mirror, 513726525127523400, 687146356143143800, 0, 357622431755141100⟩,
   ⟨.mirror, 546676405665461100, 634263206387840600, 0, 358405053308607600⟩,
   ⟨.mirror, 605485942081353500, 516501256420264200, 0, 358490358137322400⟩,
   ⟨.mirror, 630810670176456200, 451836028646521700, 0, 358299187904058600⟩,
   ⟨.mirror, 653036923017958300, 383517345566630600, 0, 358237118796312500⟩,
   ⟨.mirror, 671860952461115800, 311778320471588800, 0, 358435363112235000⟩,
   ⟨.mirror, 686967649989401300, 236961802272178300, 0, 358912016651778500⟩,
   ⟨.mirror, 698046707724074800, 159566875231546800, 0, 359544570453160100⟩,
   ⟨.mirror, 704824172125052200, 80285570163445410, 0, 360094355711107400⟩,
   ⟨.plane, 55911052220582320, 998435753686529000, 0, 145644709674203900⟩,
   ⟨.plane, 140738407851391600, 990046817355348800, 0, 225237018828378200⟩,
   ⟨.plane, 236403543897630900, 971654961615820100, 0, 276613544347489700⟩,
   ⟨.plane, 336060273781817000, 941840481390394600, 0, 311072949150085100⟩,
   ⟨.plane, 435629263005466500, 900126182939544400, 0, 334250671230339100⟩,
   ⟨.plane, 532156941525617400, 846645728499294200, 0, 349198183402686000⟩,
   ⟨.plane, 623295630504055500, 781986289518270300, 0, 357600360434893200⟩,
   ⟨.general, 94698700868384690, 27787483873094700, 995118089371227700, 192192130578856400⟩,
   ⟨.general, 135317030056814100, 60765698786283640, 988937223097410700, 230145821649563200⟩,
   ⟨.general, 177167948172607700, 97030727627110400, 979385805511016100, 260424854952289300⟩,
   ⟨.general, 219706666423175100, 135411245852476200, 966122546691617100, 284527542587069700⟩,
   ⟨.general, 262478355737492700, 175099647974410000, 948917923768215000, 303687089797484000⟩,
   ⟨.general, 305096952121444200, 215489690744980200, 927620635275454600, 318841483229806600⟩,
   ⟨.general, 347225263719602100, 256095462574015200, 902136203842775600, 330704641472208900⟩,
   ⟨.general, 388561021902636000, 296507005062409600, 872412705207174000, 339833096903136000⟩,
   ⟨.general, 428827377606276500, 336364148873449700, 838430819786560400, 346675789970537300⟩,
   ⟨.general, 467766247130294800, 375340002983678800, 800196613468122500, 351609592323005400⟩,
   ⟨.general, 505133358955336000, 413129752214428600, 757736166159267200, 354964518404848600⟩,
   ⟨.general, 540694214581049200, 449442377608179500, 711091636519857400, 357041596944139200⟩,
   ⟨.general, 574220412257645800, 483993895884150200, 660318731290837800, 358125179849611800⟩,
   ⟨.general, 186540702722518800, 32591448510707960, 981906494383127500, 254349132991334800⟩,
   ⟨.general, 232118645368943200, 68356795052973430, 970282578964588400, 278671105133077600⟩,
   ⟨.general, 277315914252388200, 106228486445198900, 954888156995322800, 298555236108367900⟩,
   ⟨.general, 321920019223725400, 145440440932304700, 935529037157272300, 314586792915403900⟩,
   ⟨.general, 365703259394402900, 185401828258251000, 912078553714979100, 327329066206760900⟩,
   ⟨.general, 408437677836362200, 225629741201475000, 884460221383073500, 337270551194350100⟩,
   ⟨.general, 449900494575142700, 265710442500089600, 852635623069695900, 344827443785151000⟩,
   ⟨.general, 489875814132633500, 305275548763155700, 816595693140273500, 350359278304858300⟩,
   ⟨.general, 528154744226630900, 343986392064542300, 776354254335816200, 354185479266316200⟩,
   ⟨.general, 564534698981399200, 381522945612191400, 731943177861080800, 356599551790942800⟩,
   ⟨.general, 598818125215984800, 417575242096673400, 683408933290104000, 357880207830289800⟩,
   ⟨.general, 285042542447160300, 35621495098625360, 957852732982579900, 295864459286098200⟩,
   ⟨.general, 332461943302787600, 73303188868710960, 940263632582379500, 311954812911683500⟩,
   ⟨.general, 378584833307628200, 112322629600847200, 918725830086966800, 325074522500598400⟩,
   ⟨.general, 423289102856211500, 152108419333770800, 893134572262749900, 335515341593520800⟩,
   ⟨.general, 466428705082972200, 192184445922361000, 863428863207697500, 343584756854932800⟩,
   ⟨.general, 507845849373572600, 232136098967830300, 829581475703280300, 349578683162248800⟩,
   ⟨.general, 547377981620418000, 271588648636052000, 791591404178443900, 353776780553462100⟩,
   ⟨.general, 584861713381137600, 310192470757135500, 749478089944238300, 356445981542142800⟩,
   ⟨.general, 620134828158488700, 347612105289097300, 703277057183954500, 357846406122546800⟩,
   ⟨.general, 385219118538787100, 37632248800351080, 922057506103837500, 323974876283621200⟩,
   ⟨.general, 432502506107342300, 76595819356371340, 898373342585361100, 334549178417428700⟩,
   ⟨.general, 477848622973449000, 116338130608390000, 870704388922511300, 342912617730178200⟩,
   ⟨.general, 521166369300900000, 156389059875289900, 839004217785012700, 349242034309742100⟩,
   ⟨.general, 562346950485370300, 196332081014920000, 803255638787649800, 353739905023525700⟩,
   ⟨.general, 601271818865924600, 235784740725873800, 763464312118448100, 356620915265917200⟩,
   ⟨.general, 637817920639011700, 274384612124406000, 719653656102063200, 358108432191978200⟩,
   ⟨.general, 483693646021453400, 38959026107390240, 874369859432057800, 342652211759151200⟩,
   ⟨.general, 529379256268379700, 78712468193126400, 844725961708105200, 349184877012137900⟩,
   ⟨.general, 572628125310003300, 118796380820298100, 811162406678188000, 353931823523147600⟩,
   ⟨.general, 613365877616906800, 158791470806178700, 773671486468547800, 357023143845869400⟩,
   ⟨.general, 651508549186530700, 198305857522764600, 732264567768387200, 358620733505171400⟩,
   ⟨.general, 577869271606497600, 39772096897915420, 815159668556607800, 354119620516402500⟩,
   ⟨.general, 620790428808619200, 79901575929811520, 779894211841287700, 357429691157395300⟩,
   ⟨.general, 660868817104680200, 119967130875430900, 740851060664812800, 359199327981896300⟩,
   ⟨.general, 665626308948912900, 40159559578059690, 745203882578145500, 359585503466199700⟩]

/-- `s2/lebedev_laikov/lebedev_laikov_3470.hpp:13-3484`, `3487-6958`, `points` and `weights`. -/
def llRows3470 : List OctaRow := [
   ⟨.vertex, 1000000000000000000, 0, 0, 20403827308263300⟩,
   ⟨.face, 577350269189625700, 0, 0, 317814970388954400⟩,
   ⟨.mirror, 17214208329062330, 999703627113159600, 0, 82881151280761110⟩,
   ⟨.mirror, 44088753749817700, 998054288896939700, 0, 136088319252295400⟩,
   ⟨.mirror, 75946808138786810, 994215351252967000, 0, 176685445454266200⟩,
   ⟨.mirror, 110833535920479900, 987639536789980500, 0, 208315316123015300⟩,
   ⟨.mirror, 147651705438856700, 977956005023740400, 0, 233327954465715800⟩,
   ⟨.mirror, 185673187086061500, 964909806766730300, 0, 253280953993024700⟩,
   ⟨.mirror, 224363409942882100, 948325956914395800, 0, 269247218421115800⟩,
   ⟨.mirror, 263300688166272700, 928087008433118000, 0, 281994994681188500⟩,
   ⟨.mirror, 302134090491628300, 904118345530933800, 0, 292095359397303000⟩,
   ⟨.mirror, 340559404803008900, 876378105386277100, 0, 299988978294835200⟩,
   ⟨.mirror, 378304443400737200, 844849984438963400, 0, 306029212049690200⟩,
   ⟨.mirror, 415119476740791000, 809537917617762800, 0, 310510916752219200⟩,
   ⟨.mirror, 450770576644325700, 770462052578505800, 0, 313690238755031200⟩,
   ⟨.mirror, 485034605657318700, 727655730843713400, 0, 315798465245463200⟩,
   ⟨.mirror, 517695081779246900, 681163419895077600, 0, 317051651842542200⟩,
   ⟨.mirror, 548538424082098900, 631039772606334900, 0, 317656842563375500⟩,
   ⟨.mirror, 603911723894330800, 520174258769073600, 0, 317719841120706200⟩,
   ⟨.mirror, 627995665557311300, 459611670959799700, 0, 317551949239473300⟩,
   ⟨.mirror, 649363616956895200, 395795131280461200, 0, 317465495263475600⟩,
   ⟨.mirror, 667764411770450400, 328909380750578000, 0, 317567641546765400⟩,
   ⟨.mirror, 682936857211562400, 259219015745350300, 0, 317892341783541000⟩,
   ⟨.mirror, 694619581818412100, 187102306529953200, 0, 318378828753190900⟩,
   ⟨.mirror, 702571154205702600, 113082034630323500, 0, 318875515191880700⟩,
   ⟨.mirror, 706600476714011900, 37835599837482760, 0, 319191688931384900⟩,
   ⟨.plane, 51325376899460620, 998681984260319200, 0, 123177961174450800⟩,
   ⟨.plane, 129799466133122500, 991540265743936600, 0, 192466137383988000⟩,
   ⟨.plane, 218885204940130700, 975750617247212900, 0, 238088186740342400⟩,
   ⟨.plane, 312317482490345700, 949977784019654000, 0, 269310066303788500⟩,
   ⟨.plane, 406403762073819500, 913693593154864100, 0, 290867338283436600⟩,
   ⟨.plane, 498495839694478200, 866892091212797400, 0, 305391461938153500⟩,
   ⟨.plane, 586497504602136500, 809951033764058400, 0, 314391668414777700⟩,
   ⟨.plane, 668671163458017500, 743558252700957800, 0, 318704224405536300⟩,
   ⟨.general, 87157387808359490, 25571752333675780, 995866293853250300, 163521953586979000⟩,
   ⟨.general, 124838312313400700, 56048233833766810, 990592747430979900, 196810991769607000⟩,
   ⟨.general, 163806269338337800, 89685686019007640, 982407239310030700, 223675434224997400⟩,
   ⟨.general, 203558620337317600, 125408665197627900, 970997711006425100, 245318668701718100⟩,
   ⟨.general, 243679897529377400, 162478015016201200, 956149048096826300, 262755179158054100⟩,
   ⟨.general, 283820750777380600, 200342234268320800, 937714653077652000, 276765486015222000⟩,
   ⟨.general, 323678750221769200, 238562802625526300, 915598086421289800, 287946702776589500⟩,
   ⟨.general, 362984955484069100, 276773114878357800, 889740729073790200, 296763991891870200⟩,
   ⟨.general, 401494808199208700, 314654230824530900, 860113151866255000, 303590068466035100⟩,
   ⟨.general, 438981837926022500, 351919641589508800, 826708843447681400, 308733823729830800⟩,
   ⟨.general, 475233114367437700, 388305098402365400, 789539509817814800, 312460883886016700⟩,
   ⟨.general, 510045731837401800, 423561342390864900, 748631511937947900, 315008429422674300⟩,
   ⟨.general, 543223838895486800, 457448471719622000, 704023264229977300, 316595839859840200⟩,
   ⟨.general, 574575868507244200, 489731163925552400, 655763645232998500, 317432044095737200⟩,
   ⟨.general, 172398143759280900, 30106305978811050, 984567158891999900, 218218890981259900⟩,
   ⟨.general, 214955325784459700, 63260315542046950, 974572901528878700, 239972793392144500⟩,
   ⟨.general, 257325608124742200, 98485669802586310, 961292933629893900, 257979613351465200⟩,
   ⟨.general, 299316375123810600, 135083595238426600, 944543344627552400, 272711405262353500⟩,
   ⟨.general, 340723800514800000, 172518405544218100, 924199486859428800, 284632765628135500⟩,
   ⟨.general, 381345497848326400, 210355927973072500, 900181090024334800, 294149110205133400⟩,
   ⟨.general, 420984810442334300, 248227877455486000, 872441809079995900, 301604949213610700⟩,
   ⟨.general, 459451969999630000, 285809950998288300, 840961687102221700, 307294972617564800⟩,
   ⟨.general, 496564016618593000, 322807565991542800, 805741554555941500, 311476814288646000⟩,
   ⟨.general, 532144165557156200, 358945990720415100, 766798775957041700, 314382367366622300⟩,
   ⟨.general, 566020843858216600, 393963008886431000, 724164036629258700, 316226976466153500⟩,
   ⟨.general, 598026431596436400, 427602992294908900, 677879095482721700, 317216466375982100⟩,
   ⟨.general, 264421585235073300, 33009394290725520, 963842105923128000, 255457539896743500⟩,
   ⟨.general, 309011374344306300, 68038876500785010, 948621463920332100, 270170406913567700⟩,
   ⟨.general, 352587107919780800, 104432613620670900, 929933417262290100, 282369341346894000⟩,
   ⟨.general, 395041800535402900, 141675159751767900, 907672917376660600, 292289846321428900⟩,
   ⟨.general, 436247566343016300, 179340861050482100, 881773733118347800, 300182906216242800⟩,
   ⟨.general, 476066181214585400, 217063075017572200, 852199866561640200, 306289086454295300⟩,
   ⟨.general, 514355104251210300, 254514515781580700, 818939062438222000, 310832827926474600⟩,
   ⟨.general, 550970902693559700, 291394010170660100, 781997823028750600, 314024314620124500⟩,
   ⟨.general, 585771103032942800, 327416991091070500, 741397551113057900, 316063803097713000⟩,
   ⟨.general, 618614991740439200, 362308132931726500, 697171649456217200, 317146288220627500⟩,
   ⟨.general, 358689456955706400, 34973543864500400, 932801546256425400, 281238841603179600⟩,
   ⟨.general, 403526661001944100, 71297367397570950, 912185792074617800, 291213750028804500⟩,
   ⟨.general, 446777531233251000, 108475862019316500, 888044382305461000, 299324125650220600⟩,
   ⟨.general, 488363834660854300, 146091568924177200, 860324368180175400, 305710173898382200⟩,
   ⟨.general, 528190834843460100, 183779083236998000, 828999210223952700, 310531932625143200⟩,
   ⟨.general, 566154268714931100, 221207539087402100, 794063327869230500, 313956551442816700⟩,
   ⟨.general, 602145010203145100, 258068284116098500, 755527727764393100, 316154300680636600⟩,
   ⟨.general, 636052078361005000, 294065636209412100, 713416536963785000, 317298596061329400⟩,
   ⟨.general, 452161106508719600, 36310553658670020, 891196879176431500, 298940033690143100⟩,
   ⟨.general, 495936565156096300, 73483184684843490, 865243979990468500, 305455588394767700⟩,
   ⟨.general, 537681580403828300, 111108764381264800, 835795046989457900, 310476496080770200⟩,
   ⟨.general, 577331448024376700, 148822608514540800, 802832629080933800, 314101582597761600⟩,
   ⟨.general, 614811324557505600, 186289227413515100, 766357200622217100, 316452062115989600⟩,
   ⟨.general, 650040746284238000, 223190970171445600, 726383382935044700, 317665230591220400⟩,
   ⟨.general, 542515144870721300, 37182013061189440, 839222744860158000, 310509716102393900⟩,
   ⟨.general, 584186055690793100, 74836163350673460, 808162236801117200, 314301411789055000⟩,
   ⟨.general, 623463218685150000, 112599083426612000, 773702178721399000, 316817286628720000⟩,
   ⟨.general, 660293455184884200, 150130381315761900, 735848776343340200, 318140186557096800⟩,
   ⟨.general, 627857396837510500, 37675599302457200, 777416000898891600, 317066365915603700⟩,
   ⟨.general, 666561171126457700, 75484433013601580, 741618706289923800, 318544794462551000⟩]

/-- `s2/lebedev_laikov/lebedev_laikov_3890.hpp:13-3904`, `3907-7798`, `points` and `weights`. -/
def llRows3890 : List OctaRow := [
   ⟨.vertex, 1000000000000000000, 0, 0, 18073952521969200⟩,
   ⟨.edge, 707106781186547600, 0, 0, 284800878223882700⟩,
   ⟨.face, 577350269189625700, 0, 0, 283606583753058100⟩,
   ⟨.mirror, 15878764198583520, 999747833053441300, 0, 70131492666738160⟩,
   ⟨.mirror, 40691935937512060, 998342793182439300, 0, 116279802195676600⟩,
   ⟨.mirror, 70258881152579970, 995051445523484100, 0, 151872858397210500⟩,
   ⟨.mirror, 102749545002870400, 989386204676114400, 0, 179879610821693400⟩,
   ⟨.mirror, 137145773089342600, 981010740943978200, 0, 202259338597278500⟩,
   ⟨.mirror, 172775853267195300, 969689130111081200, 0, 220309310557546400⟩,
   ⟨.mirror, 209149203892903700, 955255578901232700, 0, 234929423429985500⟩,
   ⟨.mirror, 245881328175191500, 937595192452269100, 0, 246768205874700300⟩,
   ⟨.mirror, 282654585945006600, 916631207241229500, 0, 256309268357222400⟩,
   ⟨.mirror, 319195729179962200, 892316184402448500, 0, 263925389676331800⟩,
   ⟨.mirror, 355262146929957800, 864625707411845400, 0, 269913747926510800⟩,
   ⟨.mirror, 390632950340623000, 833553715255568100, 0, 274519642016673900⟩,
   ⟨.mirror, 425102861409303100, 799108950296044200, 0, 277952919739759300⟩,
   ⟨.mirror, 458477752011187000, 761312223612321200, 0, 280399608668426500⟩,
   ⟨.mirror, 490571135871019300, 720194363557807700, 0, 282030235671584200⟩,
   ⟨.mirror, 521201166984738500, 675794855756903100, 0, 283005674749106800⟩,
   ⟨.mirror, 550187848873799500, 628161334294974200, 0, 283480895077683900⟩,
   ⟨.mirror, 602503787747934200, 523429433160559300, 0, 283528233907892900⟩,
   ⟨.mirror, 625457268954901600, 466483021580584100, 0, 283381926706580000⟩,
   ⟨.mirror, 646010717952824800, 406620590452760500, 0, 283285833690678400⟩,
   ⟨.mirror, 663954113815425100, 343991089267072400, 0, 283326823545124400⟩,
   ⟨.mirror, 679068851566749500, 278802779153350700, 0, 283543267702925300⟩,
   ⟨.mirror, 691133858037151200, 211348008150930600, 0, 283909172274304900⟩,
   ⟨.mirror, 699938595612649000, 142027901285575200, 0, 284330817887584100⟩,
   ⟨.mirror, 705303774865689600, 71366450944524540, 0, 284670355053384600⟩,
   ⟨.plane, 47322243871801150, 998879675053476000, 0, 105119340697190000⟩,
   ⟨.plane, 120210052932680300, 992748479310808200, 0, 165787183879697400⟩,
   ⟨.plane, 203430482066485500, 979089392735003200, 0, 206464811371423200⟩,
   ⟨.plane, 291228564357300200, 956653502216129300, 0, 234794274581974100⟩,
   ⟨.plane, 380236179272676800, 924889424727149100, 0, 254777532659772600⟩,
   ⟨.plane, 468059851105614600, 883696766873677000, 0, 268687668484702500⟩,
   ⟨.plane, 552815105215559900, 833303941815655600, 0, 277866575551586700⟩,
   ⟨.plane, 632938630780304100, 774201969557010400, 0, 283099661678292900⟩,
   ⟨.general, 80565166513690690, 23634546840031240, 996469097433677400, 140306334016837200⟩,
   ⟨.general, 115647607713938900, 51912916325459360, 991932800117341000, 169650412593947700⟩,
   ⟨.general, 152047338276042100, 83227157369945200, 984862857051320300, 193578724274539000⟩,
   ⟨.general, 189298669974593100, 116585566799371200, 974973753062060400, 213061451052196800⟩,
   ⟨.general, 227019444677779200, 151307716740950400, 962064523092309600, 228938126593104800⟩,
   ⟨.general, 264890818509327300, 186888202580785900, 945994531699619100, 241863029281618600⟩,
   ⟨.general, 302638925957413600, 222927762977622400, 926667628111145400, 252340049563119300⟩,
   ⟨.general, 340022029615138400, 259095184074623500, 904021407360322900, 260762397344960500⟩,
   ⟨.general, 376821795333551000, 295104729175084700, 878019665713758000, 267444103268920900⟩,
   ⟨.general, 412837290092188400, 330701971416993000, 848646910092915300, 272643236034335600⟩,
   ⟨.general, 447880713181563000, 365654410108763400, 815904234042198600, 276578768592454500⟩,
   ⟨.general, 481774203408925700, 399744895193969500, 779806152640550400, 279442869064222400⟩,
   ⟨.general, 514347281465334400, 432766711081202400, 740378178925594200, 281409900206289500⟩,
   ⟨.general, 545434621390565000, 464519612353229300, 697655074895708500, 282642953157899400⟩,
   ⟨.general, 574873931317025200, 494806355570334500, 651679855127739700, 283298354255088400⟩,
   ⟨.general, 159959873828634200, 27923575900489850, 986728489845943900, 188669556528497600⟩,
   ⟨.general, 199809741250095100, 58771410381390650, 978070543786772200, 208186788274823400⟩,
   ⟨.general, 239622895256620200, 91645739146913780, 966530872018607900, 224514868060079600⟩,
   ⟨.general, 279222834109774600, 125904964196268700, 951936210521714300, 238037049151187200⟩,
   ⟨.general, 318425110754674100, 161059482340086300, 934165559196664600, 249139804185245500⟩,
   ⟨.general, 357048116442624400, 196715165346089800, 913137331548565400, 258163240588123000⟩,
   ⟨.general, 394916471049214400, 232540460617516800, 888800267253463500, 265396550622741700⟩,
   ⟨.general, 431861729397050300, 268246114115143900, 861126859959851700, 271085721674708700⟩,
   ⟨.general, 467722100993167800, 303572011601197300, 830108468824971900, 275443409390365900⟩,
   ⟨.general, 502341793927095500, 338278185919743900, 795751588754276200, 278657993251938000⟩,
   ⟨.general, 535570183663612800, 372138306562594200, 758074969352799900, 280901108067947400⟩,
   ⟨.general, 567260845132877100, 404934636046605500, 717107435541521200, 282333618456098700⟩,
   ⟨.general, 597270420254016200, 436453809863380200, 672886407163446300, 283110117580630900⟩,
   ⟨.general, 246168702233359600, 30704231668333680, 968740532959368200, 222167997035454600⟩,
   ⟨.general, 288177456628683100, 63380346692818850, 955477202838519600, 235618573427070300⟩,
   ⟨.general, 329396360411697800, 97428624870679410, 939151585636384600, 246922834480559000⟩,
   ⟨.general, 369730382224137700, 132379953228229000, 919660259249949900, 256272634864204600⟩,
   ⟨.general, 409066302313512700, 167849701812933600, 896934355408944600, 263875672675302800⟩,
   ⟨.general, 447281935541171200, 203509510532611400, 870932115185403300, 269931115739086200⟩,
   ⟨.general, 484251337723143700, 239069256667209100, 841633252925485300, 274623326840383700⟩,
   ⟨.general, 519847762996292800, 274264981807614900, 809034624142761200, 278122567445477100⟩,
   ⟨.general, 553945301188314500, 308850380658009400, 773146846115788100, 280588125404568400⟩,
   ⟨.general, 586419676240125100, 342590424590661400, 733991665005275900, 282171987700491300⟩,
   ⟨.general, 617148446666839000, 375256229478946800, 691599997841202900, 283022250233312400⟩,
   ⟨.general, 335033783056572700, 32615899346347470, 941641421837755800, 245799595674487000⟩,
   ⟨.general, 377577322475828400, 66584389280815730, 923581011420267900, 255147440750370600⟩,
   ⟨.general, 418815522984897300, 101456579715795400, 902385793405048800, 262906533519531100⟩,
   ⟨.general, 458680589200934400, 136857332084382200, 877998967963532800, 269190044992507500⟩,
   ⟨.general, 497089571422423500, 172461485195160800, 850387555240168500, 274127548575427600⟩,
   ⟨.general, 533950513396074700, 207977938141641200, 819537690707645200, 277853097012259500⟩,
   ⟨.general, 569166579253144000, 243138578832228800, 785450849222737000, 280501056764674100⟩,
   ⟨.general, 602638768268037700, 277690188304985300, 748140811812538400, 282205583403104000⟩,
   ⟨.general, 634267615016330700, 311388135638663200, 707631275117891700, 283101690124347300⟩,
   ⟨.general, 423795111953706700, 33948778486643510, 905121640180705200, 262447490113180300⟩,
   ⟨.general, 465691868323492900, 68802195562914480, 882268293470357500, 268803416303937700⟩,
   ⟨.general, 505885706918598000, 104194685972163500, 856284484824192400, 273893275128763600⟩,
   ⟨.general, 544320466671399500, 139803973873639300, 827145741965567200, 277794479124252300⟩,
   ⟨.general, 580929881375974200, 175337338119615500, 794844192773416400, 280601166166098700⟩,
   ⟨.general, 615641603944712800, 210521579351401000, 759385330461270700, 282418145659746000⟩,
   ⟨.general, 648380135106660400, 245095331215705100, 720785321032089700, 283358521657782800⟩,
   ⟨.general, 510361657725168800, 34855606438007190, 859253201928195500, 273816523696287800⟩,
   ⟨.general, 550673879258068100, 70263086315120330, 831758004111980000, 277836520820318000⟩,
   ⟨.general, 588957304099529200, 105903506129640300, 801195195528071100, 280785294041896600⟩,
   ⟨.general, 625164158951693000, 141482392523602600, 767562705560933100, 282724594967470500⟩,
   ⟨.general, 659241492157017800, 176720790821453000, 730869630720848100, 283734234482982800⟩,
   ⟨.general, 593031401753338300, 35421893395616720, 804399804825150400, 280923390761098100⟩,
   ⟨.general, 630981225339017500, 71095740403695480, 772533552000249600, 282993080974269400⟩,
   ⟨.general, 666629601135323000, 106725979228273000, 737708980728800900, 284109787411147900⟩,
   ⟨.general, 670371527104992100, 35694552688208090, 741166590285415900, 284345520600878300⟩]

/-- `s2/lebedev_laikov/lebedev_laikov_4334.hpp:13-4348`, `4351-8686`, `points` and `weights`. -/
def llRows4334 : List OctaRow := [
   ⟨.vertex, 1000000000000000000, 0, 0, 14490630225378830⟩,
   ⟨.face, 577350269189625700, 0, 0, 254637732982842400⟩,
   ⟨.mirror, 14628961518310130, 999785970580599600, 0, 60184329610874960⟩,
   ⟨.mirror, 37698408124931390, 998577818725056700, 0, 100228658326367300⟩,
   ⟨.mirror, 65247019040968910, 995733725959171800, 0, 131522293102809300⟩,
   ⟨.mirror, 95605434161346480, 990817441266372200, 0, 156421374687672400⟩,
   ⟨.mirror, 127833589892919800, 983522824641186200, 0, 176511884150773600⟩,
   ⟨.mirror, 161309610446603100, 973631562324851000, 0, 192873709931108000⟩,
   ⟨.mirror, 195580622574537100, 960987221635497500, 0, 206265853426327000⟩,
   ⟨.mirror, 230293521849802800, 945478602395648500, 0, 217239544595378700⟩,
   ⟨.mirror, 265158434411302700, 927028591425903000, 0, 226207618887604700⟩,
   ⟨.mirror, 299927682518320900, 905586423550164800, 0, 233488569946239700⟩,
   ⟨.mirror, 334382866971879800, 881122123517127600, 0, 239335527317920300⟩,
   ⟨.mirror, 368326501375051800, 853622385349416600, 0, 243955920046886300⟩,
   ⟨.mirror, 401576320651810800, 823087429975399500, 0, 247525186606000200⟩,
   ⟨.mirror, 433961202639977000, 789528561362114100, 0, 250196555815877300⟩,
   ⟨.mirror, 465318065111458200, 752966265221661500, 0, 252108140792592500⟩,
   ⟨.mirror, 495489333108080300, 713428792208598600, 0, 253388100238808100⟩,
   ⟨.mirror, 524320706892493000, 670951259517047900, 0, 254158290084826100⟩,
   ⟨.mirror, 551659047904170400, 625575406910252800, 0, 254536573752586000⟩,
   ⟨.mirror, 601237192780417700, 526334186648602400, 0, 254572699306679900⟩,
   ⟨.mirror, 623157446644981800, 472598765743006500, 0, 254445619746555500⟩,
   ⟨.mirror, 642941651418127100, 416235589232183600, 0, 254348159688106400⟩,
   ⟨.mirror, 660412427294359400, 357366550967413300, 0, 254350645142919400⟩,
   ⟨.mirror, 675385147040825000, 296158414219968600, 0, 254490567549376300⟩,
   ⟨.mirror, 687671797062616100, 232841145524893100, 0, 254761140734442900⟩,
   ⟨.mirror, 697089506131923400, 167727281267843000, 0, 255106037544886900⟩,
   ⟨.mirror, 703474691255331000, 101226071377058600, 0, 255429193381603900⟩,
   ⟨.mirror, 706701721754229500, 33843063384025070, 0, 255625571068634300⟩,
   ⟨.plane, 43822235011311230, 999039344429744400, 0, 90413396951181960⟩,
   ⟨.plane, 111747407740000600, 993736643615092800, 0, 143842633007902200⟩,
   ⟨.plane, 189715325291144000, 981839139243122400, 0, 180252308982051800⟩,
   ⟨.plane, 272402300991033100, 962183447381418300, 0, 206005229056549600⟩,
   ⟨.plane, 356716330870990200, 934212748409021800, 0, 224500224896746600⟩,
   ⟨.plane, 440478448302808700, 897763185133334500, 0, 237705984773115000⟩,
   ⟨.plane, 521983315416141100, 852955695465581300, 0, 246811895588252500⟩,
   ⟨.plane, 599817986897755300, 800136477479888600, 0, 252541087296652800⟩,
   ⟨.plane, 672780315454822200, 739842312345347000, 0, 255310140993339700⟩,
   ⟨.general, 74765639431660850, 21931685094611850, 996959929159284600, 121287973366863200⟩,
   ⟨.general, 107534148200141600, 48264192815338870, 993029191244020700, 147287288127093100⟩,
   ⟨.general, 141634488520325900, 77511918835757420, 986879716125518800, 168684660101082800⟩,
   ⟨.general, 176632531538858600, 108755813924768000, 978250030278422900, 186269841466020800⟩,
   ⟨.general, 212174417448151400, 141366137425309600, 966952755707323100, 200743095699186100⟩,
   ⟨.general, 247966944340814500, 174876821425888000, 952853866992340800, 212656812539479600⟩,
   ⟨.general, 283760045229411300, 208921640661207300, 935858955609675100, 222439460337211300⟩,
   ⟨.general, 319334493319398400, 243198768554597200, 915903837938225200, 230426452267313500⟩,
   ⟨.general, 354493544243874500, 277449705437777000, 892947920117353200, 236885428842408700⟩,
   ⟨.general, 389057193228815400, 311446035615691500, 866969357760806700, 242035208946177200⟩,
   ⟨.general, 422858121425909000, 344980685191301200, 837961416766363700, 246059711308129500⟩,
   ⟨.general, 455738721130405200, 377861864124825600, 805929667962741300, 249118191225768700⟩,
   ⟨.general, 487548795054164300, 409908639169897800, 770889797555470900, 251352819420585700⟩,
   ⟨.general, 518143652996299700, 440947492585397300, 732865924738148300, 252894309669322000⟩,
   ⟨.general, 547382409560066100, 470809451771129100, 691889411558801700, 253866036848813600⟩,
   ⟨.general, 575126339897617400, 499327514035463700, 647998246049427200, 254386864829902200⟩,
   ⟨.general, 148951574684002800, 25993819932670170, 988502781849633400, 164259553782518300⟩,
   ⟨.general, 186365644435176700, 54792865324621900, 980951369071769600, 181824665984930800⟩,
   ⟨.general, 223860288035634800, 85567632514252530, 970857740200132700, 196656564949242000⟩,
   ⟨.general, 261272337572816000, 117725780226701100, 958059187257891200, 209067790565799100⟩,
   ⟨.general, 298433299020619000, 150816845619270000, 942439305798056800, 219382040951050400⟩,
   ⟨.general, 335178658466333300, 184480189217772700, 923916839707386100, 227887082766192800⟩,
   ⟨.general, 371350552220912000, 218414523608759800, 902437733720162100, 234828319228209000⟩,
   ⟨.general, 406798109895466300, 252359064148622900, 877969361952629500, 240413975558147700⟩,
   ⟨.general, 441376999368753400, 286081297690137300, 850496228998202200, 244822740776073400⟩,
   ⟨.general, 474948718251639400, 319368675780899600, 820016685172368600, 248211045559257300⟩,
   ⟨.general, 507379810507542600, 352022694954760200, 786540367766409100, 250719239777410300⟩,
   ⟨.general, 538541044887865400, 383854439566789000, 750086203176643200, 252476596853488000⟩,
   ⟨.general, 568306535367053000, 414681003764096300, 710680903765042800, 253605238853942500⟩,
   ⟨.general, 596552762066351000, 444322409468112100, 668357986797089900, 254223058803306800⟩,
   ⟨.general, 229922770085615700, 28657576640575840, 972786853887965800, 194481701304789600⟩,
   ⟨.general, 269575299855326700, 59234216844859930, 961155796560935600, 206786236274663500⟩,
   ⟨.general, 308617871661138900, 91178177760577160, 946805972304573800, 217244073464911400⟩,
   ⟨.general, 346964987165907700, 124059381408260500, 929636793358331500, 226012599172342300⟩,
   ⟨.general, 384515356631965500, 157527205825917500, 909578539730831200, 233265500868952300⟩,
   ⟨.general, 421160003340321500, 191284516352541300, 886585859006421700, 239169968153245800⟩,
   ⟨.general, 456786783432988200, 225071017785817100, 860632831952047200, 243880152827392800⟩,
   ⟨.general, 491282931923206100, 258652130344091000, 831709177699393900, 247537050426066500⟩,
   ⟨.general, 524536479330381200, 291811224286540700, 799817286154831100, 250270723564057400⟩,
   ⟨.general, 556436978891575600, 324343923906789000, 764969873620368900, 252203170105424100⟩,
   ⟨.general, 586875769777528800, 356053678783535100, 727188152181224900, 253451126997878400⟩,
   ⟨.general, 615745885351961700, 386748082124258100, 686500492094023900, 254128491495515100⟩,
   ⟨.general, 313846111067211300, 30513746375072780, 948983419165027000, 216150925068839400⟩,
   ⟨.general, 354249587205056900, 62371112337307550, 933068633226331200, 224877851343785200⟩,
   ⟨.general, 393575155312018100, 95162239524019070, 914353730943278900, 232238880340461700⟩,
   ⟨.general, 431763466811114700, 128546734150851700, 892779953777187900, 238326547100135500⟩,
   ⟨.general, 468741384225082100, 162231893165603300, 868310041145821400, 243247667501952500⟩,
   ⟨.general, 504427423706028300, 195958115383645300, 840924129293831600, 247112222375067400⟩,
   ⟨.general, 538735407792572700, 229488808118383700, 810616461305205700, 250029175248687000⟩,
   ⟨.general, 571576889835610500, 262603115271394500, 777392733986888400, 252105594276468200⟩,
   ⟨.general, 602862720013611100, 295090407528671300, 741267962482092700, 253447278557550300⟩,
   ⟨.general, 632503981265346300, 326745845111328600, 702264812151349400, 254159971308012100⟩,
   ⟨.general, 398198670842340700, 31832914587498210, 916746684798073500, 231738097586293600⟩,
   ⟨.general, 438279118213330000, 64595481938809080, 896514828796065600, 237855073371977500⟩,
   ⟨.general, 476923305721816600, 97957570370879520, 873469218041717100, 242888445673911800⟩,
   ⟨.general, 514082391119423800, 131630723512665500, 847580466839855900, 246900265575729200⟩,
   ⟨.general, 549697783386298300, 165355648635870400, 818834449937471100, 249965757426585100⟩,
   ⟨.general, 583704730651272700, 198893172412651000, 787229504898639300, 252167616848608200⟩,
   ⟨.general, 616034956692687900, 232017458143895000, 752774090447515400, 253593566264533400⟩,
   ⟨.general, 646618535320944000, 264510656216866200, 715484858349301400, 254335674336321400⟩,
   ⟨.general, 481083515879540400, 32759178077439920, 876062490351384900, 242735328520153500⟩,
   ⟨.general, 519992504132434100, 66125461839671810, 851607432413885500, 246825803974438600⟩,
   ⟨.general, 557171769220749400, 99814983314741420, 824376484798843500, 250006095644031000⟩,
   ⟨.general, 592578925083637900, 133568700141037400, 794361139463250700, 252323836542097900⟩,
   ⟨.general, 626165852385967000, 167144440289646300, 761563563588763200, 253839926025284600⟩,
   ⟨.general, 657881112666933100, 200310638215607600, 725994552192903200, 254625592726806900⟩,
   ⟨.general, 560962461299810000, 33375009402313350, 827168196777326900, 250058336004844900⟩,
   ⟨.general, 597995965998467000, 67087503359018030, 798686478878047700, 252477763826020300⟩,
   ⟨.general, 633052371105400200, 100879212642485000, 767507706732944100, 254095119386065600⟩,
   ⟨.general, 666096099810397200, 134505034317179400, 733637772719420300, 254952408502747200⟩,
   ⟨.general, 636538436458581900, 33727994607370520, 770507132537155100, 254256950700915800⟩,
   ⟨.general, 671099430289927500, 67552493096780280, 738283289355071500, 255211412758037600⟩]

/-- `s2/lebedev_laikov/lebedev_laikov_4802.hpp:13-4816`, `4819-9622`, `points` and `weights`. -/
def llRows4802 : List OctaRow := [
   ⟨.vertex, 1000000000000000000, 0, 0, 96875218794207050⟩,
   ⟨.edge, 707106781186547600, 0, 0, 230789789536791800⟩,
   ⟨.face, 577350269189625700, 0, 0, 229731085249855800⟩,
   ⟨.mirror, 23357286088870640, 999454288285925200, 0, 73862659440019180⟩,
   ⟨.mirror, 43529878365506530, 998103351050866100, 0, 82579776985422100⟩,
   ⟨.mirror, 64392005210888000, 995845037809518800, 0, 97060447620576300⟩,
   ⟨.mirror, 90039436319931800, 991859768220476700, 0, 130239384711700300⟩,
   ⟨.mirror, 119670661554847300, 985574890876411500, 0, 154195700460096800⟩,
   ⟨.mirror, 151171541283813400, 976879895489590200, 0, 170445977009219900⟩,
   ⟨.mirror, 183598282850380100, 965703547196956100, 0, 182737489094290600⟩,
   ⟨.mirror, 216508125915540500, 951970830868824900, 0, 192636081743610700⟩,
   ⟨.mirror, 249620872041756300, 935616823535268800, 0, 200801023949483300⟩,
   ⟨.mirror, 282720067356790000, 916590817664864200, 0, 207563598320917500⟩,
   ⟨.mirror, 315619082399434600, 894857077778724400, 0, 213130663869090900⟩,
   ⟨.mirror, 348147679374911500, 870394385719328700, 0, 217656232993733500⟩,
   ⟨.mirror, 380146608694722600, 843194587148069300, 0, 221268226299101800⟩,
   ⟨.mirror, 411465211963401100, 813260572441469500, 0, 224079951566856500⟩,
   ⟨.mirror, 441959878651975100, 780604209137936300, 0, 226195981618752500⟩,
   ⟨.mirror, 471492594932954300, 745244567807627900, 0, 227715636880885500⟩,
   ⟨.mirror, 499929397287946600, 707206614402482000, 0, 228735177212833600⟩,
   ⟨.mirror, 527138722143124800, 666520468728925700, 0, 229349081408408500⟩,
   ⟨.mirror, 552989678083776100, 623221334571918600, 0, 229650531237627300⟩,
   ⟨.mirror, 600085609948171200, 528956067614563500, 0, 229679383231875600⟩,
   ⟨.mirror, 621056219278517500, 478098677043712400, 0, 229578544384297400⟩,
   ⟨.mirror, 640116587993424000, 424854689925054500, 0, 229501793152910200⟩,
   ⟨.mirror, 657114402924433300, 369325497276495800, 0, 229505963818486800⟩,
   ⟨.mirror, 671891082171886300, 311648435574098500, 0, 229623234323736200⟩,
   ⟨.mirror, 684284559109901000, 252010484558751400, 0, 229853017874077100⟩,
   ⟨.mirror, 694135347626981600, 190662629661763600, 0, 230157979028050100⟩,
   ⟨.mirror, 701296524221299100, 127931115176292400, 0, 230469040499651300⟩,
   ⟨.mirror, 705647142824264400, 64220087573159890, 0, 230702799590710200⟩,
   ⟨.plane, 45955576435858950, 998943484384601100, 0, 93122746966710920⟩,
   ⟨.plane, 104931674243502300, 994479433543226000, 0, 119991938587692600⟩,
   ⟨.plane, 177354887954927400, 984146962459619200, 0, 159803913887769000⟩,
   ⟨.plane, 255907141123612700, 966701368118375700, 0, 182225376357490000⟩,
   ⟨.plane, 335815683798589800, 941927718306922700, 0, 198857959365504000⟩,
   ⟨.plane, 415583574376389300, 909554997077441300, 0, 211262010253330700⟩,
   ⟨.plane, 493789429616747200, 869581508082346100, 0, 220159488769900700⟩,
   ⟨.plane, 569156969479331600, 822228887897465700, 0, 226162259089503600⟩,
   ⟨.plane, 640584085489425100, 767888031823440200, 0, 229645845343570500⟩,
   ⟨.general, 73451338941433480, 21778440814860670, 997060981246074200, 100600699026700000⟩,
   ⟨.general, 100985983404493100, 45903621857751880, 993828299383836200, 122767668963587600⟩,
   ⟨.general, 132428961974875800, 72550630956908770, 988533750550790000, 146786428027011700⟩,
   ⟨.general, 165427210960712700, 101782545196068400, 980955733643047800, 164417891210123200⟩,
   ⟨.general, 199076718677646100, 132565232098036400, 970976271244223100, 177766489071896100⟩,
   ⟨.general, 233012594552327800, 164276537449676500, 958497965581324300, 188482566451669000⟩,
   ⟨.general, 267008061110828700, 196536037433788900, 943440661245666400, 197326924645384800⟩,
   ⟨.general, 300875337629431600, 229072677054223800, 925742804365006700, 204676777585532800⟩,
   ⟨.general, 334447559616786000, 261664549537082300, 905359869544664600, 210760012591804000⟩,
   ⟨.general, 367570972407078600, 294115072884314100, 882262945014676100, 215741636226682900⟩,
   ⟨.general, 400100088758781200, 326244040091906600, 856437239545155300, 219755781692072100⟩,
   ⟨.general, 431895635043602800, 357883535061191600, 827880145771347700, 222919261183543700⟩,
   ⟨.general, 462823905679553100, 388875185404367800, 796599097732506000, 225338511021277500⟩,
   ⟨.general, 492756322977363600, 419067800322284000, 762609588779783500, 227113710754877400⟩,
   ⟨.general, 521568713670796900, 448315183688385200, 725933587178772000, 228341409291752500⟩,
   ⟨.general, 549140234698490500, 476474067608788000, 686598474751891000, 229116167313007700⟩,
   ⟨.general, 575352016012607500, 503402131099827700, 644636604665279700, 229531390857659800⟩,
   ⟨.general, 138832635641775400, 24354365103728060, 990016345411101000, 143820472135903100⟩,
   ⟨.general, 174368690053724400, 51188970573426520, 983348996654077600, 160773802549525700⟩,
   ⟨.general, 209973703795026800, 80146950485396340, 974416497213840200, 174148385352837900⟩,
   ⟨.general, 245449259090854800, 110511787415569900, 963089718590104300, 185191846751915100⟩,
   ⟨.general, 280721925786427800, 141795053157096600, 949257269281060400, 194462863807061300⟩,
   ⟨.general, 315684227197584200, 173660494571959700, 932837339156021500, 202249544627515200⟩,
   ⟨.general, 350209094517775200, 205846632469398100, 913772813131386900, 208746238243851400⟩,
   ⟨.general, 384168484951968600, 238128426119591900, 892025463674392600, 214107475481830800⟩,
   ⟨.general, 417437236790601600, 270303127042256900, 867572690240883900, 218464091374816200⟩,
   ⟨.general, 449892646501189200, 302184568309130900, 840405314892748800, 221930916522032900⟩,
   ⟨.general, 481414622980770100, 333599335516572000, 810525412385808300, 224612311834062400⟩,
   ⟨.general, 511886362573470100, 364383373551823200, 777944155380252500, 226606276691512500⟩,
   ⟨.general, 541194745511914400, 394378954195817900, 742679936390978100, 228007295223079600⟩,
   ⟨.general, 569230150035724600, 423432014440354200, 704756954869755100, 228908202520258300⟩,
   ⟨.general, 595885720413957600, 451389794741926000, 664204382257133700, 229401269512002500⟩,
   ⟨.general, 215627028478576600, 26812257554444910, 976107620825866300, 172243448873694700⟩,
   ⟨.general, 253238505490971000, 55574957478056140, 965806234934322500, 183023742145509100⟩,
   ⟨.general, 290256461777153700, 85693680629502490, 953104285740430700, 192385534999763300⟩,
   ⟨.general, 326697982314325600, 116736745032413500, 937891763857101900, 200406786193627100⟩,
   ⟨.general, 362503962749361400, 148386199400330400, 920093697847417600, 207181729735426300⟩,
   ⟨.general, 397583893754869900, 180382150301140500, 899660673409398900, 212825083410210300⟩,
   ⟨.general, 431839609900977400, 212496296566642400, 876561392753544300, 217451371944010200⟩,
   ⟨.general, 465170655573274200, 244522183780591300, 850779150445461400, 221166183915021400⟩,
   ⟨.general, 497475264962096900, 276270122432298700, 822309661990015900, 224066525781310200⟩,
   ⟨.general, 528651757962751700, 307562777521132800, 791158932633878800, 226243951663262000⟩,
   ⟨.general, 558600119573189400, 338231108982687700, 757341153859447800, 227787455723186900⟩,
   ⟨.general, 587222990202131900, 368110883474139900, 720876922397960400, 228785431445499400⟩,
   ⟨.general, 614425861623512300, 397039744687283900, 681791978323932000, 229326849961557500⟩,
   ⟨.general, 295167650806486100, 28674995387504410, 955015079753669100, 191262820152982800⟩,
   ⟨.general, 333508548547272500, 58678793419035100, 940919150218964200, 199249967223870100⟩,
   ⟨.general, 370956176063638100, 89610992050222840, 924316712790598600, 206127553345402700⟩,
   ⟨.general, 407472286166749800, 121162792762629700, 905144139712566600, 211931821596857200⟩,
   ⟨.general, 442992364883911700, 153074890355489800, 883360539415936400, 216741658188265200⟩,
   ⟨.general, 477442805272173600, 185117643672187700, 858941107233257500, 220643073051660000⟩,
   ⟨.general, 510744653953590400, 217082910765817900, 831874334446776400, 223718693869952300⟩,
   ⟨.general, 542815137054293500, 248778668902627100, 802160146656367800, 226048007503288400⟩,
   ⟨.general, 573569929255696400, 280023995279501600, 769807832073252700, 227709888455854200⟩,
   ⟨.general, 602925379456286500, 310644570287811900, 734833952507771400, 228784571510967100⟩,
   ⟨.general, 630799898707314500, 340468950084119400, 697260626896040400, 229354726823629400⟩,
   ⟨.general, 375265227369271900, 29971450981844790, 926432793705799000, 205607383985252800⟩,
   ⟨.general, 413538387934402800, 60867258986780110, 908449876706498100, 211423586583187600⟩,
   ⟨.general, 450611388515390700, 92388495484356430, 887926653751518400, 216317562977055100⟩,
   ⟨.general, 486440155460607200, 124278660385185100, 864829919538127500, 220339215811165000⟩,
   ⟨.general, 520970807661170900, 156308673148338600, 839140641527672100, 223547317684783900⟩,
   ⟨.general, 554142213583012200, 188269650938850600, 810851987517255000, 226002414150123500⟩,
   ⟨.general, 585888091511381700, 219967297912605900, 779967648094571800, 227767592932918200⟩,
   ⟨.general, 616139939060344400, 251216548292486700, 746499712899291000, 228910211228483400⟩,
   ⟨.general, 644829648225509000, 281836870187188800, 710466539234928300, 229502795462511800⟩,
   ⟨.general, 454479627491794800, 30889704050603120, 890221373804620300, 216128158987999200⟩,
   ⟨.general, 491938907214662800, 62409476776368350, 868389986571093100, 220198047739510200⟩,
   ⟨.general, 527931302698518300, 94307061442803130, 844034784705623900, 223495206659316600⟩,
   ⟨.general, 562416992557113500, 126354781877037400, 817142334957514000, 226054009852083800⟩,
   ⟨.general, 595348462709328700, 158343078882259400, 787710401936984400, 227915798189998800⟩,
   ⟨.general, 626673071533918500, 190074846255598800, 755746263130129400, 229129691856557100⟩,
   ⟨.general, 656336320427887100, 221359951959256700, 721264449529974700, 229753375253664900⟩,
   ⟨.general, 531457471658569600, 31525088115153740, 846498153948142100, 223492735646599500⟩,
   ⟨.general, 567461493229818500, 63438652914655610, 820952490109968800, 226128801298521900⟩,
   ⟨.general, 601770600497026400, 95515035042239520, 792936959952257500, 228081816092368800⟩,
   ⟨.general, 634347127026417800, 127544009980119600, 762454095635613200, 229377329518015900⟩,
   ⟨.general, 665149459912780200, 159325203767196000, 729514684857185300, 230052876733863400⟩,
   ⟨.general, 605018498600570400, 31925383384961050, 795571106970857000, 228189385506566600⟩,
   ⟨.general, 639016355088040000, 64028243539623050, 766523634312228300, 229572044484072700⟩,
   ⟨.general, 671119910708844800, 96098050770029090, 735094028059236200, 230322764902675300⟩,
   ⟨.general, 674135442957227500, 32118531962732330, 737909076006943900, 230483191322711400⟩]

/-- `s2/lebedev_laikov/lebedev_laikov_5294.hpp:13-5308`, `5311-10606`, `points` and `weights`. -/
def llRows5294 : List OctaRow := [
   ⟨.vertex, 1000000000000000000, 0, 0, 90805107643081630⟩,
   ⟨.face, 577350269189625700, 0, 0, 208482436198779300⟩,
   ⟨.mirror, 23032616862614500, 999469357769871800, 0, 50111056572396160⟩,
   ⟨.mirror, 37572086201623940, 998587340535075800, 0, 59425204096838540⟩,
   ⟨.mirror, 58219120338218520, 996604770234463600, 0, 95643948261097210⟩,
   ⟨.mirror, 84031275291948720, 992913636498974500, 0, 118553065712633800⟩,
   ⟨.mirror, 112292779806057800, 987309811156992600, 0, 136451011423033100⟩,
   ⟨.mirror, 142012531919298700, 979624867771199600, 0, 150582882560541500⟩,
   ⟨.mirror, 172639643734197800, 969737648450682000, 0, 161929874986702300⟩,
   ⟨.mirror, 203817005811569600, 957557964973407400, 0, 171245050426778900⟩,
   ⟨.mirror, 235284989287650800, 943017469420275400, 0, 178989109816499900⟩,
   ⟨.mirror, 266836335431246100, 926065192190726500, 0, 185447495562979500⟩,
   ⟨.mirror, 298294127990045200, 906664892015411100, 0, 190814863667366100⟩,
   ⟨.mirror, 329500292208707600, 884793261089138700, 0, 195237740528183300⟩,
   ⟨.mirror, 360309491836359300, 860438341884675200, 0, 198834925428223200⟩,
   ⟨.mirror, 390585789517392000, 833597913897432400, 0, 201707980716005000⟩,
   ⟨.mirror, 420200575816083700, 804277907298008200, 0, 203947308270909400⟩,
   ⟨.mirror, 449031006159722700, 772490977950146800, 0, 205636027928895300⟩,
   ⟨.mirror, 476958616031149100, 738255346873493300, 0, 206852582306686500⟩,
   ⟨.mirror, 503867988704975000, 701593970838409100, 0, 207672487753448800⟩,
   ⟨.mirror, 529645428651996200, 662534104643743300, 0, 208169427823788500⟩,
   ⟨.mirror, 554177620716485000, 621107341281707400, 0, 208415763121932600⟩,
   ⟨.mirror, 599046732192121300, 531305962040594500, 0, 208438153112859300⟩,
   ⟨.mirror, 619146709629458700, 483026607869617700, 0, 208347627712930700⟩,
   ⟨.mirror, 637525121290184900, 432577668688375500, 0, 208268619445973200⟩,
   ⟨.mirror, 654051438113116800, 380043987722904800, 0, 208247568611241500⟩,
   ⟨.mirror, 668589906439150900, 325538129894755600, 0, 208313986028991500⟩,
   ⟨.mirror, 681001300968164800, 269210802456613900, 0, 208474556183123700⟩,
   ⟨.mirror, 691146957873034000, 211262313832119600, 0, 208709131337589000⟩,
   ⟨.mirror, 698895691514173600, 151952705687822800, 0, 208971841329769700⟩,
   ⟨.mirror, 704133579486872100, 91606792750372450, 0, 209200330347979300⟩,
   ⟨.mirror, 706775439801856800, 30609726979899340, 0, 209333614826324100⟩,
   ⟨.plane, 38403687078536230, 999262306313399300, 0, 75917081173652660⟩,
   ⟨.plane, 98354859541173980, 995151406372234400, 0, 108338396816918600⟩,
   ⟨.plane, 166577494761299800, 986028365838959600, 0, 140301939529251000⟩,
   ⟨.plane, 240570233536291000, 970631733839510500, 0, 161597017928643600⟩,
   ⟨.plane, 316527077018904600, 948583475248155800, 0, 177114418750491100⟩,
   ⟨.plane, 392738614564544300, 919650140341381300, 0, 188776002298816800⟩,
   ⟨.plane, 467882591837465600, 883790631459428600, 0, 197347467076821400⟩,
   ⟨.plane, 540802202426693500, 841149795131900100, 0, 203378766123465900⟩,
   ⟨.plane, 610496744575243800, 792018765474044500, 0, 207234362651733100⟩,
   ⟨.plane, 676091070268573800, 736818067573735900, 0, 209117783422691800⟩,
   ⟨.general, 66556441202173920, 19365088745884240, 997594724060009000, 93166844846755660⟩,
   ⟨.general, 94462461612701820, 42524420021158690, 994619785168148100, 111619368868297600⟩,
   ⟨.general, 124265192545250900, 68065293153543750, 989911752526261300, 129862355155941400⟩,
   ⟨.general, 155343806484675100, 95609574912053690, 983222818577756600, 145023683245642600⟩,
   ⟨.general, 187113711054267000, 124593165745288800, 974404947742501600, 157271995814991400⟩,
   ⟨.general, 219261262883625700, 154538582877897800, 963349534177895700, 167323478586719500⟩,
   ⟨.general, 251568280720695500, 185100424972336800, 949974332711307300, 175686011872518800⟩,
   ⟨.general, 283853586628729000, 216018260827238400, 934217989736432900, 182677629043936700⟩,
   ⟨.general, 315957881752852100, 247079901227711100, 916036101563445600, 188511634799286500⟩,
   ⟨.general, 347737088279139200, 278101420898640200, 895398524194284900, 193345786017057400⟩,
   ⟨.general, 379057696089054000, 308917252351573100, 872287449316573000, 197306067190206400⟩,
   ⟨.general, 409793831781020000, 339375005547224400, 846695707467594600, 200498709961631100⟩,
   ⟨.general, 439825657285963700, 369332247098773000, 818625117160438100, 203017090928149900⟩,
   ⟨.general, 469038411471848000, 398654100560987700, 788084942547359700, 204946146011908000⟩,
   ⟨.general, 497321604830105300, 427211249140856200, 755090570711035900, 206365356520018600⟩,
   ⟨.general, 524568152613244600, 454878173530993600, 719662490692015300, 207350792738102700⟩,
   ⟨.general, 550673391180388800, 481531535502325100, 681825635014307400, 207976459325612200⟩,
   ⟨.general, 575533982952247400, 507048644580185500, 641609153999940100, 208315053496877800⟩,
   ⟨.general, 130547238605636200, 22849703757223660, 991178747517646500, 126271512159066400⟩,
   ⟨.general, 163732790821647700, 48122543382883840, 985330296919828300, 141438612854597200⟩,
   ⟨.general, 197273463414963700, 75317344575119350, 977451010659059900, 153874040131389800⟩,
   ⟨.general, 230869465311013000, 103904363988201700, 967420887272553300, 164243494233143200⟩,
   ⟨.general, 264389921833816000, 133452658711762600, 955137873354140700, 172979060923749600⟩,
   ⟨.general, 297717159962217100, 163641486893638200, 940524298692634000, 180350519026082800⟩,
   ⟨.general, 330729390303231000, 194219540616656800, 923524141770158600, 186547535007965700⟩,
   ⟨.general, 363306919821907300, 224975287994375300, 904098557570669900, 191718266967906900⟩,
   ⟨.general, 395334695592272700, 255721882182003200, 882222646180803300, 195985170903438200⟩,
   ⟨.general, 426701839418491400, 286289792521319300, 857883264165338400, 199452954811788200⟩,
   ⟨.general, 457300962257170400, 316522453663651800, 831077232419110000, 202213891114654800⟩,
   ⟨.general, 487027955985610900, 346273022163649600, 801809680790978300, 204351802420859200⟩,
   ⟨.general, 515781958145032200, 375401687028283500, 770092556143996900, 205945031301811000⟩,
   ⟨.general, 543465166646539300, 403773378499361300, 735943388758307100, 207068571531847200⟩,
   ⟨.general, 569982388776462700, 431255778413912300, 699384393641499500, 207795531069437300⟩,
   ⟨.general, 595240335094774100, 457717536712211000, 660441973274236000, 208198038782471200⟩,
   ⟨.general, 202515259921036900, 25202536177195570, 978954749551455000, 152131861037795600⟩,
   ⟨.general, 238106665327442500, 52232545061190000, 969833479089619800, 162277272018575500⟩,
   ⟨.general, 273282338365161200, 80606696885886200, 958550637136513800, 171049813942070900⟩,
   ⟨.general, 308013769261111800, 109933575408125500, 945009061831445400, 178591114944873600⟩,
   ⟨.general, 342240561458760100, 139912095595985700, 929137236148854700, 185012531368773600⟩,
   ⟨.general, 375880877389042000, 170297780165170500, 910885411061160400, 190422970393329800⟩,
   ⟨.general, 408845838343893200, 200879925660168000, 890220386160441000, 194925995612198700⟩,
   ⟨.general, 441045055084115200, 231470305218083600, 867122112039646400, 198616154536396000⟩,
   ⟨.general, 472387942056131200, 261897211137589200, 841581536749901800, 201579058564137000⟩,
   ⟨.general, 502784356187434300, 292001319560027000, 813598869559434800, 203893419870741800⟩,
   ⟨.general, 532145367445245800, 321632255519055100, 783181971266122500, 205633406053825100⟩,
   ⟨.general, 560383911383403000, 350645661593419800, 750344915267872800, 206870595946228900⟩,
   ⟨.general, 587415070687514600, 378900718130626700, 715106831549858300, 207675390610600200⟩,
   ⟨.general, 613155938166003800, 406258017057278200, 677491121025549800, 208117939173480300⟩,
   ⟨.general, 277849701639450600, 26962712768762260, 960246091071980100, 170034521622894300⟩,
   ⟨.general, 314373356226191200, 55234693169604650, 947691153048048600, 177490677999041000⟩,
   ⟨.general, 350148581026182700, 84451932016264640, 932879328951001600, 183965937700264200⟩,
   ⟨.general, 385143032230365300, 114326311933608300, 915747967032446800, 189498746297516900⟩,
   ⟨.general, 419301397947041500, 144617789834447500, 896254446317035800, 194154880945259500⟩,
   ⟨.general, 452558596045856700, 175116543843809100, 874371153010666500, 198007842725238400⟩,
   ⟨.general, 484844777962294700, 205633830674566000, 850082507151392300, 201129628474448800⟩,
   ⟨.general, 516087120827689400, 235996548722922600, 823383089883837200, 203588845696677600⟩,
   ⟨.general, 546211218569692600, 266043022313914600, 794276031985536900, 205451632535214200⟩,
   ⟨.general, 575142506810175600, 295619366449803200, 762771451379719700, 206783103309263500⟩,
   ⟨.general, 602807387285359700, 324576390531277900, 728885053039150900, 207648532028487600⟩,
   ⟨.general, 629133827527840900, 352767002620697200, 692637039813911400, 208114143952525500⟩,
   ⟨.general, 354179752843939100, 28238534794355500, 934750922881638200, 183438301546922200⟩,
   ⟨.general, 390823497207465700, 57412963747131060, 918673361769185500, 188954059177767700⟩,
   ⟨.general, 426440845010759000, 87246466336501990, 900297872827823300, 193667702359737500⟩,
   ⟨.general, 460994966655328600, 117503442291561600, 879588870875527800, 197617649506650400⟩,
   ⟨.general, 494438949653600600, 147975565262842800, 856523996832888700, 200853600456098300⟩,
   ⟨.general, 526719488434608600, 178474065948435200, 831091804969233100, 203428035171229100⟩,
   ⟨.general, 557778781022099000, 208824570043124400, 803290190645824900, 205394446602775800⟩,
   ⟨.general, 587556376353667000, 238862813657076300, 773124867571838500, 206807764288236000⟩,
   ⟨.general, 615991001639126900, 268430892876918500, 740607819057377700, 207725094966159900⟩,
   ⟨.general, 643021960295626700, 297374076196025200, 705755919127944700, 208206244070532000⟩,
   ⟨.general, 430064703621364600, 29163999204939770, 902326887468971600, 193437448654662600⟩,
   ⟨.general, 466148630893553100, 58988030247556590, 882737710876554400, 197410701048430000⟩,
   ⟨.general, 500965855528726100, 89241626985254090, 860853729507746400, 200712929038865800⟩,
   ⟨.general, 534482427044770400, 119718519963732100, 836657642741656300, 203373694747129300⟩,
   ⟨.general, 566657599741637100, 150230075616138200, 810142017818737700, 205428712590249300⟩,
   ⟨.general, 597445747140475200, 180600419191356400, 781307921252348400, 206918493681889400⟩,
   ⟨.general, 626798444411688600, 210662176478625200, 750163420518740000, 207888368980878200⟩,
   ⟨.general, 654666471357541700, 240252693267191400, 716722020491993600, 208388636611635900⟩,
   ⟨.general, 504271100443725300, 29825292036076570, 863030190209031500, 200659327547081700⟩,
   ⟨.general, 539212745677438000, 60087280623399220, 840023293490295700, 203372842613539700⟩,
   ⟨.general, 572681943766861800, 90582276745713980, 814757781443645900, 205500878137760800⟩,
   ⟨.general, 604646925420727800, 121121923580340000, 787230319034689500, 207065178351850200⟩,
   ⟨.general, 635071615743495200, 151528640479158000, 757445122759058000, 208095333509432000⟩,
   ⟨.general, 663917767918545400, 181631468125555200, 725412439394729300, 208628499898852100⟩,
   ⟨.general, 575727604097225300, 30269917525754400, 817081059610032000, 205554938764466800⟩,
   ⟨.general, 609026582313975600, 60784022978707700, 790817251067199700, 207187185026765400⟩,
   ⟨.general, 640673534438766100, 91354599841766360, 762359337423953800, 208285660043196500⟩,
   ⟨.general, 670639792779370900, 121802415596659000, 731714725761113300, 208870585881935800⟩,
   ⟨.general, 643501967442666500, 30526083576606390, 764835522265337400, 208399586753632200⟩,
   ⟨.general, 674721867637568100, 61121857739830890, 735536892234579900, 209050971288963700⟩]

/-- `s2/lebedev_laikov/lebedev_laikov_5810.hpp:13-5824`, `5827-11638`, `points` and `weights`. -/
def llRows5810 : List OctaRow := [
   ⟨.vertex, 1000000000000000000, 0, 0, 9735347946175486⟩,
   ⟨.edge, 707106781186547600, 0, 0, 190758124180316700⟩,
   ⟨.face, 577350269189625700, 0, 0, 190105954673757800⟩,
   ⟨.mirror, 11823616624002770, 999860192316834400, 0, 39264245389192120⟩,
   ⟨.mirror, 30621450091389580, 999061886766080700, 0, 66679054672943810⟩,
   ⟨.mirror, 53297940368342430, 997155283346072100, 0, 88688913150191360⟩,
   ⟨.mirror, 78481655328622200, 993821543112121700, 0, 106630600095887200⟩,
   ⟨.mirror, 105403815763620100, 988827624636841200, 0, 121450674333612800⟩,
   ⟨.mirror, 133557779776621100, 982000325316788800, 0, 133805468164087100⟩,
   ⟨.mirror, 162576995550225200, 973209864847106900, 0, 144167702362850400⟩,
   ⟨.mirror, 192178719341279200, 962358914160767600, 0, 152888020082655700⟩,
   ⟨.mirror, 222134053469054800, 949375017882192900, 0, 160233062377360900⟩,
   ⟨.mirror, 252250491279113200, 934205212626696900, 0, 166410265344524400⟩,
   ⟨.mirror, 282361086067969700, 916812104058968600, 0, 171584585401132300⟩,
   ⟨.mirror, 312317396626756000, 897170935512609600, 0, 175890100013306900⟩,
   ⟨.mirror, 341984703695378900, 875267344802014100, 0, 179438248525673600⟩,
   ⟨.mirror, 371238645699975800, 851095609128431400, 0, 182323810675740700⟩,
   ⟨.mirror, 399962764987682800, 824657245919063900, 0, 184629325295997600⟩,
   ⟨.mirror, 428046645864809300, 795959884622191900, 0, 186428407932309800⟩,
   ⟨.mirror, 455384436018571100, 765016359866961100, 0, 187788269462691400⟩,
   ⟨.mirror, 481873609443783400, 731844005948836300, 0, 188771632185202500⟩,
   ⟨.mirror, 507413870926062900, 696464160731661400, 0, 189438163817567300⟩,
   ⟨.mirror, 531906130457070700, 658901917408328200, 0, 189845489953362900⟩,
   ⟨.mirror, 555251497867728600, 619186198353360800, 0, 190049792957781500⟩,
   ⟨.mirror, 598100902524618300, 533432864377958900, 0, 190067150192409200⟩,
   ⟨.mirror, 617399019222811600, 487480155622175700, 0, 189983755553351000⟩,
   ⟨.mirror, 635136523941113100, 439548850427344200, 0, 189901411315622900⟩,
   ⟨.mirror, 651201022822720000, 389710733428381100, 0, 189858125770510600⟩,
   ⟨.mirror, 665475836394812000, 338058903668060200, 0, 189880475609575300⟩,
   ⟨.mirror, 677841041485337000, 284715726569761800, 0, 189979361042640200⟩,
   ⟨.mirror, 688176088748411000, 229841993007975700, 0, 190146455484411700⟩,
   ⟨.mirror, 696364526709459800, 173645880692345000, 0, 190353324625954200⟩,
   ⟨.mirror, 702301061715357900, 116389163700759300, 0, 190555615846322800⟩,
   ⟨.mirror, 705900463662875300, 58387248617102440, 0, 190703715566352800⟩,
   ⟨.plane, 35524703124725750, 999368798526299900, 0, 59929978442499670⟩,
   ⟨.plane, 91511766208412840, 995803995094123300, 0, 97490593824569770⟩,
   ⟨.plane, 156619793006898000, 987658969704865400, 0, 124168080459915800⟩,
   ⟨.plane, 226546759927190700, 974000290331831300, 0, 143762615429936000⟩,
   ⟨.plane, 298824231858136100, 954308167446132100, 0, 158420005479390200⟩,
   ⟨.plane, 371748241970388600, 928333584759231700, 0, 169443655098274400⟩,
   ⟨.plane, 444009449175888900, 896022102987713000, 0, 177661701401810800⟩,
   ⟨.plane, 514533709675664300, 857470152021281300, 0, 183613243444007700⟩,
   ⟨.plane, 582405367286023000, 812898510366720200, 0, 187649472707598300⟩,
   ⟨.plane, 646828396104337000, 762635578761633000, 0, 189990653533648200⟩,
   ⟨.general, 60959642591043730, 17878282753429310, 997980104501568000, 81432528207673500⟩,
   ⟨.general, 88119622709593880, 39538887407920960, 995324875845099400, 99988598908877280⟩,
   ⟨.general, 116593672242883100, 63781217977229900, 991129593860591100, 115619940306835900⟩,
   ⟨.general, 146023285703178500, 89858908137450370, 985191644636104900, 128763209263551300⟩,
   ⟨.general, 176119711018175500, 117260651057616200, 977359599689090000, 139837864336513900⟩,
   ⟨.general, 206647119046371800, 145610287697099500, 967519825278326000, 149187646841739100⟩,
   ⟨.general, 237407602632815200, 174615382301177500, 955587305522605200, 157085567917545600⟩,
   ⟨.general, 268230547433705100, 204038307029558400, 941499199515287200, 163748394810377500⟩,
   ⟨.general, 298965331214236900, 233678863400369800, 925210202890063800, 169350056663284300⟩,
   ⟨.general, 329476275277220900, 263363275265421900, 906689124932530800, 174032276939363300⟩,
   ⟨.general, 359639088727608600, 292936909805160100, 885916301200615000, 177912663727829600⟩,
   ⟨.general, 389338304639881200, 322259278527551200, 862881592075671300, 181090810883541200⟩,
   ⟨.general, 418465378935834700, 351200479119574300, 837582801935587700, 183652913260019000⟩,
   ⟨.general, 446917231907616600, 379638567768453700, 810024410549923400, 185675284177737900⟩,
   ⟨.general, 474595081327697600, 407457537826387900, 780216549201575000, 187227056660683200⟩,
   ⟨.general, 501403460141026200, 434545690602782800, 748174186227483300, 188372264559130700⟩,
   ⟨.general, 527249340455123900, 460794251520513400, 713916515256011400, 189171432452529700⟩,
   ⟨.general, 552041305184636600, 486096128418172000, 677466568405339900, 189682748045014600⟩,
   ⟨.general, 575688723750307700, 510344739534278900, 638851109552476900, 189962841705952800⟩,
   ⟨.general, 122503943058835200, 21364559226557930, 992238045805588200, 112330182900166900⟩,
   ⟨.general, 153911321732137200, 45209261661371880, 987049860798683300, 125369882671127700⟩,
   ⟨.general, 185621309863771200, 70864681778648190, 980062715442674500, 136626611767853100⟩,
   ⟨.general, 217499872803513100, 97852394887729180, 971142993665295200, 146273685610691800⟩,
   ⟨.general, 249412833693833000, 125810639626721000, 960190044389925800, 154507646668541200⟩,
   ⟨.general, 281232156214348000, 154452912504700100, 947128698820727300, 161509628081400700⟩,
   ⟨.general, 312837227645611100, 183543351220275300, 931903807923242000, 167436663974175900⟩,
   ⟨.general, 344114516017797300, 212881325861958500, 914476211262541200, 172422500243790000⟩,
   ⟨.general, 374956771485351000, 242291373488082900, 894819708014156700, 176581082298728800⟩,
   ⟨.general, 405262173201561000, 271616374839145300, 872918733841351900, 180010412601075100⟩,
   ⟨.general, 434933545352238500, 300712767124028000, 848766541998412200, 182796043733128400⟩,
   ⟨.general, 463877664152496500, 329447067721647900, 822363753013246300, 185014030071630800⟩,
   ⟨.general, 492004641046268700, 357693254369915500, 793717184497848200, 186733350739493800⟩,
   ⟨.general, 519227355486170400, 385330705975776400, 762838908516763900, 188017868863828900⟩,
   ⟨.general, 545460908113652200, 412242504445269400, 729745514031105100, 188927892565475800⟩,
   ⟨.general, 570622066142414000, 438313958778102700, 694457580541555000, 189521383250734600⟩,
   ⟨.general, 594628675518151800, 463431253630055300, 656999399855436600, 189854827739742000⟩,
   ⟨.general, 190537079092429500, 23713115377819790, 981393554925853100, 134910593593734100⟩,
   ⟨.general, 224251871774800900, 49178780592548060, 973289548667264900, 144406006836932600⟩,
   ⟨.general, 257719080802593600, 75954989604951420, 963229834953412300, 152679739093000800⟩,
   ⟨.general, 290872453492718700, 103699108319110000, 951125496836746400, 159820877140647400⟩,
   ⟨.general, 323635402005621900, 132134858445023400, 936910084134210400, 165935436861533100⟩,
   ⟨.general, 355926735930454300, 161031657131478900, 920535150904832300, 171127991094644000⟩,
   ⟨.general, 387663712367695600, 190191208039570700, 901966823390830300, 175495272560144000⟩,
   ⟨.general, 418763670521884200, 219438495013795000, 881183145070943500, 179124785080252900⟩,
   ⟨.general, 449144901988310700, 248615533476385800, 858171995308727700, 182095430087771600⟩,
   ⟨.general, 478727093242544500, 277576893181233500, 832929431925297100, 184478852454844900⟩,
   ⟨.general, 507431515305557400, 306186378659112000, 805458353236419500, 186340948170622000⟩,
   ⟨.general, 535181050773833600, 334314471815255600, 775767411552910000, 187743300879506800⟩,
   ⟨.general, 561900102597538100, 361836272902842700, 743870140758893200, 188744454370523200⟩,
   ⟨.general, 587514403526804600, 388629758362040800, 709784288755397000, 189400982937500600⟩,
   ⟨.general, 611950730873449500, 414574227779203100, 673531374655055200, 189768334503519800⟩,
   ⟨.general, 261973387011946300, 25400471863893530, 964740773745248500, 151732703746765300⟩,
   ⟨.general, 296814974323794900, 52081070185439890, 953513729919765900, 158774055748354300⟩,
   ⟨.general, 331045150486048800, 79718284708855990, 940241513347898800, 164909338227409700⟩,
   ⟨.general, 364621556737667600, 108046599917792700, 924865964671856800, 170191521619326500⟩,
   ⟨.general, 397491678527936000, 136841384936662900, 907344918357765400, 174684775314406500⟩,
   ⟨.general, 429596740377202900, 165907318476355900, 887649369026569500, 178455551200757000⟩,
   ⟨.general, 460874285447344700, 195070373045461400, 865761192577551400, 181568756211217400⟩,
   ⟨.general, 491259885894990300, 224172114437672400, 841671306163507200, 184086437066330200⟩,
   ⟨.general, 520688275894555800, 253065525540648900, 815378169396746900, 186067678539000600⟩,
   ⟨.general, 549094091401982000, 281611840973106600, 786886554600578800, 187569058374370300⟩,
   ⟨.general, 576412330202554200, 309678050459323800, 756206539679586500, 188645323634722500⟩,
   ⟨.general, 602578600421350600, 337134836639498700, 723352702516763200, 189350112332964500⟩,
   ⟨.general, 627529196479495600, 363854782769439600, 688343522248595400, 189736618451986800⟩,
   ⟨.general, 334818947986177100, 26648419355374430, 941905586465697700, 164390881515273600⟩,
   ⟨.general, 369951554585529500, 54240000668434950, 927466371135492000, 169630035090776800⟩,
   ⟨.general, 404200307147466900, 82519927154308540, 910940488354942500, 174155310384448300⟩,
   ⟨.general, 437532010018262400, 111269518248371000, 892291899838923000, 178001528238609200⟩,
   ⟨.general, 469905449033594700, 140296411646781600, 871496291356178100, 181211678707712500⟩,
   ⟨.general, 501273987943195200, 169427511758429100, 848539160717331200, 183832315808542100⟩,
   ⟨.general, 531587488375496600, 198503823531268900, 823414217903782700, 185911311983773700⟩,
   ⟨.general, 560793710962211600, 227376566002089300, 796122045278441500, 187496922022169800⟩,
   ⟨.general, 588839322349552100, 255904149284976400, 766668976047454800, 188637561268107600⟩,
   ⟨.general, 615670597916016300, 283949725197689900, 735066166016292300, 189381957580927600⟩,
   ⟨.general, 641233880907812300, 311379106050069000, 701328854597731100, 189779474825676700⟩,
   ⟨.general, 407605125925716700, 27577922908584630, 912741759473690900, 173896392658484600⟩,
   ⟨.general, 442378812579152000, 55841368349842930, 895088111730837800, 177744235987346600⟩,
   ⟨.general, 476048091732825800, 84577720877271430, 875342689173069800, 181001081506871900⟩,
   ⟨.general, 508583872594629700, 113597584635924800, 853485813181176000, 183692031824812900⟩,
   ⟨.general, 539951363739121800, 142728690476505300, 829506507335008500, 185848947321432800⟩,
   ⟨.general, 570111843363638000, 171811274005763500, 803401127819118200, 187507934249659200⟩,
   ⟨.general, 599024053060602100, 200694485598535100, 775172179135183000, 188708023910231000⟩,
   ⟨.general, 626645268513969500, 229233509059890700, 744827299293698100, 189490575217682200⟩,
   ⟨.general, 652932097141594200, 257287151235371400, 712378409506820300, 189899106120069500⟩,
   ⟨.general, 479158383461012600, 28260941977359320, 877273368293818400, 180906501645879100⟩,
   ⟨.general, 513037395279694100, 56998713596836490, 856471702797548700, 183629712159679900⟩,
   ⟨.general, 545625242962847600, 86027125285543950, 833602080105873300, 185842691624186900⟩,
   ⟨.general, 576895632968238500, 115174813722128100, 808657029244319700, 187565410113464100⟩,
   ⟨.general, 606818694469904600, 144281165413636200, 781635476004463000, 188824075183350300⟩,
   ⟨.general, 635362224802490700, 173193032165768000, 752541704427905100, 189649738386697900⟩,
   ⟨.general, 662492703573179700, 201761995875606100, 721384443090222900, 190077553021912100⟩,
   ⟨.general, 548493350802848800, 28742197559073910, 835660774599680700, 185852504147881400⟩,
   ⟨.general, 581020768214210600, 57783121237136950, 811834944926530600, 187624869007794700⟩,
   ⟨.general, 612095519718135300, 86952623714395260, 785988750536652800, 188940443906460700⟩,
   ⟨.general, 641694428429431900, 116089376705716600, 758123681953481000, 189816853926529000⟩,
   ⟨.general, 669792639173126000, 145037882674325100, 728245723021321500, 190277994066177200⟩,
   ⟨.general, 614759439058548800, 29049576223414560, 788179519024478700, 189012564173181500⟩,
   ⟨.general, 645539002635678300, 58238091526171970, 761503592093644000, 189943463779575100⟩,
   ⟨.general, 674725858836547700, 87403848998847150, 732874875130448100, 190452085683175100⟩,
   ⟨.general, 677213575039534700, 29199461358081050, 735206886011393700, 190553449873456300⟩]

/-- All grids of `s2/lebedev_laikov/`, by number of points.
Included at `lebedev_laikov.hpp:4`. -/
def llGrids : List (Nat × List OctaRow) := [
   (6, llRows6), (14, llRows14), (26, llRows26), (38, llRows38),
   (50, llRows50), (74, llRows74), (86, llRows86), (110, llRows110),
   (146, llRows146), (170, llRows170), (194, llRows194), (230, llRows230),
   (266, llRows266), (302, llRows302), (350, llRows350), (434, llRows434),
   (590, llRows590), (770, llRows770), (974, llRows974), (1202, llRows1202),
   (1454, llRows1454), (1730, llRows1730), (2030, llRows2030), (2354, llRows2354),
   (2702, llRows2702), (3074, llRows3074), (3470, llRows3470), (3890, llRows3890),
   (4334, llRows4334), (4802, llRows4802), (5294, llRows5294), (5810, llRows5810)]

/-- `s2/delley/delley_14.hpp:12-33`, `35-40`, `points` and `weights`. -/
def deRows14 : List OctaRow := [
   ⟨.vertex, 1000000000000000000, 0, 0, 66666666666666666000⟩,
   ⟨.face, 577350269189625840, 0, 0, 74999999999999997000⟩]

/-- `s2/delley/delley_26.hpp:12-51`, `53-62`, `points` and `weights`. -/
def deRows26 : List OctaRow := [
   ⟨.vertex, 1000000000000000000, 0, 0, 47619047619047616000⟩,
   ⟨.face, 577350269189625840, 0, 0, 32142857142857140000⟩,
   ⟨.edge, 707106781186547460, 0, 0, 38095238095238092000⟩]

/-- `s2/delley/delley_50.hpp:12-87`, `89-106`, `points` and `weights`. -/
def deRows50 : List OctaRow := [
   ⟨.vertex, 1000000000000000000, 0, 0, 12698412698412698000⟩,
   ⟨.face, 577350269189625840, 0, 0, 21093750000000001000⟩,
   ⟨.edge, 707106781186547460, 0, 0, 22574955908289243000⟩,
   ⟨.mirror, 904534033733290890, 301511344577763630, 0, 20173335537918870000⟩]

/-- `s2/delley/delley_110.hpp:12-177`, `179-216`, `points` and `weights`. -/
def deRows110 : List OctaRow := [
   ⟨.vertex, 1000000000000000000, 0, 0, 3828270494937161500⟩,
   ⟨.face, 577350269189625840, 0, 0, 9793737512487512800⟩,
   ⟨.mirror, 965124035086594060, 185115635344736160, 0, 8211737283191111400⟩,
   ⟨.mirror, 828769981252592160, 395689473055941930, 0, 9595471336070962200⟩,
   ⟨.mirror, 215957291845848440, 690421048382292240, 0, 9942814891178103000⟩,
   ⟨.plane, 478369028812150210, 878158910604066150, 0, 9694996361663028500⟩]

/-- `s2/delley/delley_194.hpp:12-303`, `305-370`, `points` and `weights`. -/
def deRows194 : List OctaRow := [
   ⟨.vertex, 1000000000000000000, 0, 0, 1782340447244611200⟩,
   ⟨.face, 577350269189625840, 0, 0, 5573383178848738200⟩,
   ⟨.edge, 707106781186547460, 0, 0, 5716905949977101700⟩,
   ⟨.mirror, 777493219314767110, 444693317871743710, 0, 5518771467273613500⟩,
   ⟨.mirror, 912509096867473720, 289246562757543850, 0, 5158237711805383300⟩,
   ⟨.mirror, 314196994182586290, 671297344269522590, 0, 5608704082587997200⟩,
   ⟨.mirror, 982972302707253330, 129933544765006680, 0, 4106777028169393700⟩,
   ⟨.plane, 345770219761128260, 938319218137591560, 0, 5051846064614808800⟩,
   ⟨.general, 159041710538352950, 525118572443642020, 836036015482458870, 5530248916233093500⟩]

/-- `s2/delley/delley_302.hpp:12-465`, `467-568`, `points` and `weights`. -/
def deRows302 : List OctaRow := [
   ⟨.vertex, 1000000000000000000, 0, 0, 854591172512814830⟩,
   ⟨.face, 577350269189625840, 0, 0, 3599119285025571300⟩,
   ⟨.mirror, 129238672710514420, 701176641608954540, 0, 3650045807677255600⟩,
   ⟨.mirror, 371034178384821390, 656632941021961130, 0, 3604822601419881500⟩,
   ⟨.mirror, 743452042987555740, 472905413258100480, 0, 3576729661743367000⟩,
   ⟨.mirror, 867643624544083390, 351564034557010520, 0, 3449788424305883500⟩,
   ⟨.mirror, 949454317226443020, 221964523629417850, 0, 3108953122413675400⟩,
   ⟨.mirror, 990705621379408100, 96183085226147838, 0, 2352101413689164200⟩,
   ⟨.plane, 571895589187896070, 820326419827759330, 0, 3600820932216460500⟩,
   ⟨.plane, 264415288706066230, 964408914879205990, 0, 2982344963171804100⟩,
   ⟨.general, 251003475177046520, 544867737258077360, 800072749407395260, 3571540554273387000⟩,
   ⟨.general, 123354853258332740, 412772408316853080, 902442529533000410, 3392312205006170200⟩]

/-- `s2/delley/delley_434.hpp:12-663`, `665-810`, `points` and `weights`. -/
def deRows434 : List OctaRow := [
   ⟨.vertex, 1000000000000000000, 0, 0, 526589796822443580⟩,
   ⟨.face, 577350269189625840, 0, 0, 2512317418927307400⟩,
   ⟨.edge, 707106781186547460, 0, 0, 2548219972002607300⟩,
   ⟨.mirror, 212646824707551860, 690934630750911110, 0, 2530403801186355200⟩,
   ⟨.mirror, 407712664897769750, 645666470742425560, 0, 2513267174597564300⟩,
   ⟨.mirror, 719016501040843470, 491434263778474660, 0, 2501725168402935900⟩,
   ⟨.mirror, 831584400419232320, 392725976336800230, 0, 2445373437312979900⟩,
   ⟨.mirror, 914472801120872480, 286128901030763830, 0, 2302694782227415700⟩,
   ⟨.mirror, 967987158791472790, 177483605460915770, 0, 2014279020918528100⟩,
   ⟨.mirror, 994255912631277880, 75680843671780185, 0, 1462495621594613700⟩,
   ⟨.plane, 210272522857306960, 977642811118264900, 0, 1910951282179532300⟩,
   ⟨.plane, 471598691151315920, 881813287779428800, 0, 2417442375638981000⟩,
   ⟨.general, 99217696364292368, 334436314534345470, 937180985855372240, 2236607760437848800⟩,
   ⟨.general, 205482369640304360, 450233038258262550, 868946032287241210, 2416930044324775500⟩,
   ⟨.general, 310428403516654130, 555015236107680670, 771746262691590080, 2496644054553086100⟩,
   ⟨.general, 106801826075804820, 590515704892527140, 799927854385728550, 2512236854563495200⟩]

/-- `s2/delley/delley_590.hpp:12-897`, `899-1096`, `points` and `weights`. -/
def deRows590 : List OctaRow := [
   ⟨.vertex, 1000000000000000000, 0, 0, 309512129530618720⟩,
   ⟨.face, 577350269189625840, 0, 0, 1852379698597489000⟩,
   ⟨.mirror, 996278129754016420, 60950341155071960, 0, 976433116505105010⟩,
   ⟨.mirror, 978480583762693870, 145903644915776310, 0, 1384737234851691900⟩,
   ⟨.mirror, 941414158220402530, 238473670142188730, 0, 1617210647254411100⟩,
   ⟨.mirror, 883078727934132560, 331792073647212300, 0, 1749564657281154100⟩,
   ⟨.mirror, 802836877335273870, 421576178401096620, 0, 1818471778162768700⟩,
   ⟨.mirror, 700768575373572960, 504441970780035830, 0, 1846715956151241800⟩,
   ⟨.mirror, 433373868777154390, 637254693925875190, 0, 1852028828296213000⟩,
   ⟨.mirror, 270356088359165190, 680774406645524240, 0, 1858812585438317000⟩,
   ⟨.mirror, 92190407076898254, 704095493822746940, 0, 1871790639277743700⟩,
   ⟨.plane, 172478200990772350, 985013335028001920, 0, 1300321685886047700⟩,
   ⟨.plane, 396475534819985760, 918045287711453990, 0, 1705153996395864100⟩,
   ⟨.plane, 611684344200987500, 791101929626901960, 0, 1857161196774077900⟩,
   ⟨.general, 82130215819325114, 277867319058624440, 957102074310072550, 1555213603396808600⟩,
   ⟨.general, 89992058420748755, 503356427107511720, 859379855890721190, 1802239128008525400⟩,
   ⟨.general, 181664084036020940, 598412649788537920, 780320742479920340, 1849830560443660200⟩,
   ⟨.general, 172079522565687810, 379103540769556320, 909213475092373600, 1713904507106708700⟩,
   ⟨.general, 263471665593794980, 474239284255198010, 840047488359050410, 1802658934377451200⟩,
   ⟨.general, 351828092773351920, 561026380862206020, 749310611904115960, 1842866472905285500⟩]

/-- `s2/delley/delley_770.hpp:12-1167`, `1169-1426`, `points` and `weights`. -/
def deRows770 : List OctaRow := [
   ⟨.vertex, 1000000000000000000, 0, 0, 219294208818118400⟩,
   ⟨.face, 577350269189625840, 0, 0, 1421940344335877300⟩,
   ⟨.edge, 707106781186547460, 0, 0, 1436433617319079700⟩,
   ⟨.mirror, 997408677652823040, 50872044105023606, 0, 679812351105050210⟩,
   ⟨.mirror, 984799753572301210, 122819879017883080, 0, 991318423529491140⟩,
   ⟨.mirror, 958036675983391370, 202689081440878600, 0, 1180207833238948700⟩,
   ⟨.mirror, 915317950483154790, 284774515646429420, 0, 1296599602080920800⟩,
   ⟨.mirror, 855901928697886390, 365671907897802630, 0, 1365871427428316300⟩,
   ⟨.mirror, 779621319527635140, 442826488671346890, 0, 1402988604775325300⟩,
   ⟨.mirror, 686644447264154300, 514061962724973510, 0, 1418645563595609500⟩,
   ⟨.mirror, 452311920313658410, 630640121916680290, 0, 1421376741851661700⟩,
   ⟨.mirror, 312521305001653260, 671688333202261180, 0, 1423996475490961600⟩,
   ⟨.mirror, 160155803498829020, 697979268533688080, 0, 1431554042178566900⟩,
   ⟨.plane, 144686567419530930, 989477537495598520, 0, 925440149986536780⟩,
   ⟨.plane, 339026347541121600, 940776878793758710, 0, 1250239995053509200⟩,
   ⟨.plane, 533580465126350600, 845749305193653320, 0, 1394365843329230100⟩,
   ⟨.general, 69440243933494128, 235518789424232630, 969385863498432140, 1127089094671748700⟩,
   ⟨.general, 226900410952946000, 410218247404573020, 883310360522112760, 1345753760910670100⟩,
   ⟨.general, 80255746077753390, 621430241748160420, 779348105702661000, 1424957283316782700⟩,
   ⟨.general, 146799952789657210, 324528434571739470, 934414827052402200, 1261523341237749900⟩,
   ⟨.general, 157150776982472710, 522448218969662980, 838064133458312430, 1392547106052696000⟩,
   ⟨.general, 236570299315724570, 601754663408955780, 762840624604669840, 1418761677877656500⟩,
   ⟨.general, 77148158667657327, 434657551614116290, 897285336132833340, 1338366684479554100⟩,
   ⟨.general, 306293666621073050, 490882658903761590, 815609223203975440, 1393700862676131400⟩,
   ⟨.general, 382247737952478680, 564876814909950010, 731300793659765750, 1415914757466931900⟩]

/-- `s2/delley/delley_974.hpp:12-1473`, `1475-1800`, `points` and `weights`. -/
def deRows974 : List OctaRow := [
   ⟨.vertex, 1000000000000000000, 0, 0, 143829419052743100⟩,
   ⟨.face, 577350269189625840, 0, 0, 1125772288287004000⟩,
   ⟨.mirror, 998155345023846510, 42929635453413474, 0, 494802934194924130⟩,
   ⟨.mirror, 988883224354685560, 105142685408640430, 0, 735799010912547000⟩,
   ⟨.mirror, 968890220434707410, 175002486762308730, 0, 888913277130438460⟩,
   ⟨.mirror, 936602730407163130, 247765337965025670, 0, 988834783892143540⟩,
   ⟨.mirror, 891267942647606000, 320656712395595730, 0, 1053299681709470500⟩,
   ⟨.mirror, 832596723702351830, 391652074984998380, 0, 1092778807014578400⟩,
   ⟨.mirror, 760582905315251520, 459082587418762340, 0, 1114389394063227300⟩,
   ⟨.mirror, 675400969108414300, 521456388841586070, 0, 1123724788051555200⟩,
   ⟨.mirror, 466858905695743180, 625317024465419920, 0, 1125239325243813500⟩,
   ⟨.mirror, 344613654237437950, 663792674452317040, 0, 1126153271815905000⟩,
   ⟨.mirror, 211954151850184290, 691041039849830120, 0, 1130286931123840900⟩,
   ⟨.mirror, 71624401449955549, 705290700745776040, 0, 1134986534363954900⟩,
   ⟨.plane, 123668676265798990, 992323565431490250, 0, 682336792710993060⟩,
   ⟨.plane, 294077711446838700, 955781512496548410, 0, 945415816044709580⟩,
   ⟨.plane, 469775384920764930, 882785980701181640, 0, 1074429975385679100⟩,
   ⟨.plane, 633456324113956690, 773778447257374770, 0, 1129300086569131600⟩,
   ⟨.general, 59740486141813418, 202912875277752290, 977372722845309960, 843688450090195460⟩,
   ⟨.general, 137576040847363660, 460262194248405370, 877058461865802720, 1075255720448884600⟩,
   ⟨.general, 339101652633628570, 503067399966203530, 794942299964208510, 1108577236864462000⟩,
   ⟨.general, 127167519143981940, 281760642244213430, 951020169374389930, 956647532378335780⟩,
   ⟨.general, 269312074041351270, 433156129172015740, 860143461601762030, 1080663250717390800⟩,
   ⟨.general, 141978645260191830, 625616735858081420, 767102186220558260, 1126797131196294600⟩,
   ⟨.general, 67092846007382551, 379839521685915670, 922616110730809070, 1022568715358061200⟩,
   ⟨.general, 70577381832561722, 551750542142352090, 831017552413474190, 1108960267713107500⟩,
   ⟨.general, 278388847788215490, 602961915615918720, 747620610834085710, 1122790653435765800⟩,
   ⟨.general, 197957893891740680, 358960632958909560, 912118378409121580, 1032401847117459800⟩,
   ⟨.general, 208730706110327400, 534866643813547650, 818748536281021840, 1107249382283853900⟩,
   ⟨.general, 405512213787283580, 567499754607437400, 716591845467023590, 1121780048519972100⟩]

/-- `s2/delley/delley_1202.hpp:12-1815`, `1817-2218`, `points` and `weights`. -/
def deRows1202 : List OctaRow := [
   ⟨.vertex, 1000000000000000000, 0, 0, 110518923326757150⟩,
   ⟨.face, 577350269189625840, 0, 0, 913315978644356140⟩,
   ⟨.edge, 707106781186547460, 0, 0, 920523273809074180⟩,
   ⟨.mirror, 998620681799919250, 37126364496570891, 0, 369042189801789880⟩,
   ⟨.mirror, 991610739722013860, 91400604122622228, 0, 560399092868066050⟩,
   ⟨.mirror, 976276606394685050, 153107785246990620, 0, 686529762928260890⟩,
   ⟨.mirror, 951247067480578520, 218092889166061150, 0, 772033855114563020⟩,
   ⟨.mirror, 915806886208668350, 283987453220017450, 0, 830154595889479520⟩,
   ⟨.mirror, 869616915181954050, 349117760096376460, 0, 868669255017962880⟩,
   ⟨.mirror, 812573722299915650, 412143146144430930, 0, 892707628584689040⟩,
   ⟨.mirror, 744729469632106510, 471899362714912670, 0, 906082023856821900⟩,
   ⟨.mirror, 666242253736104460, 527314545284233600, 0, 911977725494086690⟩,
   ⟨.mirror, 478380938076952260, 620947533244401880, 0, 912872013860418140⟩,
   ⟨.mirror, 369830866459425810, 656972271185729100, 0, 913071493569173490⟩,
   ⟨.mirror, 252583955700717620, 684178830907014370, 0, 915287378455411630⟩,
   ⟨.mirror, 128326186659723120, 701260433012363070, 0, 918743627432165440⟩,
   ⟨.plane, 107238221547816610, 994233354821322360, 0, 517697731296569430⟩,
   ⟨.plane, 258206895949696810, 966089643296119020, 0, 733114368210141730⟩,
   ⟨.plane, 417275295530671660, 908780131681910520, 0, 846323283637992820⟩,
   ⟨.plane, 570036691179250380, 821619237061433360, 0, 903112269425399170⟩,
   ⟨.general, 52106394770112842, 177177402261532530, 982798601826394670, 648577845316325630⟩,
   ⟨.general, 111564095715648670, 247571646342628770, 962424923032622730, 743503091098236880⟩,
   ⟨.general, 174655167757862610, 317361524661197660, 932082204014320180, 810173149746801730⟩,
   ⟨.general, 239027847938172390, 385429115066922350, 891240756007474650, 855629925731181280⟩,
   ⟨.general, 302946697352898200, 450742259315706440, 839675362404985640, 885028234126544480⟩,
   ⟨.general, 364983226059765350, 512351848641987130, 777356306907035060, 902269293842691530⟩,
   ⟨.general, 423864478152234050, 569370249846844150, 704383718402176400, 910576025897012580⟩,
   ⟨.general, 59058888532355087, 335461628906648820, 940200799412881150, 799852789183905380⟩,
   ⟨.general, 121723505109598700, 409026842708535730, 904367419939329900, 848338957459433050⟩,
   ⟨.general, 185750519454733500, 478532067592243540, 858197998604161900, 881104818242572070⟩,
   ⟨.general, 249411216236223640, 543430356969390020, 801546937078352890, 901009167710508600⟩,
   ⟨.general, 311227594714960810, 603116169309630970, 734430575755950280, 910781357948270460⟩,
   ⟨.general, 62662506241541696, 493222118485128480, 867643562846270750, 880320867973826030⟩,
   ⟨.general, 126777480068428260, 563212302076209980, 816528856402218840, 902134229904065370⟩,
   ⟨.general, 190601822277923690, 626980550902439200, 755358414353351050, 913157800318943550⟩,
   ⟨.general, 64245492242205882, 639427963474910270, 766162121390039360, 915801617469346540⟩]

/-- `s2/delley/delley_1454.hpp:12-2193`, `2195-2680`, `points` and `weights`. -/
def deRows1454 : List OctaRow := [
   ⟨.vertex, 1000000000000000000, 0, 0, 77771607432612467⟩,
   ⟨.face, 577350269189625840, 0, 0, 755764641300470110⟩,
   ⟨.mirror, 998956623864238450, 32292906634138537, 0, 284163380609061670⟩,
   ⟨.mirror, 993520097262594050, 80367332714622222, 0, 437441912705355470⟩,
   ⟨.mirror, 981487633165117110, 135428996053165330, 0, 541717474087217120⟩,
   ⟨.mirror, 961669580940275330, 193896386111442550, 0, 614800089135859270⟩,
   ⟨.mirror, 933401166400522400, 253734371501127490, 0, 666439448580070560⟩,
   ⟨.mirror, 896328047546008140, 313525143475257010, 0, 702503935692322060⟩,
   ⟨.mirror, 850294108254618820, 372155833937533820, 0, 726851178924962670⟩,
   ⟨.mirror, 795276853253135910, 428680957519569640, 0, 742263753420862870⟩,
   ⟨.mirror, 731346649169980600, 482251012828299410, 0, 750954503584121420⟩,
   ⟨.mirror, 658640591360126760, 532067933356626280, 0, 754853505771840090⟩,
   ⟨.mirror, 487731345715221360, 617299819539427360, 0, 755408896977400070⟩,
   ⟨.mirror, 390155043595885430, 651067984912748090, 0, 755314717444280840⟩,
   ⟨.mirror, 285236672931300730, 677731525168736030, 0, 756476765329229640⟩,
   ⟨.mirror, 174075117999956670, 696310941064874120, 0, 758799180851872970⟩,
   ⟨.mirror, 58555363028788027, 705893500983174830, 0, 760826183203302610⟩,
   ⟨.plane, 94185985013861342, 995554619409185770, 0, 402168044787491640⟩,
   ⟨.plane, 229063039585986310, 973411590179420920, 0, 580487179394596370⟩,
   ⟨.plane, 373650983980055420, 927569373238862570, 0, 679215195594515890⟩,
   ⟨.plane, 515645147000147190, 856802242279510300, 0, 733674121128629390⟩,
   ⟨.plane, 647165477620839760, 762349555371937160, 0, 758186630098960850⟩,
   ⟨.general, 438702803988950060, 570752290889222300, 694104943230443580, 753825785980074280⟩,
   ⟨.general, 385890841476261680, 519646338840308310, 762270254565010630, 748351724705312330⟩,
   ⟨.general, 330193737234385390, 464633753121535150, 821637128756597780, 737176366111205890⟩,
   ⟨.general, 272542357356377720, 406390169755769140, 872105322408082580, 718344889575693480⟩,
   ⟨.general, 213951023749524990, 345632946664308660, 913653558859526040, 689581552982219130⟩,
   ⟨.general, 155592230978664730, 283139512105033190, 946373644151191300, 648010580179288590⟩,
   ⟨.general, 98928789796860969, 219768202292532970, 970523071240677270, 589755889659463580⟩,
   ⟨.general, 45986429106755107, 156469609865035440, 986611630545014880, 509570884924734610⟩,
   ⟨.general, 337662514017342650, 602735667372129470, 722975616397234730, 753690642890975480⟩,
   ⟨.general, 282230130972798750, 549603232025509650, 786309379645308890, 747250596557511810⟩,
   ⟨.general, 224863234259254030, 492170775523456730, 840954489612313670, 734301713227969770⟩,
   ⟨.general, 166622472345647950, 430942299859848280, 886862833757807500, 713087158217744510⟩,
   ⟨.general, 108696490182216890, 366410818231367230, 924082347686117860, 681702203211277520⟩,
   ⟨.general, 52519897841200848, 299018905775843610, 952800794667682300, 638094114560412120⟩,
   ⟨.general, 229752365755002320, 626872401314499840, 744476220506855580, 755038137792030910⟩,
   ⟨.general, 172308060709380040, 570732414483460790, 802853936449496210, 747864664014480220⟩,
   ⟨.general, 114023846539051300, 509636090196036510, 852801042441985070, 733591872060121940⟩,
   ⟨.general, 56115220958825367, 443872993831245570, 894330949550572800, 711012052765811810⟩,
   ⟨.general, 116417442314087280, 641997847108238930, 757816431224232920, 757136397868950080⟩,
   ⟨.general, 57975895314452193, 581721806180261040, 811319009870262180, 748990832907923450⟩]

/-- `s2/delley/delley_1730.hpp:12-2607`, `2609-3186`, `points` and `weights`. -/
def deRows1730 : List OctaRow := [
   ⟨.vertex, 1000000000000000000, 0, 0, 63090494374209763⟩,
   ⟨.face, 577350269189625840, 0, 0, 635718507353072060⟩,
   ⟨.edge, 707106781186547460, 0, 0, 639828770557174870⟩,
   ⟨.mirror, 999181176650761890, 28609231261946626, 0, 222120716218816780⟩,
   ⟨.mirror, 994885308246133300, 71425567677115220, 0, 347578402228684850⟩,
   ⟨.mirror, 985269876430373000, 120919954099555920, 0, 435074244358980400⟩,
   ⟨.mirror, 969298878864568340, 173867310659437860, 0, 497856913652212670⟩,
   ⟨.mirror, 946365629347226120, 228464543846773420, 0, 543503622199805220⟩,
   ⟨.mirror, 916120794049150030, 283480767170151140, 0, 576591338821954100⟩,
   ⟨.mirror, 878382173251869510, 337968014546733860, 0, 600120035922600280⟩,
   ⟨.mirror, 833082210901822770, 391135545481953670, 0, 616217817271751210⟩,
   ⟨.mirror, 780234660827732070, 442286035300140270, 0, 626521815243848560⟩,
   ⟨.mirror, 719912217894276400, 490778156872605680, 0, 632398716097421210⟩,
   ⟨.mirror, 652232075837047340, 536000615321146840, 0, 635076785154056940⟩,
   ⟨.mirror, 495470164775012930, 614210597359660330, 0, 635436277529710660⟩,
   ⟨.mirror, 406876848637856840, 645930038797750350, 0, 635230246270623440⟩,
   ⟨.mirror, 312016727120555230, 671805612508922460, 0, 635811788141797170⟩,
   ⟨.mirror, 211642135779941290, 691088853318625350, 0, 637310159031011760⟩,
   ⟨.mirror, 107007280218366150, 703046741682325170, 0, 639042896136866570⟩,
   ⟨.plane, 83549511663546461, 996503627239150090, 0, 318691344994657590⟩,
   ⟨.plane, 205014300909948600, 978758977696963410, 0, 467802855859171100⟩,
   ⟨.plane, 337020829070663660, 941497191059284310, 0, 553882969759862590⟩,
   ⟨.plane, 468905148423396260, 883248527755372330, 0, 604447590719047610⟩,
   ⟨.plane, 593940042455733400, 804509307570572260, 0, 631357510350901220⟩,
   ⟨.general, 40975811620503434, 139498331183226100, 989374144830526660, 407862643185563020⟩,
   ⟨.general, 88519873912933478, 196799918048501390, 976439462628657550, 475993305781272500⟩,
   ⟨.general, 139768018296981850, 254618373254896720, 956887864413780040, 526815118641343960⟩,
   ⟨.general, 192945254222652570, 312128107471387530, 930240922234281120, 564304856050731670⟩,
   ⟨.general, 246789833706156200, 368598107850249210, 896231115766744520, 591450107661307260⟩,
   ⟨.general, 300310412478540900, 423376032154785590, 854731765850455960, 610456125787419430⟩,
   ⟨.general, 352668432817503260, 475867123605924650, 805714252800004640, 623025286070780600⟩,
   ⟨.general, 403113486114571320, 525517857979646340, 749219926494912200, 630561876176079680⟩,
   ⟨.general, 450942644834235070, 571802563373458920, 685341199395925970, 634309276759788920⟩,
   ⟨.general, 47113225024232479, 268692777272341530, 962073040610478710, 517626894573782540⟩,
   ⟨.general, 97844873039426947, 330600681990480930, 938685021659197090, 556484031331369240⟩,
   ⟨.general, 150539581002527320, 390490685059498300, 908215205462530870, 585642667103897990⟩,
   ⟨.general, 203972815629604980, 447995795190439030, 870456695060597090, 606638692577709000⟩,
   ⟨.general, 257152994112110680, 502707684891978030, 825322555834822950, 620882496223445810⟩,
   ⟨.general, 309219137581567050, 554208739226021760, 772810583725931700, 629631429782290660⟩,
   ⟨.general, 359380750613027660, 602085088737518650, 712978977255817270, 634042375679185920⟩,
   ⟨.general, 50633899343786710, 401985140917959450, 914245128353666230, 582962767710734200⟩,
   ⟨.general, 103242226916061190, 463561456744980060, 880029441781287500, 604869337608111020⟩,
   ⟨.general, 156632209400625420, 521586093159157490, 838697978059590450, 620236231773246130⟩,
   ⟨.general, 209808282749109870, 575820249909927080, 790197142669814220, 629900532840377910⟩,
   ⟨.general, 261882411455339140, 625989368387679490, 734544017221521290, 634772239060935250⟩,
   ⟨.general, 52632450193385562, 531379512481189090, 845497273148704260, 620377898123883400⟩,
   ⟨.general, 106105973098200540, 589331795593199480, 800892974857302260, 630841467123997830⟩,
   ⟨.general, 159417156403422130, 642624632121580050, 749412938529120050, 636270646695949810⟩,
   ⟨.general, 53547895365655400, 651190436737611340, 757022878124160690, 637541417033323280⟩]

/-- `s2/delley/delley_2030.hpp:12-3057`, `3059-3736`, `points` and `weights`. -/
def deRows2030 : List OctaRow := [
   ⟨.vertex, 1000000000000000000, 0, 0, 46560318991974309⟩,
   ⟨.face, 577350269189625840, 0, 0, 542154919529550690⟩,
   ⟨.mirror, 999354207054855560, 25408353368143479, 0, 177852213334655320⟩,
   ⟨.mirror, 995896447196689020, 63993228005049155, 0, 281132540568279660⟩,
   ⟨.mirror, 988085720583920190, 108826946980412540, 0, 354889631263145870⟩,
   ⟨.mirror, 975017879238524790, 157067079881828690, 0, 409031089717336390⟩,
   ⟨.mirror, 956140993427350480, 207116393228251430, 0, 449328613416996480⟩,
   ⟨.mirror, 931119781245508650, 257891404445084350, 0, 479372844796272320⟩,
   ⟨.mirror, 899761438308590680, 308568755816962300, 0, 501541531916426580⟩,
   ⟨.mirror, 861971978981925570, 358471970626702390, 0, 517512737267793720⟩,
   ⟨.mirror, 817728515376154100, 407013559442870930, 0, 528552226208101900⟩,
   ⟨.mirror, 767060511826933020, 453661862622263770, 0, 535683270371396180⟩,
   ⟨.mirror, 710036764060883120, 497919568646357720, 0, 539791473617517030⟩,
   ⟨.mirror, 646757154513848520, 539307511112699920, 0, 541689944159993060⟩,
   ⟨.mirror, 501980486287549210, 611561767684391630, 0, 541930847688993800⟩,
   ⟨.mirror, 420871650236345480, 641430843516015870, 0, 541693690203059630⟩,
   ⟨.mirror, 334358460857910210, 666409941272160690, 0, 541954433870316390⟩,
   ⟨.mirror, 242977356817622340, 685916177121491220, 0, 542898365663097450⟩,
   ⟨.mirror, 147594109495423760, 699362559350389050, 0, 544228650009819310⟩,
   ⟨.mirror, 49517600325051238, 706239338771938010, 0, 545225034505730070⟩,
   ⟨.plane, 74790281683497634, 997199284880260550, 0, 256800249772853020⟩,
   ⟨.plane, 184895115396936620, 982758259340695380, 0, 382721170029214490⟩,
   ⟨.plane, 305952906658130520, 952046647442992280, 0, 457949156191782360⟩,
   ⟨.plane, 428555610102136160, 903515406094431710, 0, 504200396908357420⟩,
   ⟨.plane, 546875865349652600, 837213705034782980, 0, 531270888997602450⟩,
   ⟨.plane, 656582197834343910, 754254477936341150, 0, 543840179074711630⟩,
   ⟨.general, 36819172264396412, 125390157236711680, 991424055095455840, 331604187319734370⟩,
   ⟨.general, 79824876072133011, 177572151038394080, 980864985783296390, 389911356715377070⟩,
   ⟨.general, 126464096659233500, 230569335821611350, 964802888488081380, 434334332720130890⟩,
   ⟨.general, 175158568341895750, 283650284599206330, 942794777235855700, 467941526231891870⟩,
   ⟨.general, 224799590763266970, 336179474623258980, 914575587272422940, 493084798163103070⟩,
   ⟨.general, 274529925742224620, 387597917226482350, 880000667291600090, 511503186754009130⟩,
   ⟨.general, 323637348244111830, 437401931699907380, 839010379534549600, 524521714845736660⟩,
   ⟨.general, 371496785943674080, 485127584334002220, 791606824725365480, 533204149989532090⟩,
   ⟨.general, 417535364632174500, 530339180380686840, 737837768777539930, 538458312602154250⟩,
   ⟨.general, 461208440635546060, 572619738059628740, 677785666616704250, 541106721079885220⟩,
   ⟨.general, 42580401330439527, 243152073256486270, 969053135123978170, 425979739146871420⟩,
   ⟨.general, 88694243067227202, 300209680089586870, 949740743164806830, 460493136846002110⟩,
   ⟨.general, 136881170651065560, 355855445745743180, 924462247392662470, 487181487825520160⟩,
   ⟨.general, 186073998501503330, 409778253704888680, 893005179084776950, 507224291007488420⟩,
   ⟨.general, 235423507739585340, 461633766606745820, 855260216268743490, 521706984523535000⟩,
   ⟨.general, 284207492134701090, 511070700841787410, 811192233786534710, 531578596628030940⟩,
   ⟨.general, 331778441498410240, 557741528616379490, 760820250133729230, 537683370875890500⟩,
   ⟨.general, 377529900204070010, 601306043136695000, 704203249736321530, 540803209206952070⟩,
   ⟨.general, 45993678871645918, 366159676726178110, 929414693580660310, 484274491790486570⟩,
   ⟨.general, 94048937736544214, 423763315350658090, 900877044814466510, 504892607618813070⟩,
   ⟨.general, 143137710909197080, 478632845465845220, 866269123862176800, 520260798047837270⟩,
   ⟨.general, 192418638884356950, 530570207678977450, 825512157471577250, 530993238832574270⟩,
   ⟨.general, 241159094477518990, 579343622423178830, 778590558835882800, 537741977089520840⟩,
   ⟨.general, 288687149158360470, 624706901709474740, 725534986659752470, 541169633167771780⟩,
   ⟨.general, 48049787749532058, 487431555253520440, 871838113895211150, 519799629328242010⟩,
   ⟨.general, 97168571993666658, 542733732205905260, 834265164406713280, 531112083662294470⟩,
   ⟨.general, 146520583979505490, 594349374724669980, 790746823727227150, 538430931995695040⟩,
   ⟨.general, 195357944980357360, 642131403356494320, 741284381432976590, 542185950405188620⟩,
   ⟨.general, 49163750157381080, 602062837471397990, 796933664370097720, 539094835504631350⟩,
   ⟨.general, 98616215401270052, 652922252985688070, 750977611927295400, 543331270502784540⟩]

/-- `s2/delley/delley_2354.hpp:12-3543`, `3545-4330`, `points` and `weights`. -/
def deRows2354 : List OctaRow := [
   ⟨.vertex, 1000000000000000000, 0, 0, 39226162706652920⟩,
   ⟨.face, 577350269189625840, 0, 0, 467820280128213620⟩,
   ⟨.edge, 707106781186547460, 0, 0, 470383175085442400⟩,
   ⟨.mirror, 999475441130823760, 22900246465325493, 0, 143783222898221800⟩,
   ⟨.mirror, 996654619962755730, 57790866522725186, 0, 230357249357739360⟩,
   ⟨.mirror, 990224135016074980, 98631035763764724, 0, 293311075244716850⟩,
   ⟨.mirror, 979391352126118940, 142815579298220250, 0, 340290599835971890⟩,
   ⟨.mirror, 963657217842535220, 188897811660146990, 0, 375913846687032680⟩,
   ⟨.mirror, 942705536541933790, 235909168297021330, 0, 403063844789977930⟩,
   ⟨.mirror, 916342111781301760, 283122883370617250, 0, 423659143224220190⟩,
   ⟨.mirror, 884458332351056860, 329949585796669440, 0, 439052265694674160⟩,
   ⟨.mirror, 847007860887398660, 375884080266079670, 0, 450252346662624440⟩,
   ⟨.mirror, 803990821335945570, 420475183100948060, 0, 458057772778353890⟩,
   ⟨.mirror, 755442600077040010, 463306851875105170, 0, 463139161661589770⟩,
   ⟨.mirror, 701425937277890490, 503984947450731300, 0, 466092895369867590⟩,
   ⟨.mirror, 642026124030311780, 542126579344074710, 0, 467475180793695300⟩,
   ⟨.mirror, 507533079020182410, 609266023055731080, 0, 467641490393291920⟩,
   ⟨.mirror, 432753596562032830, 637465420498486870, 0, 467408649234787020⟩,
   ⟨.mirror, 353269569839983920, 661513647260989160, 0, 467492853948320710⟩,
   ⟨.mirror, 269476637294390590, 680948728595812680, 0, 468074897968644660⟩,
   ⟨.mirror, 181992792072908860, 695298002166519600, 0, 469044980638904010⟩,
   ⟨.mirror, 91745500291212603, 704124549769540090, 0, 469987707586081790⟩,
   ⟨.plane, 67440330883093577, 997723309224746390, 0, 209994228106903990⟩,
   ⟨.plane, 167868448533417900, 985809405507465870, 0, 317226915071276500⟩,
   ⟨.plane, 279355904953961510, 960187626647705410, 0, 383205135854652030⟩,
   ⟨.plane, 393526421805763970, 919313306409056620, 0, 425219381814698300⟩,
   ⟨.plane, 505262926823255800, 862965453988742910, 0, 451380796375500030⟩,
   ⟨.plane, 610790531543753180, 791792224372340870, 0, 465779746911417790⟩,
   ⟨.general, 33319548846631540, 113508103984361610, 992978206203203760, 273336280052247400⟩,
   ⟨.general, 72471674654367935, 161286662609941010, 984243094381128230, 323548536846338270⟩,
   ⟨.general, 115153911084975480, 210078655016821770, 970879258954560620, 362490872601338230⟩,
   ⟨.general, 159949109714368130, 259228200945994690, 952479407722751750, 392554007071279850⟩,
   ⟨.general, 205869995602802890, 308174056132020540, 928787540849703720, 415612978111622230⟩,
   ⟨.general, 252162495350291230, 356428978157816490, 899651298819764470, 433064498462325600⟩,
   ⟨.general, 298209078579767470, 403558728824070400, 864992310857447100, 445967772592130860⟩,
   ⟨.general, 343476208723573320, 449167119637390370, 824786634638032030, 455159300445679360⟩,
   ⟨.general, 387483135720343710, 492885478291748950, 779051169578381160, 461334146274991670⟩,
   ⟨.general, 429781482174692590, 534364679195898810, 727833955794581430, 465101961826980520⟩,
   ⟨.general, 469940226094353650, 573268321653099040, 671207579879299910, 467024953610062460⟩,
   ⟨.general, 38736020406439142, 221413158321899090, 974410454605754710, 354955557644169890⟩,
   ⟨.general, 80894962569020276, 274179650475007360, 958270068559150760, 385610824524900280⟩,
   ⟨.general, 125173217762087340, 325979743914948660, 937053292034252250, 409862284575687710⟩,
   ⟨.general, 170626028640318590, 376544114882689130, 910549991981574490, 428632860426894640⟩,
   ⟨.general, 216511514730040880, 425577357453055860, 878639104987125610, 442780219899394310⟩,
   ⟨.general, 262208981222525890, 472779511705843040, 841264514571623660, 453047351148855970⟩,
   ⟨.general, 307172143129620100, 517854689581901280, 798418308259015830, 460080547570313770⟩,
   ⟨.general, 350899899880113830, 560514119209745920, 750128777231382380, 464459905995801680⟩,
   ⟨.general, 392916087616693050, 600476331935251180, 696451809443824450, 466727445571250800⟩,
   ⟨.general, 42025634572880222, 335284263494695030, 941179211782520510, 406936051802035310⟩,
   ⟨.general, 86143097588708528, 389197162981467000, 917117732390449250, 426044281991919330⟩,
   ⟨.general, 131450087938000120, 440987556554228110, 887834922350671850, 440867850802906160⟩,
   ⟨.general, 177218965738385860, 490489305859248440, 853237176299960210, 451874811554859670⟩,
   ⟨.general, 222827711005029350, 537505613876954840, 813286865908344200, 459556487537511570⟩,
   ⟨.general, 267717993501438600, 581825570866996930, 767988333922369430, 464398877431584560⟩,
   ⟨.general, 311367503554416450, 623233485814495890, 717377376204325960, 466882749164694530⟩,
   ⟨.general, 44091623783681748, 448948535449205770, 892469126205568840, 440054182374197230⟩,
   ⟨.general, 89390099177484889, 501513687593315050, 860519280042925110, 451451289019379730⟩,
   ⟨.general, 135180602938336470, 551130055051262340, 823396542990326390, 459619862734754870⟩,
   ⟨.general, 180837035505319630, 597672040985799960, 781080084250978750, 464865901680178080⟩,
   ⟨.general, 225785219230160180, 640995637898935430, 733584096727652120, 467550201715767250⟩,
   ⟨.general, 45321734216371604, 558122233082751440, 828520074196360870, 459849447645552320⟩,
   ⟨.general, 91174880318403137, 607470598416169460, 789092271701368200, 465491695515204790⟩,
   ⟨.general, 136929421314015500, 653227253737903250, 744677439266590020, 468470977950513670⟩,
   ⟨.general, 45899014872755828, 659476149450048620, 750322922974000380, 469144553910698620⟩]

/-- `s2/delley/delley_2702.hpp:12-4065`, `4067-4968`, `points` and `weights`. -/
def deRows2702 : List OctaRow := [
   ⟨.vertex, 1000000000000000000, 0, 0, 29986751498881611⟩,
   ⟨.face, 577350269189625840, 0, 0, 407786052949535480⟩,
   ⟨.mirror, 999573254083784390, 20655625388187032, 0, 118534919252066710⟩,
   ⟨.mirror, 997238974202294570, 52509181730223793, 0, 191340864342575100⟩,
   ⟨.mirror, 991878754285419610, 89934800820383756, 0, 245288657720989680⟩,
   ⟨.mirror, 982795009234385010, 130602392443601890, 0, 286240818328870210⟩,
   ⟨.mirror, 969535629159448580, 173206038853141810, 0, 317803225825735680⟩,
   ⟨.mirror, 951804841672567510, 216872708482024890, 0, 342294566763369020⟩,
   ⟨.mirror, 929412308974027380, 260952830917358600, 0, 361279052023592190⟩,
   ⟨.mirror, 902242279894438730, 304925292793895190, 0, 375863822981852090⟩,
   ⟨.mirror, 870233741700634720, 348348413808440390, 0, 386871179885995320⟩,
   ⟨.mirror, 833366938014587940, 390832154910640610, 0, 394942993318993800⟩,
   ⟨.mirror, 791653774508763510, 432021007189481390, 0, 400606810754115610⟩,
   ⟨.mirror, 745130813944350770, 471582479589005290, 0, 404319214967272320⟩,
   ⟨.mirror, 693854319823315800, 509198479407845350, 0, 406494749580807830⟩,
   ⟨.mirror, 637897434973582090, 544558014565080350, 0, 407524561981315200⟩,
   ⟨.mirror, 512324568835256340, 607257579684176820, 0, 407642354089356570⟩,
   ⟨.mirror, 442965827153339490, 633948450575580250, 0, 407428086225155480⟩,
   ⟨.mirror, 369476970343959320, 657071825748695830, 0, 407416375601224400⟩,
   ⟨.mirror, 292158120107465780, 676255733009070940, 0, 407764779507124610⟩,
   ⟨.mirror, 211463661132284400, 691116169692378990, 0, 408451755278253020⟩,
   ⟨.mirror, 128066258012442120, 701284191165996050, 0, 409246845922405190⟩,
   ⟨.mirror, 42895754243421923, 706455927241002040, 0, 409787268724090610⟩,
   ⟨.plane, 61235549898947653, 998123342793150740, 0, 173898681174502810⟩,
   ⟨.plane, 153307034831239310, 988178603831945560, 0, 265961604528019110⟩,
   ⟨.plane, 256390260524420600, 966573346574495450, 0, 324059600817153320⟩,
   ⟨.plane, 362934699166336080, 931814576050965850, 0, 362119596443294320⟩,
   ⟨.plane, 468394996898753800, 883519171767209840, 0, 386883833076053920⟩,
   ⟨.plane, 569447924065795250, 822027409383139900, 0, 401891153269311120⟩,
   ⟨.plane, 663446543099395550, 748223686105606970, 0, 408992943298325200⟩,
   ⟨.general, 30345440090635840, 103395857355230510, 994177273401219090, 227990752770640900⟩,
   ⟨.general, 66188030442471346, 147352141241439500, 986867007806882520, 271520549057889680⟩,
   ⟨.general, 105443112898771490, 192455215870596690, 975624282101680170, 305791789670397620⟩,
   ⟨.general, 146826355123885810, 238109436289032810, 960075995841555010, 332691305245255480⟩,
   ⟨.general, 189448610818788610, 283812170793675990, 939978656974833850, 353733471189003680⟩,
   ⟨.general, 232637423876157910, 329132313337341500, 915178534128437080, 370056750078312890⟩,
   ⟨.general, 275848580848576770, 373689697874146020, 885586568409071790, 382524537258912190⟩,
   ⟨.general, 318617933199692120, 417140604076001290, 851161752591518490, 391812517151829620⟩,
   ⟨.general, 360532979630379390, 459167798525691510, 811899564845252500, 398472041993757890⟩,
   ⟨.general, 401214725358650880, 499473383171841810, 767823601915346710, 402974600333821070⟩,
   ⟨.general, 440305002557069220, 537773183044509610, 718979490890662150, 405742863215662690⟩,
   ⟨.general, 477456590427748300, 573791783000133120, 665430833384385360, 407171927411485720⟩,
   ⟨.general, 35441225049761473, 202732358627138900, 978592617145893520, 299023695066411910⟩,
   ⟨.general, 74183043886463282, 251694237518727330, 964959525990393810, 326295173421287790⟩,
   ⟨.general, 115050274572718600, 300022799525718090, 946968718641483350, 348263460824241310⟩,
   ⟨.general, 157196337120936390, 347480669104634210, 924416841146004090, 365659668170089190⟩,
   ⟨.general, 199963187724710000, 393810318035920930, 897177884793990740, 379174046779421780⟩,
   ⟨.general, 242807345784653490, 438751959045570290, 865182819562828500, 389403445015690500⟩,
   ⟨.general, 285257513290615490, 482050396007778710, 828405436256907990, 396860024550837080⟩,
   ⟨.general, 326888420867463890, 523457377847510120, 786852167741682540, 401993135142005020⟩,
   ⟨.general, 367303332167593920, 562731864723528210, 740554596639142470, 405210880127859890⟩,
   ⟨.general, 406121155183028990, 599639060715695390, 689564068217595530, 406897861394093400⟩,
   ⟨.general, 38601255231000588, 308478075379194690, 950447904992661410, 345427535131970400⟩,
   ⟨.general, 79289389871048666, 358998827592022280, 929963996314604800, 362996353700792000⟩,
   ⟨.general, 121261464303008700, 407862841588197300, 904955004255289630, 377018723388987290⟩,
   ⟨.general, 163877082738269290, 454928725888973480, 875319459462789330, 387860861369437820⟩,
   ⟨.general, 206596579826017590, 500027851295727910, 841005351429329080, 395906527022127400⟩,
   ⟨.general, 248943637885223500, 542978504492819920, 801998384546509730, 401528697546357000⟩,
   ⟨.general, 290481136894689070, 583593985049171150, 758313107972423680, 405086678561471690⟩,
   ⟨.general, 330794195766660910, 621687035344485550, 709986218268828350, 406932018505191290⟩,
   ⟨.general, 40648291460525537, 415110466270909080, 908862485304398840, 376012096406276300⟩,
   ⟨.general, 82584245472947557, 464980427500921780, 881460744696395460, 387096956441806420⟩,
   ⟨.general, 125184196202728890, 512469575700966180, 849531547973321870, 395528779053405520⟩,
   ⟨.general, 167910750597633110, 557471110060622440, 813038708353739370, 401536191130266800⟩,
   ⟨.general, 210280505735871510, 599859733328722670, 771978244018741600, 405383698671954810⟩,
   ⟨.general, 251841808777410690, 639500714851660050, 726370799974735970, 407357867329911680⟩,
   ⟨.general, 41943216760775177, 518845622474625180, 853838384360106730, 395462837923140610⟩,
   ⟨.general, 84576615519214984, 566419070794277780, 819765961935393970, 401764550884753000⟩,
   ⟨.general, 127365293251939600, 611046435328315260, 781281214382763990, 405903034865129280⟩,
   ⟨.general, 169817323907635400, 652643030205156350, 738389566303235820, 408056580948488000⟩,
   ⟨.general, 42663988515488638, 616755188037754750, 785997978440443610, 406301875366465100⟩,
   ⟨.general, 85519258142383495, 660719541835538270, 745745361047196020, 408719129279967090⟩]

/-- `s2/delley/delley_3074.hpp:12-4623`, `4625-5650`, `points` and `weights`. -/
def deRows3074 : List OctaRow := [
   ⟨.vertex, 1000000000000000000, 0, 0, 25990959537547339⟩,
   ⟨.face, 577350269189625840, 0, 0, 358606797441244690⟩,
   ⟨.edge, 707106781186547460, 0, 0, 360313408968754120⟩,
   ⟨.mirror, 999644196167376210, 18861085187233919, 0, 98315284743858805⟩,
   ⟨.mirror, 997693130617265720, 48002172446253030, 0, 160502310795444990⟩,
   ⟨.mirror, 993178862063722630, 82449220583972416, 0, 207220013146409890⟩,
   ⟨.mirror, 985484852884897730, 120040836248402300, 0, 243129761881418710⟩,
   ⟨.mirror, 974202307925477020, 159577353080996490, 0, 271181906449670700⟩,
   ⟨.mirror, 959056298221410920, 200263597343406400, 0, 293276203832111590⟩,
   ⟨.mirror, 939863380745783130, 241512759013998210, 0, 310703251419736820⟩,
   ⟨.mirror, 916505446339712200, 282858415845847700, 0, 324380805892121300⟩,
   ⟨.mirror, 888912699812031580, 323909101533813800, 0, 334989909137403000⟩,
   ⟨.mirror, 857052050759793290, 364322509796219380, 0, 343058068850521780⟩,
   ⟨.mirror, 820918840586732260, 403789708369180210, 0, 349012410929034290⟩,
   ⟨.mirror, 780530741283393060, 442024751519412670, 0, 353214894856195510⟩,
   ⟨.mirror, 735923218670757720, 478757253846493810, 0, 355986266906283290⟩,
   ⟨.mirror, 687146356143143790, 513726525127523370, 0, 357622431755141120⟩,
   ⟨.mirror, 634263206387840620, 546676405665461050, 0, 358405053308607590⟩,
   ⟨.mirror, 516501256420264230, 605485942081353530, 0, 358490358137322420⟩,
   ⟨.mirror, 451836028646521730, 630810670176456200, 0, 358299187904058600⟩,
   ⟨.mirror, 383517345566630590, 653036923017958350, 0, 358237118796312490⟩,
   ⟨.mirror, 311778320471588770, 671860952461115770, 0, 358435363112234990⟩,
   ⟨.mirror, 236961802272178250, 686967649989401300, 0, 358912016651778500⟩,
   ⟨.mirror, 159566875231546810, 698046707724074840, 0, 359544570453160080⟩,
   ⟨.mirror, 80285570163445411, 704824172125052220, 0, 360094355711107420⟩,
   ⟨.plane, 55911052220582319, 998435753686529040, 0, 145644709674203900⟩,
   ⟨.plane, 140738407851391610, 990046817355348830, 0, 225237018828378210⟩,
   ⟨.plane, 236403543897630910, 971654961615820100, 0, 276613544347489710⟩,
   ⟨.plane, 336060273781817020, 941840481390394560, 0, 311072949150085100⟩,
   ⟨.plane, 435629263005466500, 900126182939544380, 0, 334250671230339130⟩,
   ⟨.plane, 532156941525617430, 846645728499294200, 0, 349198183402686000⟩,
   ⟨.plane, 623295630504055450, 781986289518270320, 0, 357600360434893210⟩,
   ⟨.general, 27787483873094699, 94698700868384694, 995118089371227700, 192192130578856390⟩,
   ⟨.general, 60765698786283642, 135317030056814110, 988937223097410720, 230145821649563210⟩,
   ⟨.general, 97030727627110402, 177167948172607700, 979385805511016060, 260424854952289290⟩,
   ⟨.general, 135411245852476190, 219706666423175100, 966122546691617120, 284527542587069700⟩,
   ⟨.general, 175099647974409990, 262478355737492670, 948917923768215040, 303687089797483980⟩,
   ⟨.general, 215489690744980200, 305096952121444220, 927620635275454570, 318841483229806580⟩,
   ⟨.general, 256095462574015220, 347225263719602110, 902136203842775600, 330704641472208930⟩,
   ⟨.general, 296507005062409620, 388561021902635970, 872412705207173960, 339833096903136010⟩,
   ⟨.general, 336364148873449680, 428827377606276480, 838430819786560420, 346675789970537290⟩,
   ⟨.general, 375340002983678810, 467766247130294800, 800196613468122540, 351609592323005380⟩,
   ⟨.general, 413129752214428600, 505133358955335950, 757736166159267090, 354964518404848600⟩,
   ⟨.general, 449442377608179510, 540694214581049160, 711091636519857410, 357041596944139190⟩,
   ⟨.general, 483993895884150200, 574220412257645750, 660318731290837850, 358125179849611810⟩,
   ⟨.general, 32591448510707957, 186540702722518800, 981906494383127490, 254349132991334810⟩,
   ⟨.general, 68356795052973429, 232118645368943190, 970282578964588360, 278671105133077620⟩,
   ⟨.general, 106228486445198900, 277315914252388220, 954888156995322810, 298555236108367870⟩,
   ⟨.general, 145440440932304710, 321920019223725370, 935529037157272310, 314586792915403910⟩,
   ⟨.general, 185401828258250990, 365703259394402900, 912078553714979150, 327329066206760890⟩,
   ⟨.general, 225629741201475000, 408437677836362200, 884460221383073450, 337270551194350120⟩,
   ⟨.general, 265710442500089630, 449900494575142700, 852635623069695980, 344827443785151010⟩,
   ⟨.general, 305275548763155710, 489875814132633480, 816595693140273470, 350359278304858280⟩,
   ⟨.general, 343986392064542290, 528154744226630890, 776354254335816170, 354185479266316220⟩,
   ⟨.general, 381522945612191410, 564534698981399190, 731943177861080760, 356599551790942780⟩,
   ⟨.general, 417575242096673400, 598818125215984760, 683408933290103990, 357880207830289800⟩,
   ⟨.general, 35621495098625361, 285042542447160320, 957852732982579890, 295864459286098210⟩,
   ⟨.general, 73303188868710956, 332461943302787610, 940263632582379550, 311954812911683530⟩,
   ⟨.general, 112322629600847200, 378584833307628210, 918725830086966840, 325074522500598410⟩,
   ⟨.general, 152108419333770810, 423289102856211520, 893134572262749950, 335515341593520820⟩,
   ⟨.general, 192184445922361000, 466428705082972180, 863428863207697520, 343584756854932810⟩,
   ⟨.general, 232136098967830300, 507845849373572580, 829581475703280340, 349578683162248800⟩,
   ⟨.general, 271588648636051980, 547377981620417950, 791591404178443980, 353776780553462120⟩,
   ⟨.general, 310192470757135520, 584861713381137570, 749478089944238260, 356445981542142800⟩,
   ⟨.general, 347612105289097310, 620134828158488750, 703277057183954500, 357846406122546820⟩,
   ⟨.general, 37632248800351077, 385219118538787100, 922057506103837520, 323974876283621230⟩,
   ⟨.general, 76595819356371345, 432502506107342310, 898373342585361060, 334549178417428680⟩,
   ⟨.general, 116338130608390000, 477848622973448990, 870704388922511230, 342912617730178220⟩,
   ⟨.general, 156389059875289890, 521166369300899990, 839004217785012660, 349242034309742100⟩,
   ⟨.general, 196332081014920000, 562346950485370310, 803255638787649830, 353739905023525680⟩,
   ⟨.general, 235784740725873800, 601271818865924620, 763464312118448120, 356620915265917190⟩,
   ⟨.general, 274384612124406010, 637817920639011660, 719653656102063220, 358108432191978220⟩,
   ⟨.general, 38959026107390243, 483693646021453430, 874369859432057810, 342652211759151210⟩,
   ⟨.general, 78712468193126398, 529379256268379670, 844725961708105210, 349184877012137880⟩,
   ⟨.general, 118796380820298100, 572628125310003290, 811162406678187950, 353931823523147610⟩,
   ⟨.general, 158791470806178700, 613365877616906750, 773671486468547780, 357023143845869390⟩,
   ⟨.general, 198305857522764610, 651508549186530670, 732264567768387220, 358620733505171400⟩,
   ⟨.general, 39772096897915422, 577869271606497590, 815159668556607820, 354119620516402490⟩,
   ⟨.general, 79901575929811522, 620790428808619230, 779894211841287710, 357429691157395300⟩,
   ⟨.general, 119967130875430900, 660868817104680150, 740851060664812770, 359199327981896300⟩,
   ⟨.general, 40159559578059688, 665626308948912950, 745203882578145520, 359585503466199710⟩]

/-- `s2/delley/delley_3470.hpp:12-5217`, `5219-6376`, `points` and `weights`. -/
def deRows3470 : List OctaRow := [
   ⟨.vertex, 1000000000000000000, 0, 0, 20403827308263299⟩,
   ⟨.face, 577350269189625840, 0, 0, 317814970388954390⟩,
   ⟨.mirror, 999703627113159630, 17214208329062331, 0, 82881151280761106⟩,
   ⟨.mirror, 998054288896939700, 44088753749817702, 0, 136088319252295390⟩,
   ⟨.mirror, 994215351252967010, 75946808138786806, 0, 176685445454266210⟩,
   ⟨.mirror, 987639536789980510, 110833535920479900, 0, 208315316123015310⟩,
   ⟨.mirror, 977956005023740360, 147651705438856700, 0, 233327954465715800⟩,
   ⟨.mirror, 964909806766730330, 185673187086061510, 0, 253280953993024700⟩,
   ⟨.mirror, 948325956914395810, 224363409942882090, 0, 269247218421115790⟩,
   ⟨.mirror, 928087008433117980, 263300688166272720, 0, 281994994681188470⟩,
   ⟨.mirror, 904118345530933840, 302134090491628320, 0, 292095359397303020⟩,
   ⟨.mirror, 876378105386277140, 340559404803008890, 0, 299988978294835230⟩,
   ⟨.mirror, 844849984438963420, 378304443400737210, 0, 306029212049690180⟩,
   ⟨.mirror, 809537917617762840, 415119476740791030, 0, 310510916752219180⟩,
   ⟨.mirror, 770462052578505750, 450770576644325680, 0, 313690238755031190⟩,
   ⟨.mirror, 727655730843713380, 485034605657318710, 0, 315798465245463200⟩,
   ⟨.mirror, 681163419895077560, 517695081779246950, 0, 317051651842542180⟩,
   ⟨.mirror, 631039772606334930, 548538424082098850, 0, 317656842563375500⟩,
   ⟨.mirror, 520174258769073640, 603911723894330790, 0, 317719841120706180⟩,
   ⟨.mirror, 459611670959799660, 627995665557311340, 0, 317551949239473280⟩,
   ⟨.mirror, 395795131280461230, 649363616956895150, 0, 317465495263475590⟩,
   ⟨.mirror, 328909380750578020, 667764411770450430, 0, 317567641546765410⟩,
   ⟨.mirror, 259219015745350280, 682936857211562390, 0, 317892341783540990⟩,
   ⟨.mirror, 187102306529953190, 694619581818412100, 0, 318378828753190880⟩,
   ⟨.mirror, 113082034630323470, 702571154205702600, 0, 318875515191880680⟩,
   ⟨.mirror, 37835599837482761, 706600476714011940, 0, 319191688931384900⟩,
   ⟨.plane, 51325376899460623, 998681984260319180, 0, 123177961174450800⟩,
   ⟨.plane, 129799466133122490, 991540265743936610, 0, 192466137383988000⟩,
   ⟨.plane, 218885204940130700, 975750617247212900, 0, 238088186740342390⟩,
   ⟨.plane, 312317482490345690, 949977784019654050, 0, 269310066303788500⟩,
   ⟨.plane, 406403762073819510, 913693593154864090, 0, 290867338283436570⟩,
   ⟨.plane, 498495839694478190, 866892091212797420, 0, 305391461938153490⟩,
   ⟨.plane, 586497504602136450, 809951033764058410, 0, 314391668414777700⟩,
   ⟨.plane, 668671163458017470, 743558252700957770, 0, 318704224405536310⟩,
   ⟨.general, 25571752333675781, 87157387808359493, 995866293853250320, 163521953586978990⟩,
   ⟨.general, 56048233833766808, 124838312313400700, 990592747430979910, 196810991769607010⟩,
   ⟨.general, 89685686019007643, 163806269338337810, 982407239310030710, 223675434224997410⟩,
   ⟨.general, 125408665197627890, 203558620337317590, 970997711006425070, 245318668701718090⟩,
   ⟨.general, 162478015016201210, 243679897529377410, 956149048096826330, 262755179158054100⟩,
   ⟨.general, 200342234268320790, 283820750777380610, 937714653077652010, 276765486015221990⟩,
   ⟨.general, 238562802625526290, 323678750221769170, 915598086421289810, 287946702776589500⟩,
   ⟨.general, 276773114878357820, 362984955484069120, 889740729073790200, 296763991891870200⟩,
   ⟨.general, 314654230824530920, 401494808199208690, 860113151866255030, 303590068466035100⟩,
   ⟨.general, 351919641589508780, 438981837926022520, 826708843447681360, 308733823729830820⟩,
   ⟨.general, 388305098402365380, 475233114367437700, 789539509817814730, 312460883886016710⟩,
   ⟨.general, 423561342390864900, 510045731837401760, 748631511937947860, 315008429422674320⟩,
   ⟨.general, 457448471719622000, 543223838895486750, 704023264229977300, 316595839859840180⟩,
   ⟨.general, 489731163925552380, 574575868507244180, 655763645232998460, 317432044095737190⟩,
   ⟨.general, 30106305978811049, 172398143759280890, 984567158891999860, 218218890981259910⟩,
   ⟨.general, 63260315542046947, 214955325784459690, 974572901528878650, 239972793392144490⟩,
   ⟨.general, 98485669802586315, 257325608124742200, 961292933629893880, 257979613351465190⟩,
   ⟨.general, 135083595238426610, 299316375123810600, 944543344627552410, 272711405262353490⟩,
   ⟨.general, 172518405544218100, 340723800514800000, 924199486859428760, 284632765628135480⟩,
   ⟨.general, 210355927973072510, 381345497848326390, 900181090024334770, 294149110205133380⟩,
   ⟨.general, 248227877455486000, 420984810442334320, 872441809079995910, 301604949213610670⟩,
   ⟨.general, 285809950998288320, 459451969999630010, 840961687102221740, 307294972617564780⟩,
   ⟨.general, 322807565991542810, 496564016618593010, 805741554555941540, 311476814288645990⟩,
   ⟨.general, 358945990720415110, 532144165557156160, 766798775957041710, 314382367366622300⟩,
   ⟨.general, 393963008886430990, 566020843858216600, 724164036629258660, 316226976466153500⟩,
   ⟨.general, 427602992294908890, 598026431596436430, 677879095482721630, 317216466375982100⟩,
   ⟨.general, 33009394290725518, 264421585235073310, 963842105923128020, 255457539896743530⟩,
   ⟨.general, 68038876500785009, 309011374344306310, 948621463920332090, 270170406913567700⟩,
   ⟨.general, 104432613620670900, 352587107919780820, 929933417262290060, 282369341346893980⟩,
   ⟨.general, 141675159751767890, 395041800535402890, 907672917376660560, 292289846321428890⟩,
   ⟨.general, 179340861050482110, 436247566343016310, 881773733118347840, 300182906216242800⟩,
   ⟨.general, 217063075017572190, 476066181214585380, 852199866561640150, 306289086454295280⟩,
   ⟨.general, 254514515781580690, 514355104251210340, 818939062438221900, 310832827926474590⟩,
   ⟨.general, 291394010170660080, 550970902693559750, 781997823028750540, 314024314620124480⟩,
   ⟨.general, 327416991091070480, 585771103032942770, 741397551113057940, 316063803097713010⟩,
   ⟨.general, 362308132931726480, 618614991740439210, 697171649456217350, 317146288220627520⟩,
   ⟨.general, 34973543864500398, 358689456955706420, 932801546256425420, 281238841603179620⟩,
   ⟨.general, 71297367397570949, 403526661001944120, 912185792074617810, 291213750028804490⟩,
   ⟨.general, 108475862019316500, 446777531233250980, 888044382305461010, 299324125650220600⟩,
   ⟨.general, 146091568924177210, 488363834660854310, 860324368180175440, 305710173898382180⟩,
   ⟨.general, 183779083236997990, 528190834843460080, 828999210223952730, 310531932625143200⟩,
   ⟨.general, 221207539087402090, 566154268714931130, 794063327869230510, 313956551442816700⟩,
   ⟨.general, 258068284116098500, 602145010203145150, 755527727764393030, 316154300680636610⟩,
   ⟨.general, 294065636209412120, 636052078361004970, 713416536963785040, 317298596061329400⟩,
   ⟨.general, 36310553658670017, 452161106508719600, 891196879176431530, 298940033690143100⟩,
   ⟨.general, 73483184684843494, 495936565156096300, 865243979990468540, 305455588394767690⟩,
   ⟨.general, 111108764381264800, 537681580403828300, 835795046989457950, 310476496080770230⟩,
   ⟨.general, 148822608514540790, 577331448024376750, 802832629080933670, 314101582597761600⟩,
   ⟨.general, 186289227413515110, 614811324557505650, 766357200622217130, 316452062115989600⟩,
   ⟨.general, 223190970171445600, 650040746284238020, 726383382935044670, 317665230591220400⟩,
   ⟨.general, 37182013061189442, 542515144870721280, 839222744860158020, 310509716102393900⟩,
   ⟨.general, 74836163350673460, 584186055690793070, 808162236801117210, 314301411789055020⟩,
   ⟨.general, 112599083426612000, 623463218685149980, 773702178721399010, 316817286628720000⟩,
   ⟨.general, 150130381315761900, 660293455184884250, 735848776343340230, 318140186557096820⟩,
   ⟨.general, 37675599302457202, 627857396837510520, 777416000898891730, 317066365915603710⟩,
   ⟨.general, 75484433013601582, 666561171126457740, 741618706289923770, 318544794462551010⟩]

/-- All grids of `s2/delley/`, by number of points.
Included at `delley.hpp:5`. -/
def deGrids : List (Nat × List OctaRow) := [
   (14, deRows14), (26, deRows26), (50, deRows50), (110, deRows110),
   (194, deRows194), (302, deRows302), (434, deRows434), (590, deRows590),
   (770, deRows770), (974, deRows974), (1202, deRows1202), (1454, deRows1454),
   (1730, deRows1730), (2030, deRows2030), (2354, deRows2354), (2702, deRows2702),
   (3074, deRows3074), (3470, deRows3470)]

end Tables

end IntegratorXX
