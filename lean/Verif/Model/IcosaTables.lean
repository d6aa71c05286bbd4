import Verif.Model.Angular

/-!
# Icosahedral angular grids: `s2/ahrens_beylkin/*.hpp`

Every file starts with the same 12 points (vertices of an icosahedron) and continues with blocks of
60 points of equal weight, the orbits of the rotation group of the icosahedron.  In every block the
60 points are written down in the same order and contain only 15 different values up to sign: five
triples, each with its cyclic permutations and even sign changes.  A block is stored here as
the five triples (in order of first appearance) and its weight; `icosaPoints` writes out the points
in file order.  To keep the tables small, the 16 numbers of a block are the digits of one number in
base `16^18`, see `icosaRowOf`.  The script that made the tables checked that this reproduces every number of every
file exactly.

Decimal literals are exact here: coordinates are multiples of `10^-21`, weights of `10^-20`.
-/

namespace IntegratorXX

open Arith

/-- A block of 60 points: five triples in units of `10^-21`, the weight in units of `10^-20`.
Encodes `s2/ahrens_beylkin/ahrens_beylkin_<n>.hpp`, `points` from line 13. -/
structure IcosaRow where
  p0 : Int × Int × Int
  p1 : Int × Int × Int
  p2 : Int × Int × Int
  p3 : Int × Int × Int
  p4 : Int × Int × Int
  w : Int
deriving DecidableEq, Repr

/-- The numbers of a block from the digits of `v` in base `16^18`, first number first: 15 coordinates
(with `10^21` added) and the weight (with `10^20` added).
Encodes `s2/ahrens_beylkin/ahrens_beylkin_<n>.hpp`, `points` and `weights`. -/
def icosaRowOf (v : Nat) : IcosaRow :=
  let c := fun i : Nat => ((v / 16 ^ (18 * (15 - i)) % 16 ^ 18 : Nat) : Int) - 10 ^ 21
  ⟨(c 0, c 1, c 2), (c 3, c 4, c 5), (c 6, c 7, c 8), (c 9, c 10, c 11), (c 12, c 13, c 14),
    ((v % 16 ^ 18 : Nat) : Int) - 10 ^ 20⟩

/-- The triples of a block by number.
Part of the encoding of `s2/ahrens_beylkin/*.hpp`. -/
def IcosaRow.triple (r : IcosaRow) : Nat → Int × Int × Int
  | 0 => r.p0
  | 1 => r.p1
  | 2 => r.p2
  | 3 => r.p3
  | _ => r.p4

/-- The value of a signed place of a triple. -/
def tripleAt (t : Int × Int × Int) (s : Int) : Int :=
  match s with
  | 1 => t.1
  | -1 => -t.1
  | 2 => t.2.1
  | -2 => -t.2.1
  | 3 => t.2.2
  | -3 => -t.2.2
  | _ => 0

/-- The points of a block in file order: the number of the triple, and the signed places of the three
coordinates in it.
The order of, for instance, `ahrens_beylkin_72.hpp:26-85`. -/
def icosaPattern : List (Nat × Int × Int × Int) := [
   (0, 1, 2, 3), (0, 2, -3, -1), (1, 1, 2, 3), (2, 1, 2, 3), (0, 1, -2, -3),
   (0, -2, -3, 1), (3, 1, 2, 3), (2, 3, 1, 2), (2, -2, 3, -1), (3, 3, -1, -2),
   (1, -2, -3, 1), (4, 1, 2, 3), (1, -3, 1, -2), (4, -2, 3, -1), (3, -2, -3, 1),
   (4, -3, -1, 2), (2, 1, -2, -3), (0, -3, -1, 2), (0, -3, 1, -2), (1, 1, -2, -3),
   (0, 3, 1, 2), (2, 2, 3, 1), (3, -3, -1, 2), (4, -1, 2, -3), (2, -3, -1, 2),
   (1, 3, -1, -2), (3, -1, -2, 3), (4, 2, -3, -1), (1, 2, -3, -1), (0, -1, -2, 3),
   (0, 2, 3, 1), (4, -3, 1, -2), (3, -2, 3, -1), (0, -1, 2, -3), (0, -2, 3, -1),
   (0, 3, -1, -2), (3, -3, 1, -2), (1, 2, 3, 1), (4, -1, -2, 3), (2, 2, -3, -1),
   (2, 3, -1, -2), (3, 1, -2, -3), (2, -1, 2, -3), (3, 2, 3, 1), (4, 3, 1, 2),
   (1, -1, 2, -3), (4, 1, -2, -3), (1, -2, 3, -1), (4, 2, 3, 1), (2, -3, 1, -2),
   (3, 2, -3, -1), (2, -1, -2, 3), (3, 3, 1, 2), (2, -2, -3, 1), (1, 3, 1, 2),
   (3, -1, 2, -3), (1, -1, -2, 3), (4, 3, -1, -2), (4, -2, -3, 1), (1, -3, -1, 2)]

/-- The triple of the first 12 points, the same in all files.
`ahrens_beylkin_72.hpp:14`. -/
def icosaVertex : Int × Int × Int := (0, -525731112119133600000, 850650808352039900000)

/-- The first 12 points: signed places.
`ahrens_beylkin_72.hpp:14-25`. -/
def icosaVertexPattern : List (Int × Int × Int) := [
   (1, 2, 3), (1, 2, -3), (3, 1, 2), (3, 1, -2), (2, 3, 1), (2, -3, 1),
   (1, -2, -3), (1, -2, 3), (-3, 1, -2), (-3, 1, 2), (-2, -3, 1), (-2, 3, 1)]

section
variable {F : Type} [Arith F]

/-- A coordinate or weight given in units of `10^-d`.
A literal of `s2/*/*.hpp`, for instance `ahrens_beylkin_72.hpp:14`. -/
def decimal (d : Nat) (v : Int) : F := lit ((v : Rat) / 10 ^ d)

/-- A point from signed places of a triple.
One line of `s2/ahrens_beylkin/*.hpp`, for instance `ahrens_beylkin_72.hpp:14`. -/
def triplePoint (t s : Int × Int × Int) : Pt F :=
  ⟨decimal 21 (tripleAt t s.1), decimal 21 (tripleAt t s.2.1), decimal 21 (tripleAt t s.2.2)⟩

/-- The 60 points of a block in file order.
For instance `ahrens_beylkin_72.hpp:26-85`. -/
def icosaPoints (r : IcosaRow) : List (Pt F) :=
  icosaPattern.map (fun e => triplePoint (r.triple e.1) e.2)

/-- The 60 weights of a block.
For instance `ahrens_beylkin_72.hpp:101-160`. -/
def icosaWeights (r : IcosaRow) : List F := icosaPattern.map (fun _ => decimal 20 r.w)

/-- A grid: the weight of the first 12 points and the blocks.
`s2/ahrens_beylkin/ahrens_beylkin_<n>.hpp`, from line 13. -/
structure IcosaGrid where
  w0 : Int
  rows : List IcosaRow

/-- The static arrays `points` and `weights` of a file. -/
def icosaGrid (g : IcosaGrid) : StaticGrid F :=
  ⟨icosaVertexPattern.map (triplePoint icosaVertex) ++ g.rows.flatMap icosaPoints,
    icosaVertexPattern.map (fun _ => decimal 20 g.w0) ++ g.rows.flatMap icosaWeights⟩

end

namespace Tables

/-- `s2/ahrens_beylkin/ahrens_beylkin_72.hpp:13-86`, `89-161`, `points` and `weights`. -/
def abGrid72 : IcosaGrid := ⟨15583296892806510000, ([
   0x284682cddd989259c004b2c994be5b0d0d204754ecea63fdfe75c0516629184dd65043405f87bd5799ceda138020069a55bba0f953400149944002f99e95602e04bd3e924b459a002dcb64468cc32978605a543fe5b86255d9a01268b77ca118fd0b20236fcfaa770266446054f2cfc37e85f9374030b0e83516b408e16062854c54ebf5aeb90006632ea179c8ab4d90]).map icosaRowOf⟩

/-- `s2/ahrens_beylkin/ahrens_beylkin_132.hpp:13-146`, `149-281`, `points` and `weights`. -/
def abGrid132 : IcosaGrid := ⟨7991434304003341000, ([
   0x225d3238cffd02f14005ac4d9d998c20cac043f56f500f453024e0507867435ee11c634062c87221b9cb76fea02602f18711bcd8bd4001ef8c0368998c21c0323ef6118d78f8dad0286942a4b00b57bd205a4139496fe20451800faf31a5b2001c46a029bfb32142af6d66405a492f316f01eb14e03029b941e5d04b34205e380ce5a847ab018005ef47dc680e6dc218,
   0x2ecdf5a9bcb97c78800741ac9aa8417e76005045cbe59c7cb4c2a04ce06a9fe5176481e05bbb5daa48fbb014001651839e73acfa326000e776d554981b36602cc740972b5e9010a039153905a52e1e5a405d81e3c121356955201af7790d2b362ff9001cabb963c7565d72004b9fd676e4f37efc002bee8651dd69fe6c6066f06cd7bbb579448005f4c07b01bb241fd8]).map icosaRowOf⟩

/-- `s2/ahrens_beylkin/ahrens_beylkin_192.hpp:13-206`, `209-401`, `points` and `weights`. -/
def abGrid192 : IcosaGrid := ⟨5233742762454396000, ([
   0x22a6c7d29e2829b2e004838680678486af403f8250c30a7617da8053b8ccd5f61c7997a061c14be5c6830ab560291c0240d6757683a0034fbf44e47e9abf00300f08b86828f164a02498c6b702040701c056de92f5dcfe3fc9800c9c465a29161299802a4fc97c597b60ed405c020ca9b7d57bc4a03443cac96202c2ff405d0553eb3ab3efeb8005c45485f8e182fbd0,
   0x2d908de1bd8382bd6004069d006cce45dca048cc6eb2152fab4bc052d81f0958f2ed31605c0a6bb2ec8d2f95001bfc95c21e362f53e001a4f4c9c0831db84029db3f05937cd3eb00316b00072e279b56605914396575e22c6820143b99ce0fd4277d601e5e3df8ca81577840508d6aa62391b32240325b5788553a87b520656ec40da843f87d2005c912449ff4e79ac8,
   0x2ba90486696e89dc800b32b2342abe36e2205579349b83bd91ed00461da7c8a6f4c23f205de97ea2c8852e124014e6a8511bd37e89a0008555b4523e85df2032e667292d64c31fa03cefb06fb653ee34406211b031cc59d799e01fc8c0a2101d77cc201f9404d0f4532f8ca04a971c4a8f7398aa8024ef1dc478f93ba840656112b664d3b5b2c005ca106029a90a7c70]).map icosaRowOf⟩

/-- `s2/ahrens_beylkin/ahrens_beylkin_312.hpp:13-326`, `329-641`, `points` and `weights`. -/
def abGrid312 : IcosaGrid := ⟨2678894659202470000, ([
   0x2fb20b23ace0e58100032916dfb83cf1f100473f10cbba822c6ba054fa96338871d3e8805a4514582d16391b201be8dcb7ce0fac11800260fd09e60eae19c02738618a1f748c92c030f5d04828ec1acf305706752dd6ab4e6d80136a4427dab23a85601cb0f68da03defe8c04fbda95baddf9df7c034f2048949d36ab1d06603dd517d1561dac005a7060fee697450f8,
   0x1df9ce6cefeed889800685de60a5f359a6a03f01864d10aa4e95c050e732a02a08c95c606460b2e175ee2586002c79a1765cb44ed12003be5ea12ec9cd320034b0c7945602de1b302279093353b53b5de0582ded2604f8b8a5600c8a1b4079957d4e602f412135d3dddb45c05ef10c82f3c9219f2031b68ee762183e160059b2ef3f74d47978c0059eac1df20ae6d178,
   0x240179f8df51bfdf6006773a8de9656b9d804850d26f474adf53604e2869cea50f3acd806267a48c9a4a1dc2e021e924c153dc59922000e7e5b4b491f10c2032a9156cbdd0ea98e02d0079a023dccf88605cb6be4f1e6dc68e801302ee7635fe305f802778799a88afd42380573708ba65290a0ca02d36ca06815390570060437290267b7ba78005a524347e9a88e6b0,
   0x2b6329b336e39328000862cd8ba3fc0ee5c051135533a1f104eae04a8169484978c486205e2e0a8b3570521a8017b9f9cca77dff5980005c476afde9c07100305b0e69138dc40d80385f73d3ba92cbafd05f843989733a4bf7e01b39d2f0d9fc23d5401fc07fed4d9050db804d937c0f6f72e06f2029397f8d422f670300655ef4ce258b27ea6005a6b2e956461a5f88,
   0x334a1b9917c42194a00c7dcacb2d799775e058b3f1b7b1cf81de4045cff635ad158f68e0581757006c16bd89600edf94c092fe39f9c0024f5da545c4b628e02e5f581dd3b1b4ff4043c364ed29d33550606077acafa6d984bfc024cd85af31b5968080190e01e67ab319c02042c600c9131823d0e025bc8059b3cf8bf620684e1e3f99066fc08005a493ef919a7884e0]).map icosaRowOf⟩

/-- `s2/ahrens_beylkin/ahrens_beylkin_372.hpp:13-386`, `389-761`, `points` and `weights`. -/
def abGrid372 : IcosaGrid := ⟨2462004449769815000, ([
   0x200110c3fe9bfe64800523c9941543280d003c5a63713052716c2053f9aef8de8f46bbe0629bc908b71c674e602d2e0447c95a7b9ec00493f09c3cfa7ae7a03189c8ef0680ef0d4020e9d0d0d169738d40557247fd89a56783600ab88a5fa76e4c53c02dbddd3fa1a3273d805ecfdd59523ea0b720354d09a0f3112b25605a1e48bc490318280005970ffdd23b798378,
   0x277ff730ea61facd80039a88473fd2f9bc6042e9647baf73b02be054414de253df4e84c05f56d4b11fb835c82023a6b38b55f79a0aa0025f42b36ccc318e002cbb934a99ac8f8480297e1607d4be30c8e0577ab24d11424cae800f12dd81566141b9e024e1f91f28fe623900577d3a85af0a087ca03437aad6db82691a4060f4e8b03d745ba360059b16e9279f2e4e58,
   0x2ff47e87032987c3e003ccb7f12a5cec14e049243be3b43afed5005398287e95392e02005a536e2ccf56c464401a71b10b5ce65aec000207514491d74175a027ea5c7033d50ef28032d21cd2c6f6adf960583b2d76f18bfd502014f5c37a8033a04aa01c3717b7f56c0404a04ea0297490edb7efc033582b6202117a8dd066869ab483958cd700059c4246ea77b09460,
   0x26059ee3a4207eb04007a798806bf3fc4aa04cc6f2793ac5b265e04b969c293f672ced60618ed36fe27fd0bb601da9209c367694f680004291f2661959f2403300a24288952da24031fc99b5d5e37a8b405ef29d897704cc594016d3babddb006ad180250e272a3c5138d580539c5857963bdb04402a3ecedb941ba473206227c4f4b44e3dcca0059c89143494f8b878,
   0x2efddaa0be8b9826e0089e779a16bd51af4052a30a6e296b0b26804aa66a450e9157de205ba140b69b7d352de014bbb26dfa753c70c000e1d259084de83f602e09eea2ec5be6dd203b829b153a25e0baa05ee7cffa989b09e1c01d4f13196bda5365e01c7857af08e4a767404a0fa9c2b805f5b80029b109394a44576c406713ab05721dc304a0059c7fa29cf64caf20,
   0x2e17e551e1192677e00f1a4b16de357dfde05add091678474e0fe04103877951037fdac05ba82b02fdac36c3201087ce171cf216dc8001bc9740bece61ea40348cac6c160313617043b853a2c43f2ebbc06401a9a05390a432402663d6a971371180c01de581ed3c59316980450100842402536ba020955b5ce2b89942c065aac6e2036c2f7140059b0cd0d7de9bfd78]).map icosaRowOf⟩

/-- `s2/ahrens_beylkin/ahrens_beylkin_432.hpp:13-446`, `449-881`, `points` and `weights`. -/
def abGrid432 : IcosaGrid := ⟨1267796801928499000, ([
   0x2cb7d2a1ebae40f40002518be9113b7b4f2042b23916c10b8d5e805703d8bfcf1463dae05bb18b53c05488ca6020d1be5d55d9883280030d7e25f2c1d166a027cd4d8f0bb16419802b87b8290e344883805517cc0a10141552e00f89ed8eedeebec5202015cc20745333a1a053fa09e528f65852803765e426a358995ae063804828ca41513960059671e75c15046a58,
   0x30b7a76409d0cdc94004c17d0ef0d4ebe7604bb94ac6a6324ce98051c3e9e62974eabe005a076fa635af73c0601844f14ca33b5c6e2001bf1e7d08f5ed7f602893230760a5be2120359623449d0c99a89059a4c458a48fb4420017429f95e9499a68e01b474fde8b1a5ad6204cbb9c7d602410756031574dcd32a2d447c067476aff09c897a7800597b5dc7af54bc2e8,
   0x1f3311bbf42f5dd980055f77b4a276b5af003b20865e91271d2ec05426ad391d373b2a8062c39c4732a11038c02ea560c32b9244cfe005217f63e9860c0de031ed4a4e0f39260ed01f9756bc4fe1b6648054c8ea8a31da3d56a00a0c3c14b4ce8852402ee35913e482ee71005fb9ab0d07ead8c20035d184ad6a2c470f70591169e9e87fb76ee005907f9b4418bc9e10,
   0x23ac99b5d8ef5488e004be6218631facb600426293b2e47db7dca05269f590f99c2e1a2061b3917300ed2b89202657a38d8821ad4140026023e0dafb14e140303c29dd9e2e383f20278185b347b969c2a0589d1fc5f08ade35e00e8cede5f99a2b374028b5e1c51046469ca05a2d495a730539e6a03260ddb057148966b05e96bf96183b477d60058fd125af26646fe8,
   0x26db9f15c396e88300067875abc2ed215ac04acd05fe1c1f48bdc04dcaf1a87079d5218060dcecb69c3e06c3c01e79c0f3f3dc917f40008c6b6d0f052e2b00311f98b4994c886ca03070a02e395d862f805d4bfcff9a286477201523a7bd6545d6e8c02465cb32a7c484af0054231f34aab604dae02ca0c895501802538062622df8c6ba7ddf40059527486a153a4a38,
   0x2af684de46dcb5688009c425a35ddaea2bc053240204e2decb5a404839a3b84291a35b405e78a229e3ac50770016b1c7a9f56362c5e000503ae3455d837dc03206fe1f7ba89aa2c03a4206e7012974696060f91081155bc958401d3e733a625daed8002025b26a0de0c7ed404c97567475e47f482026ea47a50b91e0b1006527dc0f5f91cd2ee00596d9e69c73277c18,
   0x2f974fe2bbaebbefa00eb0f96bf4b54542405ab913ed13d09b0d4041e131ee537ae6b8e05a9b86950f1b1962c00fc4a4537c6d23a54001efd8d0bc061812a03316b6533df1be2fd0443a662c4904a6eba0634568d31980006b202673231009f8131fe01c85c4eeb51c50d4e0440a95308645ab92a02192b3643888b5040066647c2da16ce1c62005971ce9055cfdc510]).map icosaRowOf⟩

/-- `s2/ahrens_beylkin/ahrens_beylkin_492.hpp:13-506`, `509-1001`, `points` and `weights`. -/
def abGrid492 : IcosaGrid := ⟨1795453816623618000, ([
   0x1ea3b374b3951ec84005bc045e38bfc6a9a03bfa662ad644cd762053428fee09d5a79de0634ca6621b32a030602e5965c4bb95c23c8004d321a15129c127c032d2e1128e13c887b0201c8499a49a6f1d2055a443cfe270fd74a00a97be1e618fee9de02f424881a32bc7be605fbc0dd1304aa114c034bcf888d4d950958059072c6b1a3bd51400058bac78282664eb38,
   0x249f08b3b62b4a61c0045431308a3a18d0204218182820f0ca7f00533006e83a4f17dc60610d83b14b37e3b7c025f9dd6cbc5a9841a0027a631e2b0b6101002f2beb340f935b0140279daaa1fbc3799980580876e8df15fd5ca00e5cb198861d8d06a027d3ab7f1b894e8a2059b543fc572dd740a0333727bf80467004f05f1255629561425b60058f02b5e4cbd83770,
   0x2b6eb09d6617b91b20042bae1dd1bc827b00480f6adbfe5b1a6ec0526ff5ac56be6810405d7717899dbe6795401db1e345788b98cf000178c52294cb41e2602b6cfbf9a99c4a10402fcc9b1c45609e88205980c92672f88f9c8013526650cd47bf5e602064cc40b57cd7e100526ee7d0a99ef5660031d7df2ee695ba6bf0644996da8f3ae405a0059053cb6757906078,
   0x32e0a3760ca794fe4005628e23ba9c1945404d873c80b3437c352051058479cddede62e0588647046927ef17c015ec8079f1a9c85ae0020555978cef96c60027b30b7a5de5685d0038521f896466b7865059d43919534a816e601956c86a7a5472fb201949b9061f564ada204a1cf4902a98d194e030c44d9a6e1f7ded206856f74cbb43ba98000590a0d4cd4199ea20,
   0x22a8b61c12eb381da007e0c682b578c693004a7450adc61a6578204b87a18bd2c9d487c06372f994417b22a080214a51a6007464af0000901c20bf0c4c71e0351df669311548e5602e7ebf7587f12ca8205eae55473e3c41acc014cea320bf48106360289afc07f6e0e056c056efff330746b9c3c02a5fc05450d8acfc205fc6288bd3059879400590574e7649dbd4b8,
   0x29e4cd0a7f069ac200084daa3009b8f554005047901536898725604a823db2f7792a8fe05f2efaaac8f82c818019177a65237d51b340003ae812e2bc214ba03146db2d0cd281876036f4e2d40fa890c5f05fa51599af17f204201a4cae7a536709f7a0212a3c824a7a25bba04f125c00069fd067a02925b3e4353cab0d806494041a6824102ea00590c284b4d2da4620,
   0x318cd800c1d4e509700a16066807c5653a00555b3856b9db3d6a6048e4e54fb106bd492059aab51046733b686011b508f328483e4120017ff7b6f76d6d79c02d8af1ca885a00a2603f71601567f4eb2ee05f5f7c15677ebb55e020a5665feb6a0ae4201a4b17a438a0378800466adae9f6b970c760285141991fbe99b380680a53f8a5035ab38005904d74e08f425230,
   0x303a1b89b7b8e19ea00ff3668e81c3b824405c257a68dc833a1d20405873fe3a94b9094059e736d005b4a134a00eb012c34cee905b800270cd3d44e01bb82033a4d3b0c199ba434046163cf68d34f8a88063b72ebc4cf46c7f4028607df85b84b5d5401c32ac1489d22e4e4042750f33cded162a002059a840f06288f620664824b95139532660058edbf875e1aca9d0]).map icosaRowOf⟩

/-- `s2/ahrens_beylkin/ahrens_beylkin_552.hpp:13-566`, `569-1121`, `points` and `weights`. -/
def abGrid552 : IcosaGrid := ⟨2127696997824436000, ([
   0x285200a15d1eeaf32003c1ab93f1d64de820445c656dfe5da3e88053a90b4c36073b63205f0bfc247b8cc08260221da0fea450e5d020020653ae885afa65802c97de0aa7846e6a802b1f58d90dc869c3805831bb69502c0f3cc0102cef6ec0d9fe4e0023d8f8e40dcc3952c0564d16fde1d48b6aa0336871761535206c5061cfa70c6e8640d240058a3e5a0f8fb27ef8,
   0x2da50ae843452d7aa004dcd148fd5ea559e04af37d2201778bc3a0511da1227b9adcf3a05c390767aa70f325e01a76b8353b108fc7c001450ddb52782f88802ae00f02e1f0fa066033754043f009fcfe105a8599ebd3462137001602c14f8e111b4c201e0e7ba2e5f70599204f677407ae77003f40306594521919d0076065db5496b733c8b740058b5851871da95798,
   0x3339edfd3ee88f10e00736930514233818c051105615eae88672204de1ecb3a43a1f19a0586bb89a28ef4c0ca013743dac981a07da4001d7032167ec5a9fa0296c81f17733e29ec03beba2c56910da0c605bf3315f7a9949b1201cb18f898cf63f8b2018d3cd904450e5536047d30438f60c4d3aa02d8414e59bb654684068bc791bc944071260058b4ef0af4479cb60,
   0x1c334abc4d10727a000748f58a27505b45e03df91755125a69b8a05041215b8472800520651d26226c0fdecba02e6f1af92bfa2830200453f71865a214e8c0363051fecd819afd7020fc2242df80efe70057fef753d8914555e00c1744bfb21ddea1603164196aeda86f29806050ed8e8c36b4ce00316cf227336e21f6c058046f02d0ee49bdc00589ef9a851c13bab8,
   0x205f8458431c644a4006e450df600d389cc04523860ee73e0de7604e476f9196a99db80064262112ea4bb560a0266dce2797dac0926001b76d330e280e260034d4a844847a4f0ed028bf3ba3d132573ee05bd40a8976a4bb236010a529942f877c0d602b9ab1d3e9bfeb09205aec2aa24f91526c602dd6126237c8ad0b605d352bf2b8090b9f600589ad6fa73b57a128,
   0x2544a29cf0f63220400775363d8519c830a04bcba99e6d2948bde04c0160bd7b1d51c94061f67ec1e537d996c01ec5581a5fa9519140005bd0b35f275363603335eb51a47301794030c13ea750e2c7d8405e97625200fc5ac7e015f1b0a40671fda7e025debda4859bc65e80549f5114c6609e2de02ab92da365f20a4800619740ae2267fa8720058a54c61bba3b2fb0,
   0x2a825d20cba2903420092d59c5532195e88052074628c8168291e0491e1bfc3f70b764a05eca03fe360a61d62017a39d0946e1fe16c00040b4c8ac905314c031c19415c34d57497038f2ff0724b7e73bb0607b62df3f17502e801c123143aec835a6a020904205ed7340ea804d98b1ee60304b020027c527c76cc948834064ef987741a899f680058aab14745e3a4b80,
   0x30146e08375eb2ad400be51c94bad849b300578918d70644802d0045e2fe77d95bef4e205aa0152c9b86aa4de0113d02fa35d9a9d6c0016b5b155dfe0e43c0304f6813908055878041079a17e58c0cf280614fec06e463837c0022beaa3e9e63ee70c01bb6c47992b3e3bf60460771929dba3a0c6025429d9e17b145bac067364da119c1cf7b200589ab52aaf5536240,
   0x35c4633b2c790860900f778fde2c9badac205c1fea96214c5787204275b1b6d47783a74055a80087821e16f5a00bc92a24d24118b1e003c5aaeeb2f4c65de02ee9c6b7e8db24a1c048b09c3e313c5ddf406113cfa952e1bfd02029afcbd70e627de500177b0f144be80000203e3948e3e52af25400234990aac11b4b2560685fd29f2fe53b2e600588e58b1ccc589480]).map icosaRowOf⟩

/-- `s2/ahrens_beylkin/ahrens_beylkin_612.hpp:13-626`, `629-1241`, `points` and `weights`. -/
def abGrid612 : IcosaGrid := ⟨1619265594349495000, ([
   0x1ef9bd2494f439b1a0056f5b42b3e6dc38c03aab2a1d170644bde05442c9505379469d8062c5c7ed42e46486602f25e650acf8bad020055750ec5192b2368031ff598230ec9ffbd01f20a311eed5b490205481b9940faeeb7e4009ccb15ba2ba5658202f3df0a70f4ce4d26060045f122144a899a0360ee3c06bfd2475a058b829bfa4a0ec45c005867ab6cc87c6e0d8,
   0x24a182a3525c710e4003d4a409948e0dbe403fc81d02f99dccb96054bff954ec8742294060945ac2a7da0c12c027b0224b2e4e263e20033bf3a1e274b397202e33351e768979d1002598910184ad1d7180564fb81ad0f148b3a00cce46f71633e050802848d2b2e0677edea05aa9f85711b812a700353ebb4f938df375b05e524caa20466ee2a00587eab707ff0c2cc8,
   0x2aace9c4a3cb8ec3400356443fda3516f7a044f637acbcf4c74f40546d55a23cd5cff6405d897483a3de5b58e020528a3b878e292d60021cd5a44c37effe402aa9ef15b834d3d7202ca80e8fff3ac169a057a1e9092642280f6010dd43a3434e174d80218bf8d7158b5026c0546b7e450134d92f20343aa4e26a6f6c2120632dc3a133ebf5bee0058874d367054be2a8,
   0x3162b9af2c72453bc003cdfeb2761794c860499191104709fa880053d1a17e695b598e40594c4a69a971e79f40196284b8a6d6aa46600242daf7cd56b48ee026e47f6e59aadc67a033e2131798a8f9a7f057dc1ea17e52f20480159ea25a4e820d90401aeda8734f978c06804d55736e9f5e95b78033b6704559a7eb93d0672d68e0ea86b59ce00588bd5a3b0e4a4108,
   0x2344b93cfc63f4f2a006893ac2cfd9f536c047bc3f92560aa953e04e29cf317af1116f4062c96f525ff406986022c547fca60a147b2001066b53b1a5db7820331ce06769ef5d55c02c2f766c126ca057005c975bcfaf2dd818e0128ce13841d1e4cc002848176bc43e2e39c057f4a656ba42d903002d4b0c7eafd5f49ba05fb045160b1d193c8005889a5a30e6b02158,
   0x29cf0717c0b9044ca0067e70d0969daaa0604cc05526241f0e47c04db5e24d9fec1866805f1117b8631d1df8601b6df2fe24b8cc6c600081098399c24905602f59bedb33dc2898c033802070901b9acaa05d6462f36c2a0f4700170b94fbf802b74d20216b5a4b21942c80c05122b32850d521e0602c84b054f67c0933e064406dc5fe2c8834e00588ebb88c53ff1218,
   0x30f8f9f3003cc3bf10075d9aa9353a1adc0050fc2f28a79b973f004d1a22ef6a667cf4805a24be6d921ce99a4014b114f0c9a1e19b60014e602dcec35824002b4c8f69017865fce03ac6eaadb71cbe42f05cf74e2587bd3bb7001c14c5a8b08050e9a01ac04f6c3018a4536049987e70c0bd2977602c67d8f30efea57c2067e0886a4c237433800588fdb9377872bab0,
   0x28f9fd5286b14682000aa2eb8a24658337c0539eb70407d4f29d4046aaea2246b0c03f605fca9310509ed9924017919cff58fc69d7600029f59ef01b4989e03437b4ecaf25bb436039ebdffc7da47c14506215c2b771ee2fa6a01d92e2f532119c2720220a92ea8d46a385404d9d710e2ebfc04d802543e703ceeb6a46a06413d77888a71463400589064e0698bb3830,
   0x30115abc44ff0dbd200bf0f0accf54e2fe6057978796491b42f74045d14206e9401b97005aa11dcda1abafb5201136873ebadcc40e60016cc2339001a90fc0305c44ccab21f2b3804115654a6e2bc7f2a061597b0e51c00e348022ce801c133e4a80601bbab5b7fa2ffdfd0045ff8eb8f0b9bafea02531bf1f9cb1e5ca806732ffef6c7cbb81000588b7d8e42e518930,
   0x2f3ca0f9cbca713080117eb49a9c4d57f0805d7ad1e1c8c6bfc1403e1fa507c5f5bed3205a581c55a3358c00800e94d13f092deac38002b79c281e1913410035a1074279a44306a04725ce500443f0334064cfead07ca382856029fca45c21013488e01d5be9b187622f73004212fec4b0f37782801e4c9c578d6520fd406564ad3bc8dde01b000588196d3b3b082b88]).map icosaRowOf⟩

/-- `s2/ahrens_beylkin/ahrens_beylkin_672.hpp:13-686`, `689-1361`, `points` and `weights`. -/
def abGrid672 : IcosaGrid := ⟨1267908937122625000, ([
   0x2d3b679a2c84f5ac600371ef4e78deebdd4046f96f4edc0b6b3920541f973fea778654005c0956508b810549201d73064aabcfe7a02001fbdbe2867aaf48a029457bf13e815433a02f98ac12c8f033f0a057f2ef24794702b38012bf81839ca77a81c01ee919b69e3425bb6051acf415eb33d8578033d885352973600e1064e33ce100a4518d200586bd59ca34a47350,
   0x32cd6fd7298dac49c004ec905fd2445dc2604c86b9cf460b0b7c2051df4bca18cf709e8058818a98ac998a6fe016a129a99bf1ac5c20022032f3669ab818e02738514ab8ff49b8e037548a2931311bae305932c3888c1c875a2018712314e6c7251ba0196d8716079b538c404ab6c063fb3594434031aeaf5bbe3b30748068303beb98fbdda1400586ee3f5c81214908,
   0x1cb61dc11be8d3a1c006b9e5b0c5392e4e603c06b002859ed97f6051d67fa1092c203b806460d35e63c89d09e02f94b39ecf82243de00501dabbefded221a034e4ef6163232d05f01f7e1ed4a3933dd34056568ba96630e699c00ad2c110af9f0ba100314cbe93a4dc81ca3060c8a290a581f21c40336dc89a3e34361ca057a765f5c8ec59bae0058269c5b758bac9a0,
   0x20a3f56a1dd10b71c005ee48d9c0cfb0e9004226c279d5a1ff660050a202cff34abbcb20637d73060ae4bc1b20286a437ef0c58c59000283ea279dfdaa46e03335f23205d5ce1590262ab8084ab99139c059932420430549bbe00e74e2f3adc10826402bd4a231139792fb205c1c230518a682122030af070f98f61a38005c92fb9c030e1b3120058503c35aab15a160,
   0x2562960429e4676ee005e9259695ca7c51e0482d6cbff944eeffe04f1a2ce942f52c3000618612e1bcc1b974e0212951ecea8d09212000f3c41d4943a6ccc031396eca8cad9467302d687cb9d792d529c05c1575183d2a6f700012eb672f7ca9f5cca0261eb3663713dea640566b577d672803db002e2fe2f8183030be806111cffb765b7b2fe005864a598ae1fcb908,
   0x2abe1b7b7ed0bce70006ce5e5fe80cde1ac04de05dd76636398b404d2f156765d8e427805e80b770a8e1ecffe01a261587c7691a4ba0007b901d305e8ff9002f194c22cb102b1aa034f963d76cab9566f05dbd2c060b6208cd6018262446d0b62b0ae02078e3ca7f1766e6c04fe04f185ce928cc002bfa8151d803c7f54064d9a99106307db2c00586cab026fe42d2a0,
   0x30757c8c6c987f3ec008b766a8e6b4562100531f9c9d2c62b715204ac808d7e4b0a1c8805a8b632a42bd9ee9e013a2ce3dfc19f2d8c0012bc8ed09fc7fb3202d0d002563935691803caae837941974f0e05e89123ee8e96de8801e159bdc708096c8401b2e6bf9d8d1c946a048accefeb7fc1325a02a005e029e5daa4de067b1dbc74b34b757000586b6095cbb8d7cb0,
   0x363d72bde8b00232840bb533b83ca861d50057dc10e5d10f6c7a4047c7983ea5c6454c8055d5d776f19c451de00dd69301156d63970003026fe5c7307f5f602b554181686608798044506df720f054a6e05e8d574a537e7bc6e024a8b71dd2614bd9a0168956d38ae54793404109ecc9141b82b1002822ce748d9e4f0880696ddf76b0f711c6c0058618439afd932608,
   0x28483037d735afd6800b1d803128ea008f60540097780c0548268045dfdcde118d335f20603b5fb7dec5baebc017c1359ba6bfdaaf6000253f510d3d471bc03523163b41d119a6603a0809af7da21aa0c06297f735d3a65700c01df00d1b5363f0c8e022b9767bc26c929c604dd1bff85f61320d002475f0361f72344b6063aaaaa857b3dd0c400586c0bb175c65b618,
   0x2e0dfa71264579af000d5da0cab5dfc205e058e882cb98f8569520436277f1e76a64e2c05bf3da7b589e3c50e01198499dee118c8260014c0bf626ebcc0ae0331bb198489f5d9370419506a4ed2bf89fe062fb18fa3d44d8480023fec513fa0582a0001da9de727d05827d60468207558d0461fe2022aebd79fef82295c06615310fba841b77e00586268ed480549058,
   0x33bd8dc9d9dd43f7601095edf3b5cb73ae205d28c654bd9f12f720406942a7ac7f29cf60570e68cd0b840a6ce00c4ecc8b9decc1754003889614bf70b87b60316e8d12fb70de421048dbf5f710d53988a0629502b3d9d1dae1802a7b92bbb7312b7280195c246a94477ca8003efc0024a45aa8f9e0211761808ee6aa20a0675c3f4ea43f9cc6800584d03e57d7b16c60]).map icosaRowOf⟩

/-- `s2/ahrens_beylkin/ahrens_beylkin_732.hpp:13-746`, `749-1481`, `points` and `weights`. -/
def abGrid732 : IcosaGrid := ⟨1765466896069203000, ([
   0x323136831badf5d53003002cc8e5741ac0a0478938e50670970a8055bc1f81c7c7a31b40586b5a790c4e6e24801a60a3e6c78f065ca002e052e97d52192c802535bd942be3e8e5203264bfc15a23354220560f829f6e5ee491801433c220bde41037001a807dc62fb107f0c04db61aab101b8eb6c03602406f8769608370670f8eb908599a25c005854994230179fb08,
   0x26ef351d7bf92160a0037ecce26a68efb7e041c28a9c648629e3a054be6ec67898be4fc05f7eb1d21b2debfd2024d50cddc488dab70002af84880e0f6e38a02cc7b506bfb83d3ba0283e990ab820c700a056dd1b0e1119e3e8600e3c4576acb6f81c4025a4553820e25aafa0585b52037c580af7c034e665c089b6fa8710604b2fb517404833600582f5a1bc6e4a2140,
   0x2ac84f895f7165eae00450621282fb522a00480eac3cea8b5d4660521f3982cccb42d5405deb1d2db3d97b32e01e110589559aeb160001636bf2deb4b9e2802c05b59270f62d5ce02f8427dd8aef16c00059c807f69c8f8d7880133c4e82036175a24020fdfba8f9e184e42052e363443cc4d133803179f1599a60ef51f063f81c11f178001ba005842adf7e8d312230,
   0x2eab2e7bbd488124800632cdd38a252c51804e39c0ab65d821ba604eb6d47d79fe6adae05bbcffa1f191e105e017b728f88a61a36840010799ba3e7412b7e02bba03c7b5d86d576037082b7a018ab711d05c3f059509f1b9eca0190b90b7de6d9472401ce25d11d612be88804ce558ec11cc3237002dd8ccaf819c6a87e066bacb7b19f7ee1be00584c9241d1d0317e8,
   0x32d4bca0e26a06570008f4939911a3ce5d4053dd11dad7f410baa04af376d40e4fc66c4058bc11cb0c132ae66011eccf5ebcd2e71ba001ba32d757358de9e02b7adbb657d85aca403e86b614cc0af07e205ddfd109b25ef1f1201f617b04694afea4801927302077412915a0466866352b7bfab8602a83d039dc3db67520689abf01206535a04005847abe7271532fe0,
   0x1c3fe81fb6784564a0071d5c2b012fa117c03d0d4dc953364e454050de31ce409537208064dfe1725fe5d219402f1a14bdf7de8204a004aa7c1093953089a035c773ef9b36d2d72820363662ab8db64cc05747602ba3451896c00b82002c20ecdecee0318cf4d86578f1cf7060a5625b2a27f17b00323f7b6ad0c92f17e057b5b5e9cdece6ec600582edcad2b8bc7a70,
   0x2070e0c318acce4c40063c185466f5c705a042fc3701a2385d49204fe88c712fd63bde4063c1d49b4de6d3fbc027ef28ed039fbc046002485a2dc6070de7c033c82341eefdfbc4b026d5e9847d372eff805a415359354f55af600f0ec781a260ccb7802be2e713a48e7522405bdc986d03774e1ca02fd0c0ec61543f4cc05caef9c50c2ff92760058253a443a77dfc70,
   0x240a0e35b5372040a006bdb504465e4f5e80490edbfe9f62fe97804d93070b175404a70062783010b55da2d6802160e3be3b8da73ea000c48c426392b1f92033001b6735dd5346702db4497e1bee952e605d366b1560d716fa20139d9e933d17121740275a0c801e59462aa056d221299dd996cc202c8b8e655f272c98e0606c195bf0d864c52005834caff81edc39f8,
   0x27a8ae0d6d4d0c2ba008509133b8858556004f1f47277343ce0de04a633d7febf7df8ba060a0d399464f6123e01b262290d7da1fc10000209a18ceff549d8032bb9b1f38f6473d3034e805dda443b1cfa05fd28c6b0c74b41360190a17927c64843200235619abc1604ef2e0513b5225ceb9699ce028f671dd8ee7faaa20634cbaf9995d0c12e005840579f30afb4888,
   0x2b99bc69095a5774400ac232998ee29cc84054d6d2229b9da4084046c5237aa12ecb7ae05dfbed6c39a61b9980154ee806948840a6e00076caa95c5fb60a203288565802aa1973303c41e997e961eea6c061b8b899b3b9496b801f17d31e321ebb99001f9a4ff6c70b25de604b0de70afe07291620258d9c7ee5d708cd8065662bef76edd109c005844f7284635ab148,
   0x3006f50a7f704bdc200dd5860cac50dfc60059d9e47416db2011a04324d3cbfca9f4c4205a69f5cbc420434ee00ffd90ef9fd13c394001d0668c2c1eb3d1c03209b22aaa928251904379d8cd34ee830e60629cd70f325a57eaa0257481527d1b33e3601c02b0702003682d804462f411399128678022c2e5eb106068cdc066c8ee924da674d5c005839cfa1553a061e8,
   0x352a48906ebcc9cbc010d8d6b11dfa5235805d795070edb34f1ee0407b9150932e06d92055dec53bad1dc63b800b6bf3d3e881850c200407279fc5c9c015003081d23f053979f7a049e828d37dbbc073a0620b20a4fa5d8fefa02b4aae62ed9e6f33e0183da2e540b218b3403d9a95e1e896667dc02177e96ab6dfa90a0067bf1813bb02b5f8000580ebd886a676b200]).map icosaRowOf⟩

/-- `s2/ahrens_beylkin/ahrens_beylkin_792.hpp:13-806`, `809-1601`, `points` and `weights`. -/
def abGrid792 : IcosaGrid := ⟨1088038139645896000, ([
   0x31fb55b5d6667ca3600370b0e19952f9af0048bcdcf29a419546a054b6a04446376cc60058bdbffe9663b4cc0019a57645bca1919c800290e1adcfea0bc8e025f8a73269d81001a03365774b8559f2f4105700910dbe93d20e401517f4f2a44d0296201a854579860a7f82a04d4a5e45b29625d3a034cba81816eb29af50673db3891a9a620ca00582a44a4f2c060c38,
   0x1d09ec564b10767e000673f2f102b77f41403b2617e461dcffe33052994862056643024063fa9857fc9b053ac0300ae22cf19181ab60055375c265ec99a0603438c19b3973e5b4801edcb54bbdd935b180558c8e8614f9e7d6a00a43c3f901eaf87220312b5f5b8e5c66fe2060ed36185183880b00346300b85315e0304057899698a164a35aa0057f069838184c25c0,
   0x2107ee10becc6162c0055eab6ca85d06366040729157c767c1dd40520f2fcc25307ff1e062ed966c635fba8900296cc904ec165d95600308b76e4670ffb2603216782b45de204a3024cf7039de68fd7b60582ca5f3a6b92107e00d457f1847fa218fa02bc2bd034e026292c05c99db446b83fc5c60326e4784a64203e7605c4bf77626b9a1cf20058112efa4a2907db8,
   0x25ab56b265982e108004f5ff4c42d8a4ce8045b0dfbf757972cca05133a50fcc957ff580610015dc612c31570022bcc968578bc781400183cfa6c9805e06602fc04b7ade2637ac202b3ebeebb422503a805a393cee9477ea6e4010fee5b8791b2f4c60262ef90dd0e40fd000576ec36f53ea0b018030a2617477547dd60060aebb217c3052c22005820c5a10e9419eb0,
   0x2adbc7f210aea12000054eb3e73f8d3a2b204aaa423fff2690b4a05009b30c5c22629a205e2a7f6ae580677f401c39c982123289e6e000e964eef8a97398a02d4369a45f2f0023c031f891829c632c50405b8bcb952ebab4f920155ddd8131f162c6a0209f187a591650796051862e40df67b7d4e02f19001d3a2a15ba20647e2b9e956a534ec005827d77b7fc669eb0,
   0x30699b4aaa95d62e4006816c4c62e51922a04f4c46834acf3dd0404e77eadbc73e9571205a815b17a5122e846016122604de9cd070000147e569680fea3da02accfdb64218a6206038ddc545b0eb4b88005c259bb9c8693961c01a5e623eed00880de01b4bace7d971ff55004b000a493c6b84abc02dc19fb2bf89296dc0678e67b14c2f33416005829a30a49b0d3a80,
   0x362152b25653cadfb808a07b3bce56b99cc0538d1a7dcabd5302e04c647924e7af5f27c056221f1eda295a32a0106d3962f1f72f708002a323882541860760288cd0ace2a173cf603fd252cdcee01f59005c12d0f40950e5fa001ffa74582a203a90e0166a91169b0c617f4043ffdf88929447e2802c84c9924d524b3c8069bbc9f4ec8e122aa0058270123814178af8,
   0x23af054de6b7e36ac00822bcea8ebaacaba04bf3646ff7df8892404ae3c92359682c542062f42885cbaac9ace01fa5a1c110d2afcfc00056fe7f8495d84b6034e11bc29486d79100304c33b9dd3c2df5405f4cb5fa5a114cc58016149941b696c0dda02771602c1af785b6a055846cef521b790b0029989b41cf5a55758060a163e58b6914e6600582775fb1f9eabaf0,
   0x291770cdc0058e9ec008d31b92d259ddf12050cbb96b8c2aef70204994be2c8a823a60805fbb3ce23f2d06bc00193c7937bafe22e380002552d505bb802e2032588ec74ba845225037225ce73f7d23e790604d7303d6982e7dc01abb4292cc07cf9e4021ea41f5879c80a6804f4cf0107b21443c00282add94466709a5c0642aadea50ce89d0a005829c23f998c11298,
   0x2ec18ac2f5cf5b9c000a5b3e626ceb191aa05531c471f207e642c047e49527b7f0faf9605bbdfac77f3eb0f74013519c8c1745ba9ca000efa715de5395b7602fe36f7c264b288b403dff9408f3cda706c0608e35ba4486c840c01feba1da0a7cda73801cbd33d8a5dd3c79404897bf23fed0c4e54026f7c067c7e054954066e08febe41a3fb58005827548cd8147d6e8,
   0x3478217ea83f33c1900cc67cbb030dc3bde0591f5305f98ef598e045bcca587d6c009600571fd53414f24ab9600e0829466bfd89e24002b1d14abccec1f6002db0884152216e774044c7bdfa21f3554680602112443d5f231f80259b5aa2f07f160840181cd4b6b23c8baa20418c21a9750d6665a025e62d324c2a7db7c068a653b0b11c54a8400581f7f0b20b651260,
   0x2d1c98e16d37f962400eedd1a59fe9c119a05a71d9f46a919227a0410f723d5f44e5fee05c68969c71597f39c0114e6cbd5ae60faa8001808bfc6d5c8407a035209e944b649f690042d6386564e3ad44a06436576a897dd6f34025bc9c43120f762f401ebbb2668d734e43204603aa6eb3682d2980207c2a29ce32ec1da0654b828403f7d69fe00581f948a60cdff8d8,
   0x32b4f187a8bbbdc8f01188ad619de02067605df9d497c26df2e5603eea938ae5df12d1a057abb628b9674d7f800c74fcddfae79046e00392ad26431ee893e032fe99dc9168cd2390494bcc651614069aa063776ea3adf89217402b56b8103fae3b79401a6afd1955a8c693c03f1819657da7462c601f9eeed0588657074066ae9e74e26e6430600580f69f2cdb69dda8]).map icosaRowOf⟩

/-- `s2/ahrens_beylkin/ahrens_beylkin_912.hpp:13-926`, `929-1841`, `points` and `weights`. -/
def abGrid912 : IcosaGrid := ⟨1439837438519628000, ([
   0x2f1fc224e4b65f46c002c7569a7e5626824045cf2507e0c50d722055d46cc49588c8e8c05a7a9bbbb0434467c01d3d73cb199a1c6720029ca97c35edafe280270c28a868bacaea002f64cf5b5a108289c056442719534b62cb80123604d650d41bce001d6820e96202948d8050d693fca98b0e0b4035f0bc7750847dfd50656dc81eb06f365ae0057ffcdd10946bfea0,
   0x32bb86e299d0fc44c00480e3a6abdcf89c004b8fcf163fc39d79c052ac54a6b88d3b4e4058799113c499092a2017509ab8a09fe7a680023f03274bcd2cf04026c4ab0caa9761c62036628d2a985ef10d7858953b6e172afc14c01799088fc5b22bf0a019927b3800afb352404b47613f1ab15ab640328ec365c750ab336068065a0f32723a4ea005805175fe116844b0,
   0x255a70ac9d0ef074c003cd737c6c467fcce040df0c6503e28d9d805473782bdf028b1da06058889e782b9df8e0266fc8ba3ed19783c002e3d065b4503db0a02df0326d1e937f4c6026d4790c7bd17b426056d723a275bb5807800d8d131cf2542b4e2027596bd0f6c7db26a059c1c202505ffb59c034bbc14de71c1559705f1cbae31d0678bb20057de755349354b4b0,
   0x28b9bba25ad701c8000443a9175ab0acf720466805b56db7cd0080525a1f08279f8027e05f18e121fa35a02580206a4f795e2323f3000189bb9043c3dcaf402d26c08b8f07ad1ca02d230100b4ec6d23e0597d51ed98a1ba450011bbf797eb9d09afc023243d00750ff12da055165d96e03de4368031cc844f6bc9351950628c5b0fcf78ad2860057ec56d8231ee5808,
   0x2c021b0e4515d30d4005a00d199d8b09c6e04bfc445a6bde5be2e04f79d5989ac9a5cee05d7c28ffbeac7c7fa01aae4ef7fb426373e000dd275b833e1387202ce66c6b9658e6468033b652baa142e18ef05bf0f3031143a97ee016a3a208293dd0f0a01f7134b6158f582d005006f14a3de2efecc02e81920169b1928fc06540504540c961b1c0057f89ef201a11d108,
   0x2f857df7cf1c380de007bf8961c7a09eba005153887645c0c97d004c2c702248b1355e805b3b4e975866916fa015426b8925a257666000ff22a80442bffd402cc50e4b5a289029a03a721aa41fea731ed05dd973885cdd508bc01c1ce1708424eb00e01c02d242e90037a9c04a79128ee73e38efc02b492d017510651620674a2eeac893606220057fc59ac8b88b6508,
   0x33505089d05137e4000a7a086cc714d7fa80561cb086d71be3c82048bec3dce13c04c52058473db98cffbb4a401055aefec67a0ce64001fba733d175b635402c8b7c788e35f344c0410e88f4b446ae16005efb5d80bad09bd20021e28e0ce2b2f9fd6018d41037bc192eab80448fd178bae2f6b10028779142e1e92ab86068a5aab5f279488d40057f445059ebf5fda8,
   0x1bb5311ff77c7e30200758ae3ebfc126e0803c8c07e4fdf2b6aee050c3f97479b30a6d60650a7ed5bad3560ac02fda5a84b98103c86004f03f4d91e76f2520362d6366b4b5dd77181f9a9a1ef08e1b95805711d164a09e5f8e200b467d84c9fb875aa03242c975e75abac070611fe4e4ed78331ca0325060aecccd029aa0571a37abb1c7211c40057f103d9839c226c8,
   0x1f8a95215026f2f54006665b93469615490042006c1a967cf4ebc04ffd16a5cc5a7972c0641934321a4daaece0293b126b8f559ffd0002a1464a9b1ae5c9203449c6179b051dc4e025a41eaf4a7098970059dbb57c721f4d0dc00e6be8b76bb93ab4e02d0027b43ad0cf7ce05ccf95ceba195a33e0301c401fcb94fa5e405bc7b9129cf8ce5e80057daf0203a2497760,
   0x22cf5f645e2eba1340069282890849ab99604753e6862180ddda204e32363bfd1e3bd2c063037d0354ce5f15e023573e5fc951e00a00011dd6739853f91c40336035de97396b4b802ba33c581b3611a6205c7abf452a1b45e2c0123bf34bf3f636f66028cbea753947928720586f3199f6dc86edc02d61ecba08d7486d205f50531458c079ace0057e32a49f4a467690,
   0x25df93119004c220c007b72ef62ab16c7c204ccbaa0e2f11a84ec04b7be2400cd1dca88061a7450d010474d0001dbd26afab99992280004110bc5aaf820a603328aa5565d740fe0031f235dfc92e7ed8e05f04a34815fd86436016d6f11cc3e288d280253344e97b9b851ae053b1dfa116c8b718202a2326df8cb4e3e4206211c2a07604e4f740057ee0ce86b90eb3e8,
   0x293395d8862f04f4e00992c5aad26be0ef8052160995a3b3ee74c0485d3944beba6248405faab55cfeb3a0f4a0185e6657e97ae9f0a00023ec88b77f5bade03307b15a0b40dfe8503876e44a8e7a0f96f0610f60d8e1f1f11a801c042c709554aba94021cd3f7a04676daba04e70437cf7da2cbc2026f27b3bbd9394e8c0643d792c9c8fb243a0057f505c4c83cb7388,
   0x2cd61eefe732d3e3400c1927cf72541643a05708ea724b24f112c044f86692c1e02094e05cfe2f464343d486c01353f307f967f1316000d4f8a063de9e7c2032e18d67efb94a7c403f10d43f87de57f8e062774b1171011c720021a81964e924ef8ee01e98223707dd67724048b4c4155b67f12ea023fb145e25331bea6065cb8757472671a7a0057f86bc9372b49308,
   0x310436ef31e1b94dd00efdae6be186d58b605b45c0e0330498142041cd8fa09073a602a059796e557f0f8f3fc00eb415e14d4764e1c0025853d8361786f460324153139ab7c34480457a5cf3c87184fe0062e91038d272c15b4027684b0aa33d7d81e01b597074f8b6b4ff6042918bb6dd0e7f740021bfa3a92f4ed33e6066dd86d2fd999c9020057ea3875e895c9e78,
   0x35d34156c5cb0a2ad0119a0b353615a779205e30b69a484e7a68603fb7c6ea1d778db200552e23e831d85d9aa00abecc1a0fb8abdb60047bfa0515421aa0a03092656fa20f638d204b0cb8d503981b20c0620f4f987c182ba7802c76e6f197b1f3826017dcdd4a308c372d403c789bc2c055313ac020fc522f88118ee30067b2b3d69fe76693c0057c7b0d36503860e0]).map icosaRowOf⟩

/-- `s2/ahrens_beylkin/ahrens_beylkin_972.hpp:13-986`, `989-1961`, `points` and `weights`. -/
def abGrid972 : IcosaGrid := ⟨827670424315990600, ([
   0x2a063eff6d70623a8002fe6b24f1e82387804323632e11ee358e80556a51313582afd1c05dabf50da0297749a0220466815c44dc0d80028bad10572b3013802a749684cc32fc57c02abfe74225175d9f805696b78887e6a1b8000f794690a33ac5a20022772495f701d28ec055ae831ecaf84d80a0357c216b0e37a3d7b06257eab18192456040057e2c298e11c80190,
   0x2ea2c4a9b68158a1c0037c2b51fea2d099c047c4ff4784552c9de054209448965529bde05b20649b619b454de01c1dd1eb71cdfb1ae0020d6830a734fad4c02866c63f9a5f75e7a030f433b3f20ae429c057e0c674294c8dca00139c9dca65ab85ec001d8c950cc93bd0dfe0504633689077a0462033e45aa38a551402d065afc9e254cbb65bc0057e74f4799bdbbee0,
   0x33840a6ef908dc3d9004b72e1334bad5a6604c28c4a93d6e42ce605271e41faed44ceaa057eb78204ce18c35c0168160a73c4ff20640025c6abf954086a0c0266cdc85bbbdc1dc20375354eec6fd5082e0589bf1f31c43119520184f65bb0cd027e88018dc23fadbca4292804a5abf956cee0cec2032667f2df7ea2be1c06864df1b2663efb900057e89a1c5548a9760,
   0x1c7085076487aa4ba006bab5af4987c766803ab40f13166ae93a405269a627a7274527e06430150d11e9909c8030c9b51425ac9039a0059651cd3a65800e8034b5010e9592b67c601e499deb75a5c34680556722edc767a57ac00a1497328af1c85e6031ee18f634ced6a74061692cf4b125b1b1c0345cb0c9b4c087052056e7eb8cf7b38efe60057ad6b83dbb942a20,
   0x1fcf926f629b8e21c005bcb0c0ad0d3f1a403f8eb5336537a0192051d48740938a09a5406374de1268f1350a202ade5c5c31dc13fb8003662fe06e11d98e8032fbc525501fd4e7b02397f88c4d3a5cd38057f36e3dbd243f69600cbf1b660d6ad9a7a02d34dd3c70d77987405dadf62989a8da6d00326d6390db3fd100205b2d72c632e30b4500057cc51d1818c72ba0,
   0x23bf427c90e88af0000544eb2024b83ed960447202b3f402bf4ec050fb2aca5b9df802c0620430d80599b9ac4024cd2e1f985c8538e001cb07dc30fcc66aa03113524a6473597000295f20db69e5ea55a05a14ec6d2856cfd720100740e25f20e5b960284711638c17ff2e405937eff12d3e5ece403095eb4eece1409a605f3763d089c215cae0057dc5fbb28f593d10,
   0x2828102a6e9362138005693b64a5475d5340492e452bb4a0a0f9004fdc7a7ef306d998a05fd76bf4068bc9f6c01ecf42e4e129bd978000e7193e134529fd002f0addaae5f4874a002f737d7eeb691700405baa09fa01dec0550013df94bc02072af6002351650b732bf0edc0541df35493c33213e02eea5c594908eb134062d4f5fce1c8d90b00057e48e6cb0b2bd9d0,
   0x2cebf4c5e84f783a60063a11a3ca2c3800404da9e2168273b1de204e6eafe4e1f74c21805cf6b8924f92d0a2c0190d691b3cbe44304000cb365f7407272f402cfb008853e068a30035b668c4dcc13fdb285ca7ff282c8e251c00183f4ec8309c3786c01e7c445f92e3537aa04e77fc698e95bd01002d6b55aed16cd7d68065e2c84d9e8c5dffa0057e7b8d58c41e8e40,
   0x31e6c65ce968cdfdb007c4adcddd5799210051d6a79dadc56878c04ca2fee7e0df1d8760597455a59a440eafe013a949bcb38ec19940017e0371acb83380202b0339c5b1bd0957803c0e6a088c8e99b7e05d114cefb4a44f57a01d1ee161949efbf8e019eff418e42e28c0c048610ff8ccb52e19202c0e260222b8d3d0a06843dcd7c8c5e786c0057e6f6936e04324c0,
   0x21b84537a28b8a38e0081a7edd302d243c004a0933d2128afe99804b4430c3b3a48193a063f7893a282f6c4e60222b082de220250fa000aa0ffcffbcb7534035dc3e69927df15d502dc1b5378b66caed605ebe0fa3ccf030b780147d7a214c6915ecc0299b770e1290937f0057b6c1dea8420f43002a2c59addd035f4b805f179ae80050e02d20057e3334320a8818b0,
   0x2652a029d3cef729e0088a37f3f083f498e04eb76a2cf1a5657c8049fed48f948891a1806178a211c752467a601c370126916496a4e0001979518f008cfa0033cd1057f1f79a9e1033fac8b0ca2b4ff3b06017bbb8ec6850aaa0189b19d0bac752768024a7bfc8f2e7fe43c052535182c842a9aae0288da126cf82470f206280750ec04f571e00057e75013f340712d8,
   0x2b36e045a5a1ed034009a3ad3c9b41e53760530ac07c9c81b562c048746c8a29202cb1c05e4cff85f7d4468500169c0003a4ddc83920005679f5aeb50dffa031bae314cd3789e7a03a43bd34971116004060ce7cc0071c2ac3a01d2b70c485582362601fe9334a916a9dea404c7b4fbbbc0758b2e02728ecbed46f779f4065496358ffc3421480057e71927fdb9c3ac8,
   0x303d88d230243ef5e00b701eab3999a6140056fa0191e1838479e04695e3cfcc684ab9005a8d1b548a76926dc0117811df01177955800160f47384135135402fc77051fe319881c040843d22ce95c712c060ebc258206027b4a022252c579fb835af201b873c16b69dce3440464ce71942e2c8204025ef155d276d17e320675a1bb3e80d2f32e0057e2ac78bf687f3a0,
   0x353bb0c378a2648d900df4fef3ba997f08c05a81cfd14cc737d66044533e46ad5724b8205657e8fa200443eee00ce5134955d93cafa00331bd5e767ca3d0202e171e4014bf21710046a5c9e40a4ea35fa0608098fc83203dff80277dc381fd653ba68017a854de99f617e8403fe91f98a53b38df8024cbb08d343261f140689f446a343fbc8e80057d9a3ae52869a0e0,
   0x2e9b74166e1ebf2ee00fac189f8f8d2cd4005b91ef48d3e2363fe0405bc6b22244672ca05b2cbc2fe09323b4400fe0bb31ced21155c00200c0751b04d2314034a30b21aa41b199b044b982faebfd0cdae064252dc114ab0df4c0275ce61029086871201d8c135c435a6bf8804415c46a79abdf24802017bac9480052540065b7ec4d3047fd6c80057d9e2a15c56299d8,
   0x337d786772c69f1450124982c487170e5ce05eb7c64b5ccfabeec03e2d909a9299db98a056e3c2d932bb9a6e000bb2a5278734efd620040dad156dd67937a032f77beff3f408cae04a8551981e8c7f6c0063713f7a57a051d8e02c8fa9b304c785266019ee7ad6a07584fb603ddac1bfdf3d169e801f2df07d1a18c06ba066af8d38298ae90e00057c94444c2536fc38]).map icosaRowOf⟩

/-- `s2/ahrens_beylkin/ahrens_beylkin_1032.hpp:13-1046`, `1049-2081`, `points` and `weights`. -/
def abGrid1032 : IcosaGrid := ⟨806634668462972100, ([
   0x329a545df9301042f003493706fe7da4ea6048718c59587b023000552d5a2fae7793e680583995bf6c3bf4e2801986b265385b82bfe002c7bbfbbe9aec7180254d0318a4daf9cce0336bd5692ae61107d05680564620104e5cc015037ea751374d1ae01a082d70783e3cbf604cf4c0173f9f364e60356448a294289f141067691cdb4113f48fe0057d70f297d69359a0,
   0x246a3dea02e61465a003e3e5fa2e085d2c003fb225296bfaa9f32054ad8916bc1887200060b2a67bbc6d03566027e241728dc9187e40034233553623b680602e60c2c82496c08260256fdfdb0fd596a8e05654ddacc0ecb195800cbe8ed0dc3fbeece02883f41785adc0b0805ad5d7cb1d8401fde0353027bcb8ef1de3d05e29e49262349299c0057c7f43119a88c4b8,
   0x281329c57448b9168003eb8aa9734be0146044b233b7b37b1aaa205348d91eaa921793205f4467195f67bfa0a0220491b3fe2e367de001e9e1589aa8f9a8402cfa28150cd4fe2e602b5248e5d038ad09805889a18fdf24f06ba010664b62884574526024063b04d6d11b636056507a092963dcd5a032f6aa8d69eeac0d0061c54328982e923d40057d07ffd2a2fb8f98,
   0x2c23c89fe6e95d9980048f402089763b7600498052b43cd8768140519ee9ee115f7d9cc05d24cc03711fe3f2601c4ba8ac73804ee0200148d5186b4977fba02b7e427634b77f686031705f66ae8f507df05a31ebbcf73233866014935e1ee2434e7ce01f9213b491ad125a8051389d41ce1576e48030e932e6fe38acf48064e972f48859541e00057d517dc4087422a0,
   0x307e68506ef8c39e6005dd1475b571ec7fa04e0e97228b8002ec804fa224e6feb90856a05a60876fa0ead7612016d5f9d353a92bb720016835ca6f512e6f602a07d237907e23e0c037b45fa3b918ed6cd05b4cfae58ef9ef23e01941033f34f2915be01b4ad87e99c9eb4e004ba38db6aa369ece602effd25a7bbe774300677af25bc45a69bc80057d671c57621bdba8,
   0x34fd5afb8a217f4b6007e15ff585738dfd605254d0801d6fd607204d4100d28188dd2a00570d6105d9d0fa63e011c0ccc91ad9060ca0024a73b05ac4067a4028b8f74d9965e861403e08a3288a8a76cce05be33544aca15a0bc01e697a82b2553c81601757b90e45888c092045ac22c685f39e0bc02d2a8180c575a91ac0696007a4d91a11aa80057d4d9f3b854acfb0,
   0x1bcdd961fe08de32a0071c021260c88fea203b010cc3bb7cf84ff051c22b6836f8750540649ad3e772319d69e030fad28adfbf45c4a0058c45abb6b6df760035810c4c0d1b8d7b101e54a2af90d27425c055d8b11c73d3bb6c800a5788c1ac553702a0328a8ef189d0f6adf061a4568ceee706eae033af006033150af740568d6e7e2c96ce1880057a16cf481c4e7ef0,
   0x1e86377de9bf9d7f8006763126bf78f8ab4040198c1bb112966080509342206925aeb260644d7974fa2ac372a02b4c09bce59c22d660035110981f7fec7840348de0edf3c51c44f0239cf09d62e102444058cf1bce82401faa200d34d3060ab3e152202e712a4b85952f09605e30c2d28bfad7e4c0311f108e4cbd39dbb05a77048e5459a38c40057bbe988c5eeb05d8,
   0x21d992199804f1cc80064133ce7dd53dcce045314f96196590a8004f3954300ff9028620634a1834d1e22ad4c02573382f921cd0dd2001a165776c123a27a03355825589d8c7b740295502529dc30770e05b5492c0277a1bcfc0109ceb5fbf992acfa02a130686a3dfd482605a079c65ebe936b5802eba5974c0208a5ba05e34da18637ff4b4c0057ca48cb38e60dcc8,
   0x25aea89d42249afbc00692f6b27ed86f35804a1e884570de4319a04dafbea5f3a80dcac0618d3c66bc11a696401fa59770c1a2be5420009c1ad1c8bce7b04031ea696b750b757da02f552b11e6358de2805d4d1cfb4dd48529801484d96973bc8ac9e0259c735177be45d960553f464cbec4782a802c8f473921cdae9fe061987d3d9ea7af5dc0057d1f6d9431f4bad0,
   0x29e44e7b295dfdb340077d23e49f4317ea204ec9f65765f02607204be996a4e952d4ed405f21b869ca995b64c01a0c024cc0ba5716c00050daa6dda4ec7120306912a0a3fdd1c840357f7ad9e5f08a30b05eb10c4167838b360018e507507db672784021384b8a82588109204ff0f153a8f40aa5a02a9a9d4f094c122300647dc34e8964596dc0057d51764d3dd28f50,
   0x2e54b1abf20bc37020090d49e5a0d71c74c05325d629fe89bb8cc049d716627681cbf8e05c1b1d0dd789bce64014c8b4e6c3bf9baf4000c5ce907981863f602ef29d45b282395b003bba166af004e09be05f83f6769bd080e0a01db5db0cb22ca1cc201d10303beb15336b404a38b004101cb6f68028d064eec7e582d44066c722deaf2ce785a0057d47464beaf67ac0,
   0x32d6545c3a1d03efb00b4ccf159809da2400572a795521fe827ec04767a7f31ed79a3e005893e8b87721a680800ff98ca019191d4f8001f9963bf7e293bd202daaee20494ce0a48041ecef9c7983e085005fd17c0cfe65bee7e022ee45e3540277c280194cc579b94063b6604435c011e715299260271f2e6d8677c1bd00685c579a7af77cbcc0057d02c0ea465bffb0,
   0x27a658e542fd4be5a00b01e218a934655600538a4bb4966dc416c045ff579810faec488060a78f366b523bde0018694c91a44b240dc000180a63552354b1603573a7a14ea8010cf0394ee12a4844bd7e806291b7926a53700ca01d6c8c6a25b277418023532446f85c3639004e870bdc15066f5c60248d4168c0972e67206353d99ee18a105f40057d4900f2544b0038,
   0x2c2073d5b00c72c8e00cc92d491c36a355e057b15d5a90d02e1e0043dda222a5f2a053605d6d3348c49f518b00135ce62ddb928b6b8000d7032fe7f2fa9ee0340096e41af75444a03f74aa9f9bd30b8a2063240305c5fce35240225296dcb2e48736401f4f10470fd635a92048bbacabb97e32534022e192e3da18073ec0655935cf70e42e7160057d0af7e8ff7ead70,
   0x309700e1cb2c3557e00f3302b30e2c7501c05b6e04a6fd77c74f40416c894cfac3e790e059c390033700ab80a00eda98869aa2b9bf00024d975e3160497a6032c0c9087f4e8193d04574cfe0df691328c0632fc3a0ebccf0e9202785d25768f970c9a01bc003db776ee5466042c2cad62f211044a02157faaeb1a1c22f2066a4c446325d0ee020057c84a8628401f578,
   0x34dcd6308c260de5b0123bbe6931b7119a005ebd322457a0c0a8e03ea291f4f7d380bd2055d00efd7aff7d81e00afa52621ae6e038e0046c67e86396a31e6031d603b8e6d7f0a2804b35223170c1108e6062ca3476aa8ef208802cf3d05ef558c3c74018c9a8e2e9074eb4803cc3b4277d2edd1a801fdd7dace1439d30406729fa6b8995a16600057b9c07d2cccf12f0]).map icosaRowOf⟩

/-- `s2/ahrens_beylkin/ahrens_beylkin_1092.hpp:13-1106`, `1109-2201`, `points` and `weights`. -/
def abGrid1092 : IcosaGrid := ⟨719697648997412600, ([
   0x1d049234f32aa7c6400654e2a3b46b8e674039a2ae0d6cd91ac06053727774e6aec6c8606396bd50bf1326cd40313d6266e90681caa005fa61bcfcc3b5606033b5d646ada0144a201d970246ca3ebf5080545f686d756ab5d2e00967461ca3be30bd003197e34da0ae5971f06178ca57b2216b7fe035a3599beeca889cd056df5bd48da94225000578fd31a45a2580e0,
   0x20e796a73b7a7c9f6004e390f32224bebce03d6ffc598aec65fac053ea138f7fa30d4cc062572e5fe282b003e02bc6542f58865fd1c0041c6bb3e101edbd003104f5a53ec8cfab202229d00b384fa05b0055f37232bd9b038ee00b569e5fa60fb231202c8d796e99a930d1a05ddfb2293d631214c034f39049c9097c1d505b24463b44b0d34780057ac50a7f01657c30,
   0x253bd5a0afd868de4003f28b5cfb85e32880415acf25de7379bac0540e1f4e5efac27ee06084fde01f655de92026266cc09b05d9d68002ba7c2f205994bec02e41bf8f550ca111a02734c1cc7c6ef540e0573f1aa806bd9d4b400ddf81a738ee6e7980275e7bee763228404059a1ba3f408ae39120343cdd81f94813c4705f3324c6778f9ab300057bb3c7f31132a248,
   0x29eb53619aa45112200396880c1faa7c806045366b2a02db508a4053dd6bb8a054f022c05e19c709b750109500209340b88e689fa4e001f4e74c278a56a8202b7a8568111bed15602c8f0fd82abe2a60205822c8ef288eedc26010f588c8648708b9002234e1788688c57d2054d4231a2cbce7762033920d3735c4c68af062de0d34dd51a0ad00057c2d036d3eb7d3f8,
   0x2ee66986c7879f5ac003d95f9136ddd4c6a048e4bc7dcb57cee8e0535a358991ec7de5205b13fb69b5b7643fc01b30038991d697c3a001ddd8226a8bd0776028b7914d26b69a8d00321b9c876186c48160588aeff8f83da75b00148ccaf27004ff60401d2b8af85e289d99804f87f514ed29674c40330096ad2bdf7b9cb0660928599765acce00057c605af757d05878,
   0x341a533e8f3e3ebfe004c3b624aea4c867c04c554634e576c4afe0527ff0b8bcf7b5ff6057795fbbc09b99190016161a06024aa5ac60027ebe1c17b248f88026074c32a961bffa2037c65a41fb67046fd05870efc4c012fc3000189e3aa3374a6da860185b120e993d251ba049cd2597b076fcb3e03289c2aa59b5da5010689f6d3fdc8fdaaf40057c6a44f1ed005220,
   0x1fb7707782d33ab64006a287670332f2a720433976edae9da163004f3dbfd2dadc13b6a06437905389c580a5602839fb2009f25b5d0002434b621b7063c58034a44e0cc719d3c1b026ca6611850ae084205aaff171c4d64866200f46f8a2042f63a1e02c993724f1b4ebc5405c2c796bb460991e202f22d413c3a6fbb8c05c416d12c39b1519a0057b896676b7716c60,
   0x243b46d4e6ecd4fbe005fcb3f3f851adf7c0473db12d9a90f5db404f26f707b1ee963b0062211fdda94a85ba002284f736ce2f2b3c20012032b3a0199f7c0031e80a23dbbd94ea402c18ed8a7946100d205be11efd9c7fe14ea012281a3374cbf5574027617877266739b7e0579a8e30f3f42a39802e5822f83385636820602ede8786a0ed9ce0057c165363774fecf8,
   0x29187f07a9e81fb6c005eb26eb01978505c04b0f17be622bb219804ecd41f39ed490fe605f688793159e0b89c01cfa32dae119cb1b4000aa17bd68b0a8dfc02f1de4d05156f08f803198d90d38c6a5c4905c8eab26c699f52e00158365ce04fdbaf940223b42087a00a8c7e05285e4cb3e47c23b802db56fa83700197d0063a690043b21a317e0057c5bc1f42ff81f98,
   0x2e3aa08adc85db9ca0067663072addaa2fa04e9b57c29dda2e3ac04e2c93fb2faea057205c146c33017d5ba48017b55e8fccce0e76c000eab326a2a40087802c55058c667c644d803733ba9dcce58519005cb15deea847f2df601950413b7a9f8d3ba01d410e705507b9a5804d007516f008b0fc802d3caf9ad57ef71fe06692221007aa2e91e0057c6dfed8001a8260,
   0x3385de39b595bd79c007a7c1fcf7a570386051da886abcea3d45204d38b9a85aee8189a058342d139e0184910012cdaab540224eee2001e4f291e905941ca029a62562cfc854c9603cd82940a7eb34f3205c4dd41a5be3d398201d89b14ee0113161c018907a204ec2298340471e81d11cfb594ae02ce37ea6d3892886a068dd786551fa205560057c58d3a98d88e688,
   0x2352475dcdd21abb6008b06211fc395868a04cc9d715030478316049e94f437c404cce80633aa230e7c9b1ae001f524819721dd62e200041b4673fabc2b9e035b53a951e246aaef830f71801a6b02643305ffccd9211abef168016d5c1ce7cd19964a027c0f5c42eab6d638055465d5ff850b374402890f909ed0094ed60607d5caab96624ffe0057c5ea9c58a93c3d8,
   0x285999ac581bed090008e19f2e8088d2c9c05083c871e97407b18049724eb6d62976ec4060375571a2c6136d8019da149d682f6fa8a0001a5f5a423dfef8a032e32af25d70461030368db9e0d4f8274f80606daebf915084d5001a685e1e65d366aa2022a15471a67a41f3204ff57ef0ebd00f29602801a97949026461c063c04d7af9bedd1720057c74e9ec3d01c4d0,
   0x2d950b6fe282e5e96009adac62f7b43d712053e5403b4fd2a5cd6048ba67454a50511ea05ca11e76673327790014bf3c48c7aa7fc72000aca17b6b7b7801803019012b9908c4ea203c26ae93b3684b3140604d1550a76e7a4f801e5c1808f56f7dcee01dc0473053e343b0204a48647b220da7c5a027a42689f4f93c3ec06669ddd2d444556560057c5d0e8c2cb025e8,
   0x32e661f038685b52f00b1b1ca92df55f33e056eb0238680bf3b34047b48e1792ce3a55e0588c28947b84591b8010158294c67b7fb42001f6131021a9659ba02d717b8fe39b184f6041b242c3ec062c5dc05fa5788452b804d1e022ab4b9ac3d6b7c840193a8c2dd2c7794c60445539326ab0ba18802769e8da1240cf1c406869c6a234fb8c8280057c180e6823cfde78,
   0x2d01f9ba63b22c99a00d73a69849a02d240058bf46d9c9a8b1c3804312739487b929b2805cb4eb3ac3eab5d48012467416e098d67e80011fa9c0f409ccfa0033f2c82547ac42f88040f4788693b37e1e606358ef380d50de6e8023a926ecf7d3dd36e01e9a70ee362f382f20475c9403b26dab0b2022434ae195dd4cf4a0659bf0c08b833b7600057c14f29f9836e2f8,
   0x3249075ff6690b0c600f0c67ef1b034954e05b7d1e81148cabb120420a56bb0021b05200587c65bb746aeb79c00de96fcc08b225f6a002acee25b848955240315303fcc98f939620464e1cb8e60d573b60626ee5dd5280af4b2027f442f906f6a103601a48e9956b6cd9f94041724b5416482f1dc02230b454d63a5509806751ab8e4ecfba7c80057b8c438b1e5fd0a8,
   0x31c77568986e4b1fd013655b8337c29ed1205f86e1417a2d5b05803c5905b9f4dcf159c057f8321df721dcd6200c3dd00d6cdaaadde00404683bb9e5dd4aa03527c3f36905dc6a904aa993fa72078241e0649c17934c52e98d202d557fcf6e3499d6c01b9ec354eab76deb003e6f317f78d36f19e01d53ab1bec4569532065aa1d4da92bac5f40057a933ee37b9f9920]).map icosaRowOf⟩

/-- `s2/ahrens_beylkin/ahrens_beylkin_1272.hpp:13-1286`, `1289-2561`, `points` and `weights`. -/
def abGrid1272 : IcosaGrid := ⟨722704283699933800, ([
   0x1cfdffa4a9756964e006569fb25571ac7b80398a469913129cd6a0537b3b2f31390857c06393a57096afe991403154f382c9551b11e00605f5956178dd5e8033b47b752642f5e5b01d80843a6314ec8f00544e69e1ded15a9ee0095a7280aeacd998e031a59d9fbd4dea07d06184c79b2dbade9dc035b345180c3f1c743856cfb81a7e6d049220057832d4a8a6345548,
   0x20d6bf8c0ec7e575e004d9a261e7b973ab803cf67889e83a5c66805429aa3dbd26d996a062443892f5880c39202c2dfcca11cd219b20044bf06c47e3acf58030e811471762e032c021bc040be2d21c91a0559ca0b33106d768600b0c9f486a3f695c002cbbaebfb1a2e851205e17d60b8fc8162c403550852df1d46a1cc05aea5919df829783c005794a1534c4ad52b0,
   0x25188548ed2f89b34003c622feab88785a40404faa1aa8eb46422054acb5696587d3fd8060653679513c5a12e027027bcdaad0481960031137e217c591aea02df58fca36e633f3c0263d40b5ad80dbb6e056865bf2b99c0e33600d2b184efad237f0c027b766ea3e9331d2405a270d9958e957f16035110e41058d4e4a805ec695d648947a3fa00579b1d278cb45a500,
   0x299dfec249639acf60032f6f10fc3c0ae2a0438000a0ebfbe0b36054f423ddcb729fcd005e0468f41a8f00e74021fcbecc8b9a9a6d000264ceb3cbe3ca22202afe0e5750ec6a43402ae5da01ca3665058057069f7a7c9daac3a00faf05a6f2010ad58022c75f29bbf2d9a6e055cdb9c68595704ae034edee6e450bd52da0623e5ad0f18fe080600579a859aa2fec4028,
   0x2e42f30ef4d62a1a00031f1363777b2677e0468115af804ab82f2054f03d741e016494005b385d421085ef12801d37033a8814651f200246707c084bb09ae02821a6f7c2227403c02fa179733c56a1f680572766bfd4b150c6e01291bc7dc2b7c743601e0fa621f743d9758051265c6c45a754844034d743497e5e28bfc0653b8975d86d7cc3200579530e88095d8f60,
   0x32ef25ec58c7df0210039cbe6c7b75ed4a204963cfac9cc67e96e0548adad9b1a78a204058161070679bb4ff4018b21ac318f036248002ac63b5b03798de60257d052f1d3302496034740cb5bbc5cbebc057001c59dfe3cb008015da69b4871f78fbe019a27579e42e8909a04c3b80bb2e973bbf8034b0e2e462e0b3165067b8e0d8888f68b7200578f5479fc66fc964,
   0x1fccde725161cce4e0065dd066c103945c00425b1c9d1b0156f0e04feb23a9274aeed3a06403df9d0709563c0028cdeb56477cc4454002818061ff7edf7760342be656022e4a22d0260bfe05214f7989205a069340b8bd505c800ea6d35154a19668402caa3b5b090177a3405c8234a20ddc84cde02ff6aa1af5f0f35bc05c1076987c6da5c4800579be8571601aba50,
   0x243a605c5e77d60f60057af1de2d4529db6045ba2dc2631204ea6050516b83f4bbc8f32061eafbd228cc3a0e202396d2bf96e0b9b0400178b3323f17e01040313024029032c2d8102ab6e019d7d21518205ad029ed5c4350406010fd1746dc4b44faa02799116b850e01f4c05853e93b1da77819602fb949f04c84627de05fd5cf9891ef2ddd800579cfe977c4440038,
   0x28dda3bf28b86fb0e00514b456e0b324528048d66cca77804a08a05084e543b925198fc05f53a42e7de8c6c4601ea16bbfeb3e019fe00106bf49607158fd402e328ed798bd4990402f6d16f82cf6f7f4805b224d8a3da56eaf4013a762661213017f4022af60cd6b7fccf52053d0762450ab48a2a02fa65674c1a017bc60632588606ac6c51f0005799e03c4431ae528,
   0x2da028b1e1d75441e005322e29f6cbcdc9804bb83c5717e49b54405074afd80306a7dae05c4f18bb4f2c15112019f45e4c607d45b46001263b443858fee8e02b4b7d37801942daa0342c5bff2fa52390205b0cd60b0f4747906016a8aded8a5efbc3c01e0051321ef01495004f03ecb5ee02e6cb802fa996607810d0b1c065f72281550ca32f200579586d319a8c4870,
   0x3283fb63a65ffde1f005ddec35454081a3004e758ecc3cfd6a1680500deafe27c311f6c058dd332469363a0e801580258ae9a08a866001d558f823a9135520288555abe8981bb180390ab9431ea0d4bfd05a9d3c1ac19b57bec01a151e169ac7dd6ba01988b8c80b37fa5ae049e096408bd61731402faf0bce4d9dc885e0684db01c9ee1dc0d400579393ecbd76f59fc,
   0x237f3bfd7c97b0c6c007b8fde7ae37f18b604ae2ac9a2944f4da804bb2eda96fbb5149e062fb6ab52dc991530020797b34b19e47bd20007b0934a24f5a5b40347e9eef1622e1f4002f36ff782459b14f805ea8a5d72365e77c201527ec2105b5af35c027b76fe7bd86dd66a056343badd52d8d61e02a7e06331e1c9f7740605fd095d321a624600579d52c78154e0f58,
   0x2843359a93ef22b3c0077d84be4abd648a004de7c08a92fd1d7ca04bd97f522f00782140602d112f1f09e83d201b93aeade383b7da00004160092373444c603174cc3fa3e8ae74d033f80a5417cd8d2f105eca78c0da2903eba017f356e5f091c34fa022cfd3630acdd99e405188185285ef1514402a80f4f44200347340638b762efc1ef724800579ae82d48a3bb960,
   0x2d31d4246079486a8007c3ce3c3857b63cc050ac58a52104c512804bc481f535d66a8c205ce76927857bd65b2016f4d3f02e0fbb5f00009e1cc1064164c5802e756db5f7f4eb114038c255a8bb9f6801605e7ab4f4c312daafe01b14abb8616789d8001e1a856b60260cd6404c8c80dcedacf699802aa548296ab8815380663b10ec90fc91254005799bef92a9156f80,
   0x3248f432df316d3a50089e8c0a5bc3f16ec053469566e0d06ded804b591c7d7c680301605929ab12b04a0ef6601291dcde5abfe4f4200194a5a3739bfd9c402b926d6f462f5ede803dac7d46924c0438005dc68bf817aa8fcd601ea5715c8e8dca0320199bc34542e7d8c6a0473300e8ad028757e02ad2409a12c4088d206869e8369759cf68400579a098f685782c7c,
   0x27ea96657d35ca0d800a62196482b20023e052bbf7cb4510b26fc046fcdc85d779091ae060807c30e9b64a7b2018bcb9c69d0ff14f800013061dad01a2f82034accbe7a689a966803898b37607628a65b061fa0cdd37562629a01c99343b2c33b567e0230bcd0d72c04b6e004edf7d56b5ececd0c02587ac9d3bb1e01d0063830aa356ab1d11400579c778f7bb77f110,
   0x2cf59ccab6af1f4b000ad58050e8bad227205561bc3342ee3c7c6046db90730f5dbc70e05d03c3b891951349e014368c981fecc0d02000ac737f2df70842a031a37a5bb4714634503d66332c678d9753e0617533a67affffe4e01fd86604ab06a4bf001e5f9969dab08c3b4049bfe2c6b7d45a142025c5334c150027f720660782f88c6d5a73e00579d82b684c2465f8,
   0x3222cc4fdc3bad58800be09c6e0a2d358bc057d3a4f46b5ba439a0466404a5a64b834e60590f874c99591050200ff8206e11cea89f0001e5190aed13e029402eba5a0cdda7a455404249b4927c686036c06086704b63918a56a02382f4519290e155a019f3a3d12ee7fe01804448d110ea996875c0260ee16b25b1ecd3a06801dfec4bc88601600579d7050bc96e46c0,
   0x2ccb7314f596c36b600e64448510afdfede059c5618f8d58328f2041bbe2ff8b29e68ea05cb9b7b0d7f31ba7c011d80638ac7be7e140014e6cb538435f5a4034e8328822c45b478041f79c01418990fc8063fde3bbaf8934b36024de0496ffbcf1e9601eedde0884e86874e046bf63313a172887002109a0c179ebd0e840654b7ae152a3791dc00579e7aebecee2bc68,
   0x31f793e312f442f0c00f98b47577183c46805c05932cff942fd4a0413b6fda0366d861e058a24f778e859363600dcf1f3b87aaa4448002c1096d2b29fa94a032053a3f3fbf2fd0f046bf22eb7a9c21a7c062daa9eab6fcf7e0602890d2ec64df8a69401aa6ca43d398e5f6604143df7c225f49afe0216e3aa55e36c23360670b39593d1c69bd200579be772dcf60eb20,
   0x31c3251155db8a307013b2c3dca068e446605fc729a80472ebef003bf8ec80b1d4bb4e0057e8d8ae2da57764c00c23e24dc90634e34004218e8947b92f27203565d2dd082fbac0c04af358e77e113c362064ba55aa32ba2161802db2ee83864d7b16201bb517a121b5e87be03e381d72472ba435801d0595d79da8ed8520658a4c7af069073d000579468110acb4488c]).map icosaRowOf⟩

/-- `s2/ahrens_beylkin/ahrens_beylkin_1332.hpp:13-1346`, `1349-2681`, `points` and `weights`. -/
def abGrid1332 : IcosaGrid := ⟨900614829767651600, ([
   0x33134e4dea29ba0fe0033d4d314a23645ba048669cfd7dd880fee05561d77883afa715e057da4a68fe05ad6220194f5fb46f5cc9aca002e8f288131761ba8024e1cdec824a734460339bcb3327836bd910563eaf06f8155cdfc01519c5d7cb1144400019a3ba5da668cc4dc04c9c36da222407f22035ad4cc88884ee13a86792aac83ba98814c00579a8517ed451ac40,
   0x29fb32a90cb207854003664db79e72257cc0449d4d1e7d0c2960e05455e6c1c1727b67005df5bc1440e6f3124020f849bd78adfcaa80021f598d2902eed6202b26401e197a7708602c0c385fa20c32ce8057ade0a2cc3bdd56e01086dcfde030783700223f3de7ee1d335120550eb9de1589add4603424c3f730847504e062bd6a3278a0064e8005793480357904e908,
   0x2d683d0ad9c6162880042ba2aac6b1658160491ca43c30a398e1c052859b5c0e6a3427205c314fd037126be9401bdb4af48ca009dd60018e584bc572092a202a2728cd37e5316aa031a32c59b5524444b0595dd509eb35bffa20147532da30370085401e7895538ddf67bb405082bc568d0ca239e031fada5eea52720ae0656c75ea792f2d08e0057984d8a821535084,
   0x30fd8834a26f799580057c4d819e972458204d64659ee06e601da0506cd1a226070fb3c059f57aa196d386526017023279c4e82ba08001964bce170f38edc0293bfe756f8c0923e0374c5739df24b8f3405aa1a25aea443a7be018c4e7bf319efa92001ae8342d4c70170ae04ba1b05973b792b2c02fe6faa8892960a240679b6d934096d15800057992916d246ec010,
   0x34a38eeef1c3b886b00756a90bbe79b40f6051668b9d23688e8b604e0c9c7fff686410c05751c12099f8c11ac0128398da36309ea1a002359d8087aa1b1a202872a07e9293d52a203cf01c23e53342d1c05b7a354029a787c6401d665f6fe53409a58017a4a4656d00391d804683c50774652387802de93c78d26f153fc0693d5e6f5cf2529c20057973741f9d527768,
   0x21ef241e21056012a004f7188df906bec0c040565f9de881054d0052b8865f72dcbbb440625d9bb33aec016ea028effbb5f2e1e1ca00030a780ba740231d60311eea936e141e0c80250c3a719a16a9eba057c23d353db49e23600d2b0dfbc9e2886a602adc9c3844a87be6c05c1b4d5811805d26003318b35a4ccd5738705cd91c4f957f21014005786bad6f930cc300,
   0x24b94d7646c537bec0051cd0eefc299ed0c0451f8355fb977e1be05112207a1fc01c9c0061839177a1528b1c8023b76665a39ec39c2001a11a7fc38872c6c0306a98b8d79d8866a02a5c1fba559bd3bde05a30a92d6737e31e80108ad427f9414f5c0027331cd4dc3fefa620584c1593a5f4f25c003092f769b7080587805ffbda225578fc3e800578fb4423c25d0acc,
   0x27eef13a08189383e005aea67fb1357225c049b3da7cdad90b42404f4fdff967f2664fe0600c3428a1f919ae601e9533ba05252f15e000cad0f94a38004f202f8510fa8d4febd4202fd873cf7d86d8c3a05c1d3815445e1d66401448e1c85f326a0ac0237909406c229f65e054002c6e80cbcec6c02e4c471850705ac04062cdf0c87cecd00b80057951506b67fed790,
   0x2b621b28372daefd0006bd3905aaa2b13a604e0b18100ef7f368804d5a4505e1260583a05e11d0b4cfc649d28019ac381a01831b8360008b019c8ee2a2c1602e99400cb48a5c93803568a8805332af6e905d9309c718eb157fa018604ffed7fbf629e01fde6f831d432b83004f57002b387f1a48a02c2f3c55a9d9a003a0652f93682a3f58ec20057963238ed8b86a70,
   0x2ef2ab54a280e3b9a0084bd17fe02127e6005219e0885ca9db2ce04b2a67aceb0ea924405ba93d6df868276ee01516b79ae07505932000e0153984736d71402dbf454012aaaf54e03af4817b2a6a7574505e97fa19cea5f6b3401cc42c141b3eaa24c01c8273e13c22c007e04a6c6c0f21e03821e02a33f3873df50e6c60670e7e8781d9e5d7c00579397550a738afd4,
   0x32820d8b76bfaf27a00a546ea186109191a055d365b1d18c501d8048c217aff9dd930b8058ea431b607a413f8010ec7d687a835c16c001c2242a4b577bcdc02d08e80f20ac32d12040607d79a281db19e05f32d2156058d47380215fc02e57052a64a0197ec7dfb53c736140456022ebf50a81cfa0285759bf9a1c745be0685fb3b4058b41a2600578df7b2cee5095d0,
   0x35fa702402e1beda680cc449434e07e91a8059279f33ce56387de04631cc3cbd00ea5ae055eaf7e53d754861800d3f9d558981ad4220032343794b00719b602c79777ac59e917c00458eedad0811d26a805f674f8fc5387454c0261518ff53780a194016e0a31f8c8924c1404052238a045fdba6c026a14c24c0ae8d85406923a1c2c578815220057876a4e8efc4d210,
   0x1b32f5a4ec9d0b4600077cf50267bca123003b54019f154cc39ba0511a64f9acff3aaf4065014bea50c0532ca031231ce83bd1c0e70005815d1fa2a10e88403648773ef29e5522901e684344a3af51cf00564b4a7c292d13d3000a9f9510f20f335c60331eb4cb00ed5381c061d789765f0f525ec033007c0e0ecc59c52056389ceafc6d5dfcc00578e1fa243fd436b4,
   0x1d22290110421a2dc007408588f8fae5d6404072f552f8d8996f204f54d65072031360606523feb7247489ef402bf4412e0aaa893d40035a051756f5ccfa40362eba925790cfd8a42371c51932e92c0d00598af2da36af3c95000d9730bc89efc669602fdac19facafa219405ed005c479935c43002fe62d95a3378fa760599201f5a4fd0ccf800578d6145b4d7e5ee4,
   0x1fb328131004b370a0074b8f8bd83180c6004568bdd459f4788dc04d9c09ab6276c07f20649356bb671767f88026abe438977eec4aa001b3150752bcd27dc035a91c99796a475ef028c0f4a0d23184ee005c4250bdaa184044c010e6092de6d2a984e02c445ebd1cf39c19805b2e98df0aa0bb53802d27fd2003b1ce82a05ccefdd1f68c990ce0057907da7e46904cf8,
   0x22b52bc5a2408680c007b815de6f41467d004a226695aa0528df804bd55b7e49020844e06363ed4b1fe61c88002179c90f7ec8a6dc80009bff983f7222eb2034e6397bc948c268c02e3622355a020d4cc05e7268343092b4296014889c802398abcaa02895df55ae97c8e7c0571393250535226ac02ab4d33e0e1d1934005fc1f8662d2892ab0005793c571e61345c24,
   0x26030dec0c5323c6c00892ac8223f340c9604e92f862714885c46049f19f8b2027cdade061a9849961786b26201c7ee31d80089cd7800019f2a0219276c7c03406676dbf8d0b534033b8207eaf0aad9be0601f6bffc5401f61c018772154ccfc5e12c024f79cff8269655280529aba2b2454c489202880b71b232716c720624ece3fcb91b3724005793bc13a622c4184,
   0x29771a4fac4c8261a009df1e3ada0981d88052ad75f7371fc2470047e89c6361a02d29405f7cb4821bf50a338017d9baab682cc3a8c0002ad76b9ad5bf8b403326090f301febbde0392abf2b489b2c92a06150880e3d2299f5a01ca283b50c16e1d240218e017aa76085f6004de4aced9335a41d80268224d2298ff580e0646048acd2e14f70400578e9c04dd506e898,
   0x2ce49412e85f8b60a00b93c2bcc0a8f346c0565f1f16bfafdec4c045bdaf258a085663405d00b7605285fd38e013acdda65df10d712000c26ad6cc41b4f5c0325eb06f4d5051b8203e657857753b3acd60620feb500b4b48b4e020ebc03fc612f3ba801e7e358c52584d48c049203c7d578df87b6024b4e5693902ef0ca065e7048e83d9952800057829fffa9b6b6dbc,
   0x301f6ab1760c9ac5200d97ef13a29a83e1605997e2533b7d8403c0437f37911fa64140005a6091b0c3d49de0001013b4b86b983fbc6001c722d1d8e890866031c2b716a0908088e0433da47dfcab6eb5e0626e3d9f6ff707052025293b774e877610c01be480fa354a300a2044825b94588e4daf6023178fe13f3fcc0f4066e1503695452543c005774160d0a0e2fed4,
   0x333555b7130a2558400fe76ec49407e743005c73784571d8b065804126fd5e608c81c9e0579bd5c27e203062200cefaa30aba04f4ca0032bf94cef359d37a0314d7ad94c4978416047cf4002a09cc4de20627c5d2192f169d4802969a7e49b2fad9d2019ab1fa850729958003ff97a918249521500219bdf62384c007a206764abf60c86922f600577574f92b940d14c,
   0x3654a5b25e3214401012bef9af75fb3fff205f35d8317b133589a03e703589b6c3060a805483b028d02f3ff4c00a055ccccd04ef74a0050e61c8e720625a80310ce02a804be153704c7b32cc3ef90e62e062475a8a2664dd0ea02e0e704c9c54f96ac017b5f4b35bdfcb92a03b2cc4b1abc32b4560200f3c93e517a6a0806770440d6bf79b9420057852eaa24ac3e20c]).map icosaRowOf⟩

/-- `s2/ahrens_beylkin/ahrens_beylkin_1392.hpp:13-1406`, `1409-2801`, `points` and `weights`. -/
def abGrid1392 : IcosaGrid := ⟨585321267226823300, ([
   0x3310fe8142b3f7c470035e29e5c0fbe220c048c14ba8dca64331005519333d1be0ca60e057e7c08f91fc41f28019115236150497a7e002d57a578e6148ff00251020c78d1984134033ee2807ee1be598d0567f0c51f9e351a5201560fc52a528ec3000199a01c4479f30c9a04c71a18c4c81eea8e03558a0271a76b252b067a4b53832a86f18800578c96fad48d37c6c,
   0x26545ed5da64ec3c2003b8f573094547342041f02611269d42e1405448bb0b089c3988e05fecf97e9e8861e7c0250f8b2ef1cbae3de00297eb00dd5df909002d702543e1ef091be028280c5d2b4ca88780573d7304856b4586000e5247643e1c9a63a0263095a11db2fdefa058ad69dbda4c5534e034621c2674f6e33f706003176e695addf0c005786aacc37cb50ebc,
   0x29d0f3fc03186526a003ddc1682bbbfa22a0460a883f6b431a7680533197c907d7ec3e605e4d0c4f8412526d20200ad8567d360794c001bc518e9b10945b802bf50409e9efac8fc02d437d103be28665c058c590b6d14d74cb401191102040750ed200222c48300de16d5be054845075a80411b2a032c340998d147e24a06306565aad3c683b800578a1277b0cb4ad98,
   0x2d954796ddb78f43600477e5a4d8bc8cb40049f5d3340abe19310051e93c97260546b2405c29daf149b9b6f9401b2ca21a72468ba580016d5e5decdf8b1f402a6bf6e85c97a533e03280f710cd7309f0a059df7358019dc39080152d67e431bf02c9a01e3729615e239047804ff50d6a4b45a20ce0314a1a33d62324b68065a9461d6ae4bfe3400578bc7d04dd3d45c0,
   0x318b9e580fc00f072005910e61f17147c7004dadd175c5246461e0506339bbc0bab76b40598ed7217a3e18ef4016862b05a1e936e68001ae4851c6252a8de028ea1bd5a5d0bf2fa037d53237c3abd7a9705a8f93ab9ff299762019265019c56aeeefc01a68f115cd355112604b0dac61a1a2aad2002fec35ce11f2d8210067db4183c0007bcd200578c3c5d5bea4090c,
   0x359af579204a3378500732c7ba394337a0e051324e2845d076a6004e9035c18e7e1f2240568b667135dc7e9e80122712843f7f42ca00027f2899c94ee53de02788647da941163f603d3675a313aa2d37605adf550bf1d26c07a01d7bad144940bbe3e016dab1a4af73952d0045ddb3983c0efc05802e9a4983d27ea70440698cba3c0e6ff441a00578babf7d104be1d4,
   0x1bcdb5a2e262f856200706e1b5651e8232a03a1af710b6dccd33a0524642ab0f82371b40645e676110439822c031ae819d8513a694a005ee2e0430aeb90780352f7f68af837c9f501d93e50f8896370220552525c8ea2541ffa009d35b6721ace502a032c7354eb98371e2a061f61d471a438fb000346f9a411fab617b10562b700e0080649d000576476dbd70abaf14,
   0x1e44a15f26676916800642dd239d9cda53803e5c17843c49f6552051873e7bafe0f41a0064128bb5f858530bc02cc559d9fab040a1c003f1fff6e0e63bf160341f9f2bd0168cea102203e786ea540ce220579761d030843647c00c184dcd57519246802f163706b766df03e05f092390dfa8a637003276838601f1fb982059ad8c52264c48e88005777fd5ce5c7d13e0,
   0x21287089943460368005d4c2472a5488d58042a91a69903d4f01e0509e6dc612792ce12063474fa8964639f74027b6af69abb22119c0025707f4a1385f742032e64841fabc22ccc026ce85870a546bb10059c23d1611b55eafc00eca58b06b970e76002b3469bc34ce48f4805b957122d058601f00308fb4b04fbe960c205d11be81dcd7dbe300057822130d42a05198,
   0x2473580c6ac722776005c55807b11fb28c2046da48d9a806f62c404f96c7e891774681c061f0b9dd7c64a8096022a83f5ed16e04be80013670ed522c8ea2603180483767a5bc1c202bd36ea78fc36f4f605b85c59e1566b8ca2011daf0193454e4cea02737267930612a2ee057a7981f45201495802ed5b312a0e2532800603b4714739f9cae00057879980ef9637710,
   0x2813ad16508d244c80061f37e2226bc1f3004adcc425ad61d0d5204e6bb357e825fa1c206011f3dc2a4ece4ea01db569c07068420740009cc7d9bff04df3c02ffb621086dbf041a030fdcfe896923052905cd8463290a67b32e01543c251a7737ec8e02337d9c8d2e3b60680534e6b9476569413802d4ba6db7fd9946f206312adcfcfa9296aa00578a5df35a7106dac,
   0x2bf2be539453a2112006ecece98aeeb02fa04ea7e5cfea469fb4604d11f88bd2b8ce1a805db567a27b67f152c018f3c8d74b8e0d1700008fe46359bcefdd802e6c8ade4078018260363e9320022341a5d05dbad5de71ba30d7e0190200857e24ee0b401f50d15d7cbfceefc04e99ae21b7afbec0202be9f4e1580eff1b60658414adf720cdcee00578b6598bd85de4e4,
   0x2ff7b722fe7dff5820083856db710228a7e05238ea4e1581d092604b7b4ffed59d20a2a05ae9614c70e326b1001475107ad7b5801a00011178fce6e4dbe8602cebee7a1c06af58e03b8a1eb11a2bf124505e34956b7b685f07401d14999d36880af4201b9bee5961d2ce60204999612bb6af4431a02aa3621faa30ae5ae0677e709f25405135000578b27967c315e4cc,
   0x34085de39432143a900a0a2bbbb06fb31800558fffe0f53283b06049987bd1b5224d452057becb93b4b3d8fc601048e92cff8d4df84002206004a8534270202b932da19f44ec146040d62c5394cfd41ac05e5015f8bddc7e9080217a9637d7a72620801832b4e407a9bd1980445e52d61d18aa01802967fb3dc540e0e32068f2b204e47630f58005789ad083aba5ad1c,
   0x229345dc564c3f1ea0084e0c15f0d8e76ee04b53af9d1fbee859804ab8eb04d2429702406392b5607f309fa7c020c2181deae078e860007233cbc03c79c20035aaf7c8aa2ae764c02f4a819c63dc6268805f4bff0f106f267260159019bb1a1cc21b80289df0681b7ce50ea05685adfff082a0ad00297e8dedb84e7cb6205fd6d0f42c22df5bc0057898d4cfa38ce138,
   0x2652bde0ffcd2e1dc008d5f127b6c7cf15a04f429b87fe1f36c860497c021b8a083ff780617db0bd8d19640d401bddbca8d761e678e000112cc80aa985f340341dd8377e02940d403482d9e544136ff8106070e27f7a6cc9e2c0191dfea242ea1cbba024a2810883803121e05202598e92970085a02805ada981985f37206288d3f5c248d6bfe00578ad5a93e2fc7640,
   0x2a4448291893b0668009d0c1b867ab4b1a6052efbf4f6cda2a1dc048127d7468425468605ef260462df71d4a80173913271fe528ae80003d7bc4f85b4fba60328d5850cfc3c8da1039c2867a5a2467d740612401b9192306eb001cf771669f56d9d82020cc591a8f35240e804d31610fed6878f42026b78b5c844de8dd6064cc73160f3ddcff800578ac93187ebc9284,
   0x2e4e9996e1f7df53a00b47597933695a05c0565a650aae45ffaaa0466dbc7e0e6ee1dfa05c009465e3d5d344a012e41113ed4bd1d7c000f6d5651f990d01c03112243151608cfc403eff0b634210e0cb40616eb25e82582ed4a0211b70c208006e33001d349528011c1edbc04823055c9391634f60258557e165c5a00f00669257daf6d6418a40057896d5d437afab68,
   0x325786be05c45a5f300d3fec2fb097bde5605982533e8ef60aefe04480c130f6d0032f4058ba4d6920bc5adc400eede54c46593ee720023a44b2969541bcc02fc46feb0b7578c1a0442d0f0efa702347a0615bf0ff057e46e0c02586ce435facacaca019f38cc9605bbb0fc042e96a4775a29d2a602460415cd132d8772067cd4ac1bfe76c9880057865745b750b2728,
   0x3644084397f67add300fbc0bd093f4b1b4005c660dd387e03bd5604242aa35b34a8043c055342ac154dd960e400b65c333e74441eb80040172b6c6331f05402eba6ce422f3a63ba0493e5685e94b8b220060f79191d26123db602a31b6dc8834badaa017205c4db505d49a403d9a1a2ae6efc2e640233b7b6b7489909dc06872ee5b754c1d9fc005780c66daa9273098,
   0x2ca4d5c47f7730cd400ebc5be4b8f5b158005a1cdde4b2a8069d40413cf1a842771b87405cc7f23d15e0ce230011bfc69f5fcaea8600015e04418a1f8dcfe0354e847408f7e128b042464d1e8083b66aa0643cc0a57259c4acc02545187876e8f5f3c01f1e1e428ea10e0e2046978c0b9b89fb2f8020945253c4d21be940652405df2f408224800578674ad923c2bd30,
   0x309cbab6806ef5f6e010d1bce1c5957be7205d0f66560f9f27f3803f4e17f188e3161f4059708b684999eab1400e0638ca7b1726e4a002ce30f97ea78cfd40340c7e9c4950c538d04749806506b3b4124063fe69885615c3248029a7cda1c86814f0c01c09c4b2c20515ce80416dd17ec24e3b6e001f8903ff3f99e1e4a06627b499d2a39c8c2005780a0d1d1afc8908,
   0x346c53392d1d357600135785dc238512db605fae12c18b01bdff603d21c805e0b47ce9a055e7a0c4c1524177e00ac76571258cfd70a004b6c803f81a47ae2033095cf31ef8b3b7004c1771ba1fef9bff20636da45efef1adb5a02e2f1117bd3d65ad801968234950f7c89de03c46671af35155c2801e8aab2cd30c3a6140669a1119a5d7996260057767ea2aeaeaac34]).map icosaRowOf⟩

/-- `s2/ahrens_beylkin/ahrens_beylkin_1512.hpp:13-1526`, `1529-3041`, `points` and `weights`. -/
def abGrid1512 : IcosaGrid := ⟨472264200097916900, ([
   0x2ef335b49b976d97c002ccf56971bbf17f6045cd2f8f827d146be055c31751349c5efcc05a9b3bc03455a4cba01d570c53aa7548b4a002946c134d388d91402732677be032f64b002f4eb00e4e06d4608056571b010b8f29b3a0122bd1f509d70383c01d8f95a9cef8aca2c050f869ee231b5b236035da4f54136f385c80655a7d32f13ad368a00577d0272b6b039c28,
   0x331b5fd7b31e065bb0037e43bcff5e380240491a1c8bc96798148054d60795caf034994057eabfe4b653dc730018ce3277a60fd7be0002c63f6f250b7fbdc0253339f3efd372eea034451eae06491aa0f056b7cab9f86e01230015aa924d289477d240198636c580629189204c3dbcb646e2f986e0350c0ad772b38bbac067ba5a73ce792e34600577dff745ce1cffa8,
   0x1c27fb7ad6bff7fda006c5ae2d31452ea720394dd6a45dee4e0d6052fd77f282a671942063f695a8652021818032132c2b557db6ffc0063be3d44d1c50bb4034867a27d086afb3701d06ee92954ed70f4054663563255e319ee00953f0cae52bff16c0329cf68439a695d600620d1204ce4005a8403556d696074fc13c80561584e91ab62176400574c87d33ab3ec210,
   0x1f18a52497f258db40059d87c6af30d4a0003cc53225dcffd1b7405319f73dbbd1b20c80633bf38079aa1be2c02d7170434998f464e0047934d8af273c990032a3b19962fc4efc2020f1a29a4c27a30e40561747a1701092bfe00b089d50c6486fd6e02e95c33149a28ae5405f2e0518605057cbe0345ccc3811a955cd0059a95fb5d2f2e54a60057638ea3f087c6470,
   0x226a96342bb244b58004c68e78aff77faac0405e17e6cadf9a7b20530214b97f1b39a180621464d291ccca8d00289d03f2ebc65cf62003057c9288554f8c2030a5299d7be5aa37c025413276bf1817c3205799c2e23a233ccdc00d2dcacb8d564880a02a5e15d913688e9b605bcd510e294fad6a00335f2d6b3278cd8ea05d2a62f2841c341ca00577049b8c294249ac,
   0x260b479fbe73c02480045363618273b0f60043f4af71da7f3490a052b2f0a6433bf69d00607a8293e851fd504023c1ec655c432667a001fbffdacc0ebf91602e981c47a4e70e464029d51c76fbb7d0102058d4290436e4f973e00fbae59ee0af54220026194fec12a81952e057fbb638561306d640326bf4d6889a8f51106071d66a57dc89a7000577797cc670dd6db0,
   0x29ed9e937fd871ff60044df04136c19323a04773f48a05cdf91480522afb5a6a19e742c05e6d736b7174561f401efac7ee0b41846680016b39326535337a802c8599fee2574942e02e98e2b20ab414ada059b8f687c681e8138012a9640ea5248c8f0021dd7efcdccde5964053c558696beaf0ec00318a858f3b02fd2ab063692636aa094057400577ba616ef6b4695c,
   0x2e047b6bb0a3c3538004bd234bb9df2a8cc04ace72aef9ce435c805167458a575a5066a05bf035d7d2dbc9b5a01a5b2d4a14b074a700015b70062974c6d2002a778f75c6dc544260337d36ef5526b870205a41b4538c47a8058015f419075d646bb5201dbce08fa51ad861c04f3586f1b11a4dd50030bd0e2a215baa954065ffee8b8b49f23c800577d85c8dd3eedd5c,
   0x3240efac93ab58347005a6dcf818daa3a1004dfbc65deede6d49405062a29dce586f346059095673b450b04b0015f32dfe852a39fa0001d0fa046833da9820287a69be074cb265603875a9794d726f01405a6d3f5e38c64ee3001996f6b49133a65ac019c910f235d10302e04a57fda7e2d4ff61e030010fe10c17895a4068289f4df7583af7000577dd356c0882d008,
   0x1db93235f731d5fea0072c8d93cc02b327c04177df9f38256de6204f1135082cbd5a1cc065046a754940aa00a02acf7b2c31dfc65cc002f6147cce9f080a0035fb2e5b4f64bb8e38248a33bdf59b1468c05a18afa7288a43a4a00e382a6e40e5d5f0202f05f4432f43717a805e0f305d291f5fd9602f64c825c7756195e05a534af99f042802e00576d5b491dac70ae8,
   0x212c2a85405f9b6260068cad0dc2bebc6b4045329374e98ac51ae04ec60d486619264b4063b10934d63374f84025e0388d7a42095aa001a83cff033ad1d8a03407ec94d3139003f02916a724b1bcc74e205b94f9f696fa3b430010a506c626e6f6f3802ac4a89c39c5f266a05a6dc53c3ce5d5fb602e4b4d0e54817414405dc2d70f89c549df80057759e9759a560098,
   0x24ecaf450d9cbded4006509c16726bb3434048cf9ca2ce33e0e1c04e50f1f5565cdfea6061e3d8565b3d49a860210107c8a36142d46000d1f137caeafd588031feaabf07ca5d87e02dd0b86cb05d08dd205cb3a5fba09ddf3e60136bc42cd3403fc0e0267fb2a74ae1f738805664e03e9e54e3f5402d51c086231e5696c060eac4ea5eb22252c00577a8c6ac54a9e574,
   0x28ebd96e8b0d1f334006811c58a58639e0e04c432b3ce9ab8947c04dac1a9087a2a280e05fa0defedcfd4115001c459f7f2458fa0e40007b93c0a8d2b7c4602fec31a9bca4daf5e032aa1a61a8ecc1f0a05d6fe41ba235c6be801688f54fcc9fa10c20224b2817210c7c2ac051ffd56c4164e249e02c7788baa7fefddee063b97c1fab6f8a42000577d0f743920c48b8,
   0x2d19bfb7bc8e9dd7400724981901ea6473004f8454b6709b5399a04cd1e109c001c641a05cef060f6fb47a74e017bf2672446d27df0000a9dfc848e3581aa02dddd47aabc0406e8037959d3c9425e400605dc876df50a01a49c019f86ad0f3a00a2da01e39dec2fd743437604d4b1057c1686fc4602bb9ec28ee4759d6e066206c126abe7b61e00577daed11d10aebdc,
   0x31649a8da8ddee06d008406aad0327702b20528db3c5d2507dbaa04bbb24138de4c0408059d85752fa1b458e80137c85ab9ce1dbfa80015e5edea2c38f5cc02be2f85237641740403c87a77bc67162f6a05dc03cd00bdc16c2001db648f6af356d17601a5e9179fd45bcc8e04853f07abffcec9dc02b12bcbfa84b2bd38068130e2b9a569f81c00577cb7726542d1588,
   0x35b89c343fb96bc53009da33eaceaeb29600555e813b5ca35e8a604a5d9bc9484440e0405669cad17ca8aec2800f8a021d733f5489200297e2d3619aede4402a0e350e8578c1588041776e0b2904845e405d5ebeb79ea320c32021c09a60f85faae80016cc5334e053193ae04327e8f7d78306a4e02a76f7d6dc9386558069865356df0900f1400577a7468a39ddd000,
   0x23e1732c06fb99bc8008c5fb65e462da18004d69270d51cad2116049b46bfd43149ff4c062ed3c888cb5f2b6401e907bed9643e76f20002fc3c4ee194984e0357d6e40ab3a2d437031c63d7d81f9c7bae0602f6defb45c5ed460176321247a057b96402726b38e8c8d780240549681d66e093dea402850ff5c4ae071b38060e7c95ccf00d206200577cd79d61fa84f94,
   0x27fa77baf03c33a5000928235fb122d3a22050c9c478e625dec2a048f8de6357f7b5c7006076aa755f083cac4019e6d1a664b2e78300001308163eca971b40336904274a4c7138c036ac91b622990548a860c013a7fcacc65ea01aa702e15f11d5dde022fbecefd70b2590805009933debc6f067c02783afb29381cefc80638cd92e783ef303000577dacd1a76ff5388,
   0x2c38d7f8c59e5a728009faa1f062d4dbccc053eb208cee6e666720480d9a9c634154ea805d9627e37ff6f661a015805d1ca91dd50040007c5a9a90e0cfb560315b00261ced33dc103b951dfa7348a8ec7060e827f3e2dfaf06a01e31b179b970961c801efea4727b11e29e404b39cc2fde1ba6d18026d983ac183451fb4065c2f17b8bd11cd8400577cb996718b020f0,
   0x3089941c9fa5caefe00b41238153c11e176056c9eb4e10f996a14046eb70d8ff086701a05a583776422f8bcc80116a6ed75d9f4f1000016a7d20a83d3199002f639149d012085d404074d6f849703ef6a060ad5a155456c6002021fe9ec0f358283a401b41153809233a07c04635bb647b40bd7700264a86d21c142bf940677f92794a235da2e00577a022da03a9dcd4,
   0x34d81f3bb2c0a11c300d000d9b13722327c05967708ee24ec5be804587d2e6066bd9d1c056cbad1f2e584188c00daf9ca7c5f21b666002d9fe9c1fa4ad1de02d95f10c7bebc329e04543de7c91707337606019a125d8e922ba20260ba57d3c14d2dc6017d5aba6b9bf917040410b67b96c2c0e488025ca0a6ce72ecd218068b979c722dbfe09a005775985d5d70b8764,
   0x2b6c45892feb95c0a00d380175f5ef61138058013c7a5d87b765c043245b30ec72c287405de03caa48100186a013989ebdeb524db84000d10f62fec64abb0034e274727820c336603f7d710782adb7e160639c78c2365dfb0080229c822f966f609a201fff90d0e27b65976048fd5908b26aa483e022249e2f731c7ddf4064efcdfd841bd866600577a137af33208068,
   0x2fb94cb5c710f958e00e9fa01b57ffae7f205aac601c739d076e00420015a3e818350b005a84c74242937ef7c00fb8903ee5de5b30a001f2aa53831acbaae032ee9dafd4b48d01b0443bc15eaec06cf020632f8014a4ac89efe0266940c230d9349f801c658606bac33e04e043fbaf9928a22f85c021b35504de2f2def606676ac1295d69dffa0057750d6f20bdc2048,
   0x33f88c93762059c35010747b8ae48358f9605d0bef0d49f4f3176040a4f87281ef4d5d2056e67e09015d6abb200c3e4c6b7b526288e0038e2d9a96996f958031252fe620022477d048d7ca3b067046b620626a840a602922a2602a6452fa1aafc2ace019249a5bc93c4becc03ee5e87eaa9792f36021568c06358eb29800677b1dd206059eede00576d6153836c99f70,
   0x332bebfb4721592d201426909287287625206046671b207c0c6a003bcb1b2d5e298baf2056b26424cbf8541c200b2c57178a50042a6004af1b5c29f6e06aa034a32b098d422a1a304c32758e0bf0b8e560644919f6802a825a602ebfb8c984944cd4a01aa3cc4de7819b6b803cb305692637c3bfc01d2f401b010f4095e065dbb89ab8c6f8192005760439569cf1b14c]).map icosaRowOf⟩

/-- `s2/ahrens_beylkin/ahrens_beylkin_1572.hpp:13-1586`, `1589-3161`, `points` and `weights`. -/
def abGrid1572 : IcosaGrid := ⟨-551004130404334900, ([
   0x30e636d9eebaf9b89002c8584a0bbcc745e04682fefab7ee40452056061e93bdc41a82a0594205068def6638601bc90859a51e3d3e2002cffc3d1c130a6be025d493a2d3cd8f04e030d9da0eff0fcbda7055f21dd5bdc2a84600131d318a0e22aab1001bc1646694c7fa18204f2ed5ca4ee9d14ba036422678b589cde780665353e0afd3bac7c005779ab304e13d240c,
   0x337b8b2a4b7509cca00433250713a49497404af3f21cbe80a5cbc053747ed3373a05fba057d4ee0b31e7a803601756aae61c7bcce70002896234c6963995c025d249647fad9c9aa0362c707db0d7b2053857cf26f8e9ab08620017478aa3bf3840e82019006db8698a2661e04b03125f1bc43351403384e45a607bf7d7d06832a7422fdc0d4e000577af0fe174488370,
   0x2968f4b5359cc0d92002ca9cb4f86b4ff56041a8014cf2eeea7b80562150b38695b6fb605dcfe012d1bb7d84002375f69529ef9036a002eed97f969adc11a02a64b31a04482bf2c0292e528b3f462670e055c271bef20f8d69a00e61111ec3ab2813c02351b9ca8bc00293c056bce6c35933529e6036706bd7bc353af4e061938852b3a602fd800577219f8bf6719ae8,
   0x2b984133145a0fb6200386d3fce61ffe8c00463fb07ecbe015462053ea093748e484d2c05d18976e9ab25036601ee153bdf946c8f54001e81c330a4a767d602a69a1bdbaf3aec2602e37484a339b0bb0005827c81843fb0754a011f20304104bebc38020800b87d51c5103e0532f0138b4daf3fe803396c296a69da4a26063f3f0084ee5fa18e00577664e03b6966e24,
   0x2e0cbe53c743600de004b167b2ea24414f404ab5794f398c7874c0517fcdbafe2b3b9d805be7acfc2398c6bf801a67a005967fa3d1200160fc4ace552c3e002a634b0147de680ec0336983e0a121ec6a805a2cfeaff3d8dc210015e0abec420304b2c01db80b6db24eb75bc04f3c6d688e09160c8030d90420ec0013f18065ff7d5c71d91598e005778bcc48f3f544dc,
   0x30a84805786a28a100064e77841c149c60004ef8d0c9e22088d1c04ede3d43efc85a8c805a4e56a7132bb8f620162695d429a4603140015bc4eadc6e680d602a67047d6961b3cf8038a9d757f888f360a05bd27f2faf8d572dc01a1ecc06f8b050df201b19486d694a92fd404b009a9713149823e02e343a5b45bfd62ac067a144600c0a41d7a0057787f5f99d7ad3e8,
   0x335508925e28fbe470085b43a5e49e6959e052fbbd72d3113f85a04c07cea069c6fd1ae0585b4cff79e3a596c0123394c7a9b4799be001d67a1f5cbe6879002a80c6f798a36d6a003de1301ab64069ef005d18bfaf49be6a0a801e9c6de469f109854018b85e4e319478f6204692e45612d4b122e02ba9a2256dc7326aa068cdc26576f99ca08005775f895855c9cfa8,
   0x22ae1d6b230b4196a004046e77f4dee893803c5fdbe061dd2f520055b31db0ec861524e06102efe3f4628c59e02b7a44ba4887c50520047c6bb7993c350e202ed194ae2362d6740021ebf7ddc0eb50ca005478fae3e608d964400aa67dea353ac2d9802b02477aa42a7a11205d33a2b0752a317da036f7ef3b27fe9030605bdd2fe38884a2f04005766894d85832d9cc,
   0x245df7b8a868103f40042e65598b68b9c8c0410c721487ca37cc8053c05292fc968a94e06102582490ba054b2026e740345a4c3158c002cd86f2794fc604a02efaf3d056441d8d402698ebdae8a031d4e0575c251c4ee79feea00da42f593b3b5dd12028481e9b6c65251ce05a4f82efa6db0b542033fad58b85a67d80005e96faf9be822261600576da16e3ab458584,
   0x2658a5c2ba1bb17bc004ba1a0ad4d40ac62045a73fff700d168d80519e77fa517916dfa0608ed9707d130d5c40225b68dad5aec8f4c0018db8d6c2a77c6c202f1329cd8c08769bc02b7b1b00184773584059ed4e6bc1d16408e010ff2f286cd5f2f9a02587ca0ee7db55c820570379b1d8e5ec88a03113547067b2dfaa20610fee4bfba78ef3c00577299cf766cba4f8,
   0x28a23f0495c028d02005a8e980228f9feba04a24667630d85b92e04f53a6dd89cebe47c05fa0cab7e1543f87801ddeb9824eec9de22000c54ef9cdff51d7002f13ea8a3e053f7320308b6223245032b4405c2064826cef17c72014b3ebc238f90be34022c25408a37cef0400534f343646cbed91c02e4ca68f374e961be0634243a5f4c879daa005775a31db5421b938,
   0x2b1fb38076a4a70b400701e4191386c8d3004e740ceedb1ce1c0c04cd9b7a264e0ce98005e45a31daee9e488e0198dbaca2a24bcc6c000798fc3de07c34da02f11bd88fc920d5be035b196478d174fe7005df3eebeb0d27c2e0018b7d304f346050e6020160f1f5fa3c24c204f49f4b411fb9979202ba3e6e6af6bf668c06517fae37a1f0ed220057765f846c4d58b18,
   0x2dbc377660b8b3f46008c4aebfa9d9c9c5c0528765603ae63542e04a31eddd0fdd8a73005c89cffe7850973880157eb0a0d590e9d0e000ab2b67d2565c06e02f18b5105c4bc0fe403ad73b3394a9fec0905f6674f21b5240b4201cfcc71a475df2d0601d9833f8ad14578fc04b094ee6c9192c4360291ac5f091ed55f7206683898f84e5213c80057750571af1fb6a14,
   0x30681b8eede61500600aede300bfacc1ee205655050423bc657900475ee65703eaa2d5605a78cc162f5c964ec011c004119ea14bfb0001573e444c36eabf202f30e569292ab83ce03febcde43b9a1a00a060793d68c5147f04a02176799aaa14aeb1801b56a8ce1217232a00469e8f7b1849013be026b21758782a9affc0677e21ad61c8684e60057724aef103692410,
   0x330b0ceddd6b8cea200d817fd346a18a60a059df970747b4b3fe6044548bacbcd7038940582518a8f35477fac00e5cf1f4874a79810002782a26cfb1f7dcc02f70cece7417625b6044e689bb968ad071e061395e26ece5d9e3002621f78051880a5480196647a0fe3a0c04e0421a917b7d7721a440245a4ce00cbf5c2a2067fe59063ead1787a00576e74d56316bbefc,
   0x1b729d7723a855b040071c1262231acc2840383974491e413f8f705309b913292e9af1206408b5ed33040a1b20336826efe200b82c4006d3edbb2e1247932034eefea1904037a2f01be7585f516407b14053c698a24bf2d1874008d798568674e7e5e033b04b96d7093d5da062ca02e279cd11356035c10ec59822ee1670550d63ae819139bd4005752e6d3c454e63e8,
   0x1e424b361b59a824a005dd68c6905c54ed003b7bfbf090a26104005348a78368253f06c06363b18bf4fbc5ff402efab11609be598900050f40d3e03ad483a0330b50a4bf797d36301f8fdc7d2f96c3f9a0556460bd2c83dccbc00a557316aafe95d5c02fc8d908b9dfdb7900602139efef6225056034e83866b1a1838ec0588ed9c632e90058e005750a82121a7782a0,
   0x1f8aa2b12d6c7c1f4005f9772a294f184ac0401e9674a21d9d1e2051461e270f65c41ca063bab64aa58bdcad202a9f3550f56cec2780033a1cd1075b3a57e0337e63c708fc56577023fcaf382ad5504260587785072ec277b9400d22e997e39a3776002d5e8faa1760cba1005d9ae22db3f051cfa031c3bd26c875cbdce05b2eeaedeba4c13ac0057671d7f098309154,
   0x2144c9b62d7f536460065f980d88bc8c2da044c3d52f9f699f9a004f298113c0dc88d06063916f9a48c35fc5c0261f927143f2583de001c2bf0f0d8a8267a033bb3dfa0ba14c1a7028bb7085d19af52bc05b3d00e1e02a345dc01050ca90e7158201a02abc6b6fbf246203e05a929d0ffc4675d6402ebf22de21c2fe38a05db78c959a67886a600576f192b4201e3bcc,
   0x235d6263f897ea41c0071bc2be929740eca04950cfa0fd048677a04cf09a3433a52f85c062e93c2c1dc6746f60219eeeeec9986beb8000ba4e0072d20d838033cf353cea7f1423802db05f2834991432e05da50bb68f6b8b596013d553f3a9f7f581c0280063ace95d9dce00571a6a9c1ca4fe68002be2cce989dd760ee0600ba0276acb15fd6005773326dcdaa86424,
   0x25b87a2e4e8324bdc00839d1dfb256d1dfc04db5f532d62527d8604a90f7e0bc82529ca061cdfb878cc28d00201d3b856982f3c3740000298621d192a2d66033d203b9793abdce7032c4940131619bd0605fad5d718024f7ce4017a9b1a6e1d9292820254bd12763b7f27d605347c8f5773fc09da02929afdae30028512062112365ccc8d8ee60057752fef2d27918f8,
   0x284109225f4f9552c009bea4997b8990910051e6af1f2e18373960480674c82060641340604a5de8b3382a4e00190b8a86c6add2fb0000142413d01270098033d338d468e31d28f037e4dd34bf16881c206154c9602b9e7938e01bc50985384c0742e022b60b0c7224f382804f2d3020bc7a02f1802691f59b6617ace88063b75a398899fb4ca0057759252e0c264050,
   0x2aea28515f9b904f000ba97b8e989528022055d8804743469905a04552eda1639e4601805e65f55fc5656380a0151db2ea3ebcc52720007aceeb0a358df76033d9a740981beabf703d020fda20e13acca0629981cdb3438a89e0201d8584879d86fd00204c5f8dcd1c5f31e04ad8adacfa65d8b660241de2250498f5826064f5a43ae106408dc005774b56d7ba7a89dc,
   0x2da4ab20ee75e0d2e00dfb168c75595c49805985b31ba6653af3404273f19fd1733631205c2ae51628221708a0117e6e939f6dfc3d40015c4c328ffc60190033f031f4d79cd2dcf04210327bfb5db2e7c0637e4354c3b802efe024ac35a07082fb0c401e1d38ed84caf6e7204657ec0ed5503c244021ca4252b8f6cf71c065c3db0db1f9cf9dc005772fb9daaffe1fec,
   0x3053203e35abe5f34010bce53466a65adfe05cf064611e452cdc803f57b6ee9a4e70a10059acee2929a04661c00e3dab2724b199c70002b616a7f141a34cc0343409afca68027a2047052c671d371e04e0641091a3f73e6045c02970b15b49a83029401c4479b39a16515a2041bd5e2cf94e94f3a01f83bd84de53697500661251a1f2b4ff04200576fb6b454f069f4c,
   0x32c8eaaba634e1b6f0140851bee7523d70a060263752d1c2b9c5e03bd51303d3e9a9cba05707aa1c937a95b7200b6e8934dc89a5e2200488230a8226c1306034da322db4ee3439304bdd921c3bfd1104c06469e928cedd56b9402e7890af8e0adaf6401aeeb7e941b5252fa03d1c2fd820418638601d21223d30166f52a065c580a8dfcdc391800576af0cf9c416e1e4]).map icosaRowOf⟩

/-- `s2/ahrens_beylkin/ahrens_beylkin_1632.hpp:13-1646`, `1649-3281`, `points` and `weights`. -/
def abGrid1632 : IcosaGrid := ⟨456460026067534900, ([
   0x306f61597f769c856003499bea291800a50047e1a6f4ac676bf5c054c97e23faa29a224059cde28e149128f6c01b10b5283f0df3c6e00264832d467233066026e1b4ca77ca899bc031e2110035458366d05721468793174fb3c0141060742cfafd75801bf5cde521b3c2ec204ee1fba8be7a62472034c31a07100fb945a066755b6ae12b6618000576f4ceb750350b50,
   0x340178ab1ea9cc7c9004635a81c5f6dc3c004b764781ee4bd872405335b676d0057605805778c03935fe9de74016b928b3ca472988e002989ac73554a6c44025a6510d3616dba9e036e7be2426ad0a0f8057e6bbaa68aaea21a017d9189b5dc1df36801883e86e5ae96087404a56579a5ad1244b40334f8434bddb6294206876344af872affe600576fc3ea9b3c57a88,
   0x24edf0276904fa5360040181946a47ed7e80412609e6d47d181ce0540454f6f78092c54060ac392bf3aff84c00267cb04d103d35000002c8e743611d8e36802e77f112981947512026e7bd7440b3b8f2c05736bc94d859b233400db9277c6fbc06536027b54a9e196794480059e992b774fe46c980343bfc60ee2fe076405ef49530061f0ae22005766dd8789ff507b0,
   0x2803547ff360cd6ec0040903fce779699f604507eed9a1e6fb8ae053013eba0eb82036405f5cf7a379a89f7b2021d03c5e9e15cdb5a001d1f78c095263f8a02d3031f29b43691a802b98d57fc6a6ec6d6058cdcc2ac02544dba010a41cb7e55abf8380240748cf7c3cd35c6056340e805aa20b43a032a048adf29881016061d363e5eac07bc1200576b6ba7bebf152d0,
   0x2b55e397078d9c29e0047628533db405842048cca277c4826516e051cd6f0688f735aec05da0639081679936001d3c39198f14ebdd00014ec042d6d31e76002be0c235f93cfeba2030704cd8d2aed8ecc05a0f4058baf9597fc013e5990cd576e38ce02063a129f5f5d2eb20522342847e206eeda0311b606bfabd63b250646447d0879afac5a00576e1880b8d76e214,
   0x2ed873a887c6620d60054f3e9181b4ef0e204c6b4219f921e19be050642a85169d947f605b7b3c409eda21530018d05ef8eb22d8fce00144bcc516a40507802a94b1245ab06eda80356251bee4ca898e905af88a67deb2a4f5c0177a353149e746a3601cdae0c55633c17ce04dc16be19a5d73f5602fabeb9768da7809a06699a2f149e0d61b400576f43bb749ad882c,
   0x327a4da71c2fb08550069a0455d7024721004fddc3127d5cd4eea04ebea74dbce859c0c058f64ac4f928634c20149bb2f07c9836d36001b66d0f0337654640295a856d0a4c0a6d203a636b8444506d91205b8b5c71b8d3f91c801b5e6673bab59a34e0197f4a37506318ae20491b0f8f3f3f7006802e4cabd09dbde27f006866a0b274668eaf600576f1dee8d686afb8,
   0x3627f97c65969271b8085b71dc138dbb22205320c47199f58f22604cd48c6b2ddc6f0220561dc7ee12bbbe42c010ac35ef4f85b5458002a382afc458127ec02843701c606adaeb803f68ab828504118e605bcd2d9d9c7f9789601f8e7d73986f001a801664251b9ebb5f6f80443e7ced510c444d602cf517a7a67121a2c069bf872f01f35c9de00576dc548710dbcd58,
   0x1b72f9e9f587d3dda007332173694cacefc039c2dacde0d88b976052327ab3a96f765400647674dcb678890b603230d45703a2b3c6b00621feb8d1626686003573cca259e69649401d2ceb440c9f6f548054fd8ec8587159bb4009af0fd8ec5c53f2203341f7119b8cfa307062449f4bf81eebe120347bd853aec704892055bf8bd3c46962398005743ada213876afd8,
   0x1d9e17a3eb1e6f2b800679bc62346dd39ec03da66624f9b54c356051823c29839031f6806445b2144fd953b6c02dbc91a9b68ca9cc800445c68ffa3508a9603489a4c8be688866f0212e9963dd46363a605746b3bbaff0c88ea00bb663072e0bb358202ff0877bf0c57648805fac94c7823642a9c032a547edd3b6d71c6058f2d8a0b766de2be00575715219c5b99944,
   0x202c2d0948544ba7c0060492a8ef1bc93b0041a34062c520057ae050acb7f2584d0c9b6063aa92ba659006256029176f50e8ca915b0002b2af7b846b53e38033795bb58ecd2f8770258b5298a5d3ce38c0595dc0af207d02fd400e20263083acb95e602c69527e537b052be05c9a89832a3ddbf0e030d6a41e685f1e80705c1a2ea7578e739ce005762146f3526757b8,
   0x231168f3e6acc1cf4005e18c3d6993162d004597ad3cba69aaace04fb3e54f62aa3afbc0629d4576f00394eda02466ecde45e06d6d80018130dfa451df83003249080693b80acc802a262f7de3d00273605b290737250eb0c34010e3146e98dcebb68028c7483c0b21a290e0591b85ac676d2dea802f210323c8bb5f5be05f15c8de573545a8a005768af235002b6e9c,
   0x2640db68748cfbf300061a5ce6ad0991d7e04970dc47e739a25ae04e955395a3eabdfb40611d977e9f22b7d9e01fc3ba67575a1b8bc000be8ce778d489eba031022ab7864da98ab02eec7f0d22220013605c9cc73985b4c8814013f99f819a2f8dcd20251f8a668b8f237800553af72da4643019802d8a260918499bdfa061d0662fc545becf800576c978f9fde55848,
   0x29ab6713a1715eee0006b6ccec30d26e57c04d22cff3e81c97c2404d4c0a13b2c42a0a205f302a7b2e41739d401b41819007d1bd50a000726274e649747ce02fb12db9993541f50033cf66ee4c7cfe55305db47465a858c3c160175f68bb08876c3f202185ec07525ab8b2205104e8c8e766e8d3c02c11c9d31ad301aa4064391059d5022045c00576e8a50755e50bf8,
   0x2d3fd0b355246833e007bd246b8845df210050a5652880dc25ba804bd1b23029dd0214605cdd47700cb2aed5c016f1662b0e61a07fe000a084ead69da344202e64a22dcf19ef7d6038c1a52d67b50140c05e70262aee15d74c401b102065919b28fea01e0e05abc009dc5cc04c86aaedfda29d3bc02ab3f533b34e082ba066414daae4da8648400576eda994644d5128,
   0x30eb031c449b63621009323584c0f1af224053f33e60fe978d1ae04a1f2ea6141d5bfbc05a304d0bbf6e4e6f4012e2c75ecb8777a3800149a3df9a56ca8b402d2cb8e2ba815d91803db6d55f4b5c2950605ed3928e41790521801f071892d30fb7a6201acb5903f2225c3a8047ceed2cf70f4d18402969f76abf1dd9eaa067dca3594cd64a9d400576da78866d8a4248,
   0x349815328d6cd2dcb00b199ff5ede30573605709a729297e2e8f00482c74ecb88268694057378035e7d4a6a6c00f23689e5e12ab7080026b91e8e6388ca1202c1b567e0fd90c1a2042a37171335c54daa05ee5df38661c631260233f6f6449d81b302017d176ab65bd22bc2042eda0633db8bd48c0282a6d6f1fef1ca280690052681c21f6f8400576af71b15f0ab9fc,
   0x213c8c40ccaefe9fc00830108c289823fc4049b94fb859983ccec04b347431d9a8ded4e06438284e1c4483ee6022b0310d5e6aff58a000bd39b0a992307c6036326f2c7efe08001c2d49e0ee9a820e52a05eb49fbb2681e207a01440bfbb3d4bcd4b202a2307e8dd70f2d8805828c10a7ab76edc402a2874fff80b8ec6805eb7fa3c6d627ba3a00576b920154b6fb8a4,
   0x2488915baab770e62008958c7fefce1a2b204d8bae3f3d80a89b0049fdfbbbd8467c6d206288ebedab5ecc4e201e12064e478c439880002af5acc6d82094c034e8aebfd54e46c7603226c42c08d3279c806006c55f5f582b81601780da3e3e7a292fc0267c9d2170823ba840541cda4f4692c17d20289796dd67c2e8fb806153e04d4fe88508200576e03a25053e0cb8,
   0x28086a92eeb53d8fc0095d08dcd2c150f8e0512a00a58d29eb1c2048a244752a9c3a28a0606eabd65fbbf0ade019a255b1ca3f1b84c0001204bee27bea89803395eb056c9ea10a803711bec46c7b240a5060f69cc498a786eb801b063bb6a9c735a5a022ed59cfba8481f4204fc61aa0ada1d0fb40272c757c4818b9ac8063967b6cf1e78544c00576eb494574abbdf4,
   0x2ba93f6a0e6f1a68400a8b78699d91b33200548e02e690be207040471a9caf00fb7eb7c05df43e1102d97c83001571249862a3d534200073b6e82df64a78603249ecccda8c8f3fd03bfdda407e61235a806186f906e088eedd001ecbf020f8d5cae8a01f88e619d23f3dedc04b33375dfa8c2abbc025e12ed755ec970dc06572d5e7cbdb00aea00576dbf3587586bb18,
   0x2f570988b2a3b29bc00c23bdcea88544892057b358749d3dd22aa04560acf954a5dbf1005b270b8d95f0111a60118ce1bfc03b0b2bc0014e5fe4f2add0be003114ffae7896b618b040de706686e3869ec061bd71c0debd23bf2022cbeeabca0d0162001c623fa976127d704046744b88936bda6dc024ae62cff19ecbfd0066de3bc02c050c95000576b14e98b071a4ac,
   0x32fc69ec16aa0a58c00e26f33099ceef6a805a97c236da7e2a41a0436e15fbb91b3d9fe058171fa6d1cf1ee8400e02651c8d563d9e40029d68e12cf039600030084929a5bf6fd96045a757a19e4bad30c061a28e00ad9b97bae026ff616a418fc3a1a0198bef6bfa34f3a8c0419ac5e92644a43e40238adbf83e3cfbef8067d00e84cdbac96820057668110d3a64bdc4,
   0x368178787db8ce1f38109603026062b519e05d3c9766aae6984da0413a0b35799a186ee054d7c678b0437d15400adcd582f0580de7a0045980b4d49619dae02f37ffcd4ac7922f204a4dfa035bdd1e6a8061430f0de38b0472402b604e6db99e13af20171957d07c24a926a03cb91e7be1a0940cc022694822e7ba4f3ba06840d8ee5ea210bc800575fb80fce26ce75c,
   0x2dcc42217b23dff9c00f6b37171c9dac7e205b21b876d094efd380408858a268a67319a05bd21fb8ea82c376c0108f1007e7b810318001c4579b699a1cbc6035078d224141ce955043e314e34e39d0006064460adfeebff15b6026b0466474506b09401e35ef839abb9e6ca04500821a43fc91ee80201ef6ebf2c8b180006574476b735cc16680057670f97f8bc4b6d4,
   0x3162fd4ffae6015c30117e0f929e533c35205dcc8cbebca55dad403ea15f3cfffec28c4058b470135ee5249e400d3f5120ee753c858003384b56a837b19d8033fcb5f83759c0d360487ae86f6d0c5656a063ff0e986840a293802acf0e679efe70d1601b85155ce490c71d20403ccf780c1c2ae8001f1dde8e53b84c17006638224df6c581c0200575fd691da43e7c4c,
   0x34cf75a12e5dfb477013e930f955ac5095a0602aa1a11577f6eb403c8c49ccd8ad17b4605575153c3d253e6f600a5e12cdf3e3260280050cfc152de2026ce033287c87ccf2ef05004cdacb8a5d415420606373d49a2f5abda4a02f01d4087d7b595820193a47b21bad75b1e03b86e0668bdfc4a7101e2a73c496fb483880668121c028466e9fa005754aecdd4fc0c568]).map icosaRowOf⟩

/-- `s2/ahrens_beylkin/ahrens_beylkin_1692.hpp:13-1706`, `1709-3401`, `points` and `weights`. -/
def abGrid1692 : IcosaGrid := ⟨565070011222089600, ([
   0x1c1fe419beeb8feec006cf52cf6cddfb07603999cf9fd7c0ba934052cd2e32b77b0b6d60640fc9302274c03f6031dcbc26c5bdae54b0061b3469d2fa4395e034a95251c9741b46c01d43544a3a7f6ef38054a4bcc8ccf2a1e3a0097f3a5be4dc5ec5603290da8c5fa165781061f7516ab8a20a97c03512597d4a4ac1225056313424c95d269ce0057500b2a874283cc4,
   0x1f4d47bc551941ea40057e1cb14eb2bbe4803c9414403c55f3c8a0535c350f1c53875ce06311e6523d0fb776002d75260369b28f95c004889cae8ba4521cc0325a3955c5e3d2702020da81f408875dbf0055deef4992d00e80000ae6e741021ba5e5602e6aa6062cc0f95d805f225302a3ecdd790034a88f76127084c78059ba7fa192cadb2580057556b387ca9b540c,
   0x22e1327a333ed5e7c0045bf779240fc171a03f26f8fc720477fde0541886e7762bdb8cc0618996dba01a1b9d20293c795fc39eb97ee0036f77761ba333cf602fafc4a6fe4b3e9560245fdcbf0f64bd52205683b12f5abe5099600c60a6c4c7c90a46a02a28f962cc0b4721205c02cb976dda25af8034b71f68e9b8b895a05d09b6362251b38aa005755fbdf90a366924,
   0x26ba42d3da634a3640037f304a6fdd96ff60417ced233435c4b52054d09095d8d1b8baa05f93d2a0e218625b402527f69a69d700860002c2472f31b86e03a02cdd393d8c17595aa027ebecbdd0cdff4a4056bf239b0d6196ca600e096aa4a00f92b8c025e4dfb5a7fc2981c0589b7918fdfd30fbc035041fc3cf73eac4f06017b40b4728dbe9200575bcaf129a760794,
   0x2acb36833c44fe30a003051e7b7f1e5a1f6043eba92559526e4700553da031d15d8acda05d472531cafcc806002101f68af227a81c000269d38aa29ae022002a1679ff843c8225602bc67b5bb193349fa056d42ffb232f39b360101fb302360eae6900219d417bceab2092c054cdecae156b67fa00353a84d5509069b81062f37fa964d15914a005763f7553a9d2b680,
   0x2f016a62f01109a02003046cda79ca7cec4046860041a48d98cd40553e332d0efdb125605aad1e52049a6735601ccb91148136884ba00269471cfb8f73e7e0277bc17eb88645a8402ffc730a432c9d8aa056d46191e0544f9ae012b97db0da3e6cb5201d66b6d1ff71915000509813a54b85b2dd20353ac10672c30bee70658e69c0edaca9f2a00576879847e92ee13c,
   0x333d68c5cd916752c0038be6f582b5bced204943fe34ae15508a6054c092bde6fe2635e057d5568cb17709fa40189f82d80c661930e002c6db8132aca65cc0252b73d46e4e26e760347c3bff0e2e88342056c4716b77a45da7a015d510081ae356e72019648e4c5c6f3147e04c0e71049f98145ac034f6f67485417f45b067cec744cf34d846e00576997bbafc22f2c0,
   0x1e0a1a1b9a01326ba006d793082d591548c040bc510ef869cdece04fccbc70526c2875a064b37e235958a86fe02b24814c37aed7f2a003281c4cedb9276ec03555477dc0d31e06c02400a89187e0f037205972c1a17febd5a1c00daea3ae2044555ba02ed3f807774ec8d9e05e322ead0fd4520a80303f3b37d7fee234805a5343d184f75662800575a0aa956078acec,
   0x21e1ebc4e5ca22664005b9376568bc211080436c37dabb6612a960508c787623db56066062fb5195a38803ed2026b39501d1e80e65c002188213ac6bbb5220327ebf4d466587208027c09a3f9f8812c8405a0bdc4299e9af34000f4ef040a1f32c74e02a544a538e387731605ad0dc9beb5af49a4030571b330c20af9e005dc2e6a31962c8afc00575f40caa1fb8a91c,
   0x25ff2982acf626e3e004f0df136ed467f36045f8976a18e7910920512dd5f9f577e4e10060d4fee03e8ffe8340225745383a7dbe42000175b558af5ca6b8602f901445e785c4f0002ba1181c622e7d28a05a4aee4e6a27fada2011388315026597c18025d26ef2f9f57f7d005717598d50ffb789a03093db1410a649bb4060f0a3b64880d5ea2005766422eb1175c37c,
   0x2a3e61ed4f94ddd9c0049fbf1add4bc24100488fa500b4330a5d605173e908d084942ee05e5adf7a562f702fe01e062b869b700fa2800138851f1dc22a54a02cc4d4e76d9c93f7802fc00e7e261da2bba05a5ccf956696f0fd20139260720c1694b200216d65825af9aa9c2053037015438c86d48030b41d1cef55db1e2063cdc45bbed8fe8c4005769ff427466f4a14,
   0x2e864b41b2991cc2c004d3e61396571703804b3616837447796fe0514926dce3d725f0e05b9bd61e77ca03dda019cd753e8a5ee774c00162254697fa78a4402a39f28448427c67c034190020e50933ed005a4d9c8914a3dbc8801662721c46635214201d3f360b88bb85d4004ea119a5b8430ed08030a314ce936e8887a0664973b2923ffdda200576a1701a18fda6a0,
   0x32cf8b0ac859de42c005930409436f6424604de93cc46d069c2a6050a8075fddb61f1aa0589a295dcb2106818015b4bd7c8190ba99e001f641a72f33b94d6027f763b948b1c91f4038a7d5cade195ab1305a1d148207b144644019a9b4bdd65bb577c019517fde95cc6570e049f44583183ba2d320305d7eedb01f2406c0685b7a7684de1ccba0057683c24c2211ece0,
   0x2186c71492ae1a30a00756363db7e25d15e047ecc4714d8ff27be04ce1e927dce770a9a063dab6f7bf5d24176023bc582f6ed2c30340010a306655a66a9a8034fb2387b160de95302bb715daa3a5b9d7c05d5e3dc5501b02cc2012c12b29dd57bd16602a085e06d10eb57ea058e7f176df0af9ef602c057ae7b4e70058e05e98e3eb6498c4ac200576443acb58098814,
   0x25b3cb92e807e0944006c435bf4af6166d804a96f69702b64909804d4d46841ec600d4e06195ac24e2562e84601f50cf806c674f14e0008951529c2ec3094032241836676da455a02fc8629817a73cb2005d9cc1f5fd2caed04014ea7e3bd9066c12c0258bb3ed1b2ea2792054fd47db96172d92402c2132a8963f43e24061ae736d5b9da9de6005768cdf23e1ae1040,
   0x29f1a17aeb07be9c2006acce7b41f86ea0004d34119cac447da0804d6132b3af418b16605f01adffe544c611e01b0d57cc356cc7086000775f6fd5bdbe01c02f78b2cd615e932b4033fd637e00b2de2d605da263c231275a5b801775a75ebc239ba2402142c6d7a1a777a6a050cbc20a258daa8d402c2a07aab0337fd280645f7aa295a767304005769cfcb9f992e2e4,
   0x2e3c2b660407857da0071289e252a22d56c04fc4706949f7f7fc404d1a2d55c1c704a6005c20e81fa73a001c0016f47eeb9995106d6000d4f52e37a50859a02cfda85433fd8d72c038551c13db42a664b05d70b2b7b3ff488e601a639be9bbbe6055e01d32139fb492356a804c55536b27cea813c02c1cd8ffeea37f8e2066a8d41145e05b1ba0057676b28f4beb14e4,
   0x32a2ecd3c11e2dfb2007f974edd98bfaa960524916988f663b16a04c7938f12c9989cdc058e5173e32fbfe044012fef1891991d7802001a9a2f0928ac421a02aa8c27e46a95727003cd96091c46f49b1005cff7eac76ebdc0b601dbcefdb5c125f3840194ec38660930c8140478b18464ce5b1d7e02bff55efc28d844a20688c85dbf62124e46005763d5d28764f18ac,
   0x2584a9751ab4ae00a0090c166438d76faaa04f1e582fe9097807204922a72c4c3703580061fe2240b0def9cf201c72d89c698c2d2680000f6dcc6602ee906034d46ef723d7ca8b30340f34a8c9042e674060a9daf7cd5b04d8e018f7fc4e892dc69780256f81343c60ae40c05299347dc967dd0f8027ab3e7a178f1e12c0620b35ae6f61d9d88005768fbeb9de1367a0,
   0x29c3567fe8522e81c009269c7078064a2f8051a8d2cb897a44cfe04917c1bf260272af605f4abde1bca2b5a7e0184d74b5d6bfd8a100002f72e6773190d5e0323b90a46eca6025803844fd0a5404da1d80609091d39289d8dd401ba27c043acd372c6021449e3fd7949381404e53cb7d256ce951c027b423235a2bf4b260648acadce99e177f4005767f736093180a1c,
   0x2e26cb70b46ffee8e009a8b3a770c0b183a05406ae77ed634e7c4048dabfdb8bee5dbf405c38056cb8f5e3ddc01459c73a4bbf8100e000c4eebe9b66ce0e402faaef6663d7f561603c89110aa4941f51206020ca5e516c619ce01e95d388c2eb7c8a801d3d8c23211962efa049caa229763752f2a027d38413d5ba7f97c066aba4a5b3730ab4e005763adb5a1571aba0,
   0x32b4df32c173d289200aa4b6190ca25023a05647618c084e10b1c04856db7aafd7e7a32058bcd9a1353cda88e0108e0e1ee7becb11c001d8ccedd39279d5602d2bc60c7c008aac8040f08a4480f556fce05f5e6fb7a86943016021ea64cc1601e900801959f74a20cea1600044eb0adeda0af2c30027fa1e9c065d1c76a068687358f2475854e00575ddb5f906ab55a0,
   0x29c8f8f71d5baca7000bf77cd9ab553bb28055d49eeeacfd891ae044bc65dc1a5db5e4005f27b66396b171c58015c989137c7a26e22000627e24878ad85a6034e9698f7c280d02d03c866f6496f9a16860630edafeb7c60c76e0200153656ea9c17540215e87c8a04488b3a04b9cd49cbacdee87c0237853404c40acc540645b3b1d017c9efee0057662efed7ebf8580,
   0x2e51a80d9944980c200c83308b3ac6595dc057f0e43f7997650ea044a3e98ecdf89c9ec05bddcd22b3690549c011fb4688d433c79f00012c0cb6696dbe0660322b34002850bd961040ab091cde16e06ae062546e72e4237ece4022e727481d268315001d526a5da58c62f6604705038030a4ab1f4023dc689e810c57a140665f042081b1633400057609a4dda4c8aa2c,
   0x32fe6ed24ab0d6aac00d88589c42215fa94059e645371524f485804447c463ea474fef80582df1f4ca3daebb800e5ff7144cbb96c9a0027676eed87616a8002f8080e346806cde2044e7bfe3b0edb045a06142f722ba2f72d9c02626f27827bc6b2d801971d8c1b666dfcae0421f49d33a242021a0244c789c5fa1c6170067f83fed398da475000575a11c0bf285c894,
   0x2ea6cdf23fb24f50600f9c6fbca9d1c8ae805b840fc5d1bd6209a04072e3ab2831d82f205b2718437e6eff2ec00fe170af41556d130001fe86ea7681c9c5c0348dbe52626229b20044af1fdcb4c49bd52064191e67d094239ca0274ccd0282608bcf601d7f598174a56bfbc04418b37290b2434d40202d77c350cc537b4065c129c334109a38c00575e7a8d28a7ed41c,
   0x3349396b37f9d7292010b1912c2a741075c05d3b5ca803d57aec404025a8e0dc338f8d205764726b52363da9600c8277870e8a92fd800371b440711b3d162031e039e9b6cbada9f048b95fb5ad84ea15c062d5ac170b177711e02a77473aaf12167bc019c25472c7e3665d203f468cf4634df5e76020c5a36350538bdae0672b3bdb1a2a6a796005759fb09a39e4854c,
   0x3337417ff774dd47701427b4e221d879d0c0604823cc5ed600ac803bccd0f708d8334b2056a93007337bba38e00b259ee5eec07a422004b2aa1de8e5d8cf00349b1b3b8f759542204c39e268211091710064447ca36b668987e02ec5043c81dd397b801a9aa9aa27b31b43e03ca8be75cbb93fec801d3328c59c42eac50065df2b15a1cf92710005757356749eff2ce0]).map icosaRowOf⟩

/-- `s2/ahrens_beylkin/ahrens_beylkin_1812.hpp:13-1826`, `1829-3641`, `points` and `weights`. -/
def abGrid1812 : IcosaGrid := ⟨348596715377948000, ([
   0x336b524a02d3ec15b003647249cc007532e048e0dd300c933083c055203ee6c6c13f34a057a54a291aacf64dc018cc8f3ee661f6676002e6b06f8d563cc8e024d3f2c520cecb80a03436cd0965ce709a7056697b806865fcbfa01591c3f1d40aced340194a5119250c3058004c1ba87d1eea599e80356a4eee62e41b7b4067cb52690d75d13f000575f5293af3815c14,
   0x24cb6074d4b8cec6e003ba877250786f4de03f8a4a9c3c457100c05500f277d20b625fa0606c6f88184cd0ccc027c5258f5768ddbe200352acdf98ef1608402df12d4ca2e69e940025736a6f709e49a9e05610d705257a337b000ca72dce0f55e88fa0282d00220ef233f6805aa8425d845867b5e0358dbfb329f92607605e557366487234e70005754af08ccd1336c4,
   0x27e1c372fe4e43c380038b73f6ce531f00c0431caa9441ec5301c0545216867044715c805f1f1847068a0b56802347a9471ddb8d87000257a538e8d4fe5de02c74c2900efe8a574029d3ce7dddfdc079a05777f04f3572103c200f3e861f64e2b15fa0247b78050359ae29e05725cdbbfae52f29203443bea2e62f2349e06138f76cec52245e400575a033a0e6b0ff10,
   0x2b292eddb2aadecb6003bd194f593717ee40469eb6f84a6608fda0536c4b5a4bc6fe44e05d74adec92eff0cb401edcc1a66e38d2bf4001c22e34161a1574c02afbfd8e264868b9802e5d64ed547f0afbc0589b6c8530b82ffc00122b1b7e9aa17e726020d7acc1b155d538c053505d201dfd5bc3e03301939e240a7221f063d538a4d04e6742800575d315312f6e0500,
   0x2e99b37184c822c6a004537e6644c808d8804a0508cc43ead44700524f8eb85b431d97005b6e12531ff5cce7c01a92de631a83d59b200198c9a47138de6b40298bc70b9edf35c04033043b2c0845c40e505974cb34b24fe924e0156808c2ef451438e01d4d9324ee12fe81c04f2fde6c6f2995a94031cb41f34260fedf60661ecdd6d94f51de000575ec7d6bc9e71444,
   0x3228c63fbe45c78d5005523f01d9a561c8004d479ddad35a611f8050f9b45dc790a968c0590f858661c8f0bce01676dd120e989daf8001df21f9fb52bf28a0282bfada758fb284e037bdae919d1ff97cb05a01b9b784bd7b868018f0f62708ce80482019e9fa19eceb3d41a04acd84c5d9247d004030a0e15be7046d7460680b888ad50c6901a00575f226d76c42b940,
   0x35c8e9752f71ec972806bcd1a61afaa708a05061869620d883c0804f663b924b148dddc05660b002a5f356aec012948ccc46eac4d2a0029650e607d07a948026e7b7fafb0f5db7603c8013eaac7260db805a43e6c7db3f2f55a01cc20dce62ca5e550016bb0d8c5a14f146c04634059404f8e8b7802f7e9f3848de2afc406991f87aa60e719e400575e835d1f43048a0,
   0x1b7f7156c19fd10c400722a1f9e1667f3fc0393c2f88b91329e880528703677dc68c6b20644b013cf4fef31de032927294d458c64280065bd5b2e0a246f7e03537d9891086d14c301cc11ac5feb8542020548f791dbba3494d8009623b8dd3d6d17ca033593edbd51cfdc710626c668fb9951eae6034f4203e88c61c28d0558d694270fb16efe00572d83eb5a9954dfc,
   0x1dc26fcd4a161ef1e0064346357c40898b003cb00cf40b0d0090a05234b35ba9085ce94063f765b9dbf73665202e60de064cd4821d8004a01ed884e6c5c7c03404e24192592176c02068a44a64653baf60567e0f35bab13ef0a00b1a621eca1526586030040563442e45e0c05ff688db8dcc5c55c0338f9530ab8f827f3058aef6a1ee36bd79e0057436eb0503511aa0,
   0x206112344c02d0078005a0752996a6550ec0404cd21b159e38094051b9463c98956f74606348054eb762ca954029f3150e5af8275040031d405fe2cd7e48a032b2b0ca882a812aa02471ccf4aa3570eea0584d35c6aaa0e8a8400d3448cd328d14cb402c7649d80ed10123a05d0b9e5c3e094a8e4032250eed67abffb5205bd04ea9e855077da00574fbb9a203fdedf8,
   0x2349a0aff1d8925a40054c4243cbac6affa043ee657f25ee7bedc05112af7655a76a2e406237041386794ef2e02574be15e3a38d974001ee6d0b092f6f5ae0314d7ca98c471a8ec028bc1a4455d3ec95c059e2fe437c1fbe87e00fa708dc693f4b48a028d2934ea620893c0059bc1ab8a052be3c6030c3501961e345c4805ecb4b47b5b7449560057571ef4f3862196c,
   0x2670473af34233c5e005502d8e5e3d6d0f4047811596a1f9245080503f7088260f4b236060c31dcfcc50ddc1a020fea15abd5ed1f56001218578dcb0890a002fdd81b064afaad0e02d34a310eca0e068a05b327473a0fada44c0126cd161b8cb0ee120252d49703eebb5faa05612e58fa68ce8eb602f716dd7cc7ff4e3e0618abc710229cded400575b90240f87aafc0,
   0x29ca372550e1f533e005b22b61a866176c604af794a289bdadcc604f3e0824d99f6515205eedfa347c54955aa01ca2c08fca3e099d0000beaacd628d5b9d802e6a5be85edc0e4da031cd13c067e5b4bbb05c346554367be12f20158075c2266c6969e0219641241016c56be05219df702d8f4dff802e32ed12aedae13b8063ffd3199d7e72e1800575df68ab96f739d8,
   0x2d4b995adb6f20b360067682f8bfc744ac804e4843e54ac1fd60804e0c26f421fbabbac05cbc10ce722863e4c018702217291b4c198000ca79cf2fda267b402cfcca196c1108914036790ad47697c81a085ce5a1974d1171ac8018dcf406b4bd83dbc01e1c2b40b9086bd1604ddb71f5bf1fc724e02d0858342ab5f9c620661ea12ba6df091b400575ec81c935835b20,
   0x30e69b91dbe7b8ae4007a0a886fa3b48e420516ca1a695ae359a404ca5fd18b7113388a05a34d350a22d06f040147403e9de284dbe400146b94b9ccf77e1202b9fb229d689afd4603b2d6ccb5ef68d68005d46bd8d978bd8f7401c7d91446c9f0d7b601acdf3253b941ec1404963144c073775dd202beef87442cfcb946067dcd51186e0c922e00575e4398fa33b6048,
   0x348b4f3a8279f4e1200933ae6e8913a37dc0546145114e3eab0f204b05d6724164500de057628e71d0bdd60ea010ba1274374955d9400232ad8786b64228802a60733293f2d98c603fe0733bd690d8c3a05d5bfb5a97d894a960205e28eb0f164bb10017bb135b39a6b72e8044bd2e9a7671b537602ae0a5ac71c7bcb9c0693151d5c9c45b1d000575c9598999a896f0,
   0x1ecc2f9a6e0bee60a0076df7423d318b7640446dc35725267c00204db6519f5ac959cae064ef7052230c696ae027f50ded54fe0879e002050828e68872280036279de69a5f538578278d0e634b2b65f3a05be01f818e91e92580103d01d245d04e28202d5dfd06aba72041805c25cf72345434cb402d74eae4e8bf286d005bee4b48ba1135cb0005754c868ca2914020,
   0x21cc29ac132abfad00074a13220f7cb93f40481cdd29fb91e09c204ce91f70e217ed26e063b7831f914282b720236efd8a11a3f699a000fdc347502de2316034cbcc93dae09bcf502bfcf0339e9123ab005d6635d32ccd2b400012e4d6c385e122cd8029bb4d64d0f2cda78058a703f08754b2e1a02c0503263a783a7b605ed032ed17cb2f49a00575a143c4895315e4,
   0x2509756061f1b25b40077c865b5d3f76f5004baca57b4c6dee50204bf8aedcf3a55db9206219210d35d58995e01efe48f16e1dc110a0005ef3f8cbd062c9a0335fddbacd36610010308cd2d85e69ae91805e999eb7818c6c942015d5cfc6525fb119c0261bdb53ff8cd3b56054d51ea6682bfcc0602ab26c35c966a3c9c0616f8aaa7a34ac09400575d2186aae10c024,
   0x2876f6ee2b7dd38100080ad7f438f59aeb804f1396faf61b9d4f804ae13cc5b6590712806019304f7e6e4eda001ab2e72013e15cd0e0002dc8adf55cccb28031ee3e95f1854b2510353029dd43c8acab205f777efb123cafae20190b95fb2599c87b60228ff666577a2c908050bae81fe463301e60297c96bead93c7240063bf0a12e6960462000575e6811ad10e9844,
   0x2c06881ecd98d9618008f8aed024b0dbf380524a3248b1a75c7c20499f3530b7b70549805dbefec4a2261b8ac0169b1ce5a5698d5aa0006c961ade17bade803081e3e700f8577e4039daf23dade22c46e05fffb804de997943e01c80feb5c9e0775aa01f27359aec02ae6fa04c6450788d30727c2028615f8ee5954d1aa065b39dcba37fc1c5a00575e216288623a2a4,
   0x2fa897b1eb555087200a4878a426a53a9a40554b5aba50ecc7aae0482e5ff7a77df7baa05b14594ea742ef7b2012c395bbf18f847760011b120aaf494f83602f27084508098a15603e8200bc413278b72060352f9b74b70b01802030a3173a5778b4e01bf0fc5568eb6f8e4047de4d5f0824d4f400275c60a3700177d0006743f104328c20ec200575c60a589d12cd48,
   0x334c18880e8f88acd00bfc198362b4a01de05814dd722a4bca54e046890a03c1385df4e058256b69ff09e07d000f37352747658ee3c0023698a67ecbe4efa02debbb3f9bdfdf1440431b9d01651537f920601e0f59fba6c8e4a02415ac6ae33910cb2018fcb6042b4e488b604336662e8e7849f420266645346f58f03e8068681dc825a58849c0057592bf5d3d836e24,
   0x2738f0cd97e7dfe2400ac17c4d7e8ea3168052f284ee4572ca1500465d854ac0976fef2060f15e58b2812507a01906e465d435ddfb80000e0582f85b007000357d10f86b31281e2038897c8e369aede840626187d5e57e209ba01ccac0c377ef2a850023ba5b305a698228a04f2ea890a1b97f122024e53ded272b91fa00631a408b402b9a04200575e2b0b995ccc72c,
   0x2ad25d0cc379fceba00bd462dc5868e056c05609697758a62fff004510690d448d593ba05e72deebe1d91986e0150f48b908484182c0007db5b2bf7b79d3a03411781a74635a2bc03d2afe196bd8debe8062bfb74385d9a318402051557c524309d2a02065f5e2a135a805e04ac75cb40eab67af2023dd28a11d7fbe2d2064e408d6d754e93aa00575c91e09c19b4998,
   0x2e766c8667856ba7400d43230c72beaf9a0058e13841f809a7a0c0439bd24803a29fa7a05baa58ff7e222388001161c6f64f253b7500015a8934f6132644e032b7b25e2b0231745041bb29f382287d14e062c9298c9af138e3c02405f7c9283e2f6c401d4a60cdcbd0c4ca20463d076f1ef0b5302022f10c40ab3b8e9260664740dc35cda74860057593a795882e83d4,
   0x32137cc6721c374ad00f0d3bc558227a4b205b78332c93e805c62041fb9571932ec1358058a5c7880f4dfa2bc00e087160a2944ea240029f839ea9eefc1320317d399fa191d2f040462f9e106da551f04062856ee23ceb59ebe027e1ed1d77f861d9401a76298750c7cb53a0419eb76fbe83f28f202219a863ca558581a0673dfef0613828824005753e148f930d1ad4,
   0x35947988d7b392d45011335f6497229d7bc05dd0f0ec23430cef0040275358ce2af9d2405576abcc29df00c1000b0bf114191485e3c004456658a97b85bb0030744182fb22fe3cc04a801f907cb54889406200f26c60d3c684a02be08d9706dff2aa0017f9ea2006bb9da4803cfc54693577a028c0214a23a620dceb0e6067c27a972b8f66c1400574c520c548b2d8d4,
   0x30f1320933619798b0125f1cb7f27f77aee05e8a7f3c837d959de03d6929eb476b0f780058daab9cd981a588a00d24168cd8ec66dd40036c3a0c2311a7faa03503fea706227d1070492139e561d699f680648c1473454de24d602bc0ef9ae0b09d98801c16f938a85a3691803feda62e7bb95d5c001e05c1d197699cdee065bddf7a050a0515e00574c65baf7f13d628,
   0x345c1917c698a6eb20147a392991df0e4900609b285ea5df9351403bbb0b09eeb03de78055acab3cd16a9e38800a69892be4c59c4500052667fdfd91fdcda033f11ab89d6b0c5a704d28f7a7e9d8f3d18063dbbac5a63d9dba402f8bc6aedd92ef984019bd5a577912ae47003b78eadbad123f13a01d68eb1da29e53b5e0662069baceb13138c00573f95a337230d514]).map icosaRowOf⟩

/-- `s2/ahrens_beylkin/ahrens_beylkin_1932.hpp:13-1946`, `1949-3881`, `points` and `weights`. -/
def abGrid1932 : IcosaGrid := ⟨454797067148133300, ([
   0x1ca6fc3a4e2fb948e006729368a7e4d433603846f411bc90e6e16053eb63dfbc938337e063682745fba4fbbca0328eab383859ccade006a358756cc778c70033a4f100ddab2e90701c5812fe219135e660536bb596cb1259bb2008b482d96379c0e0e0325de62b737726bab062211c709170f2ae603684b2e9f27d24700855fc8e43b345cb51c005738be5b0e9b8bb48,
   0x1fc8ed80f3766d5e000510e898f39aabc3203ac2b0c1951035add054c375509193bf55606254a7cdd01d36b2202e8e1618c5657b9ec0053f2b067f97965000312fc6b8fdd9435fa01f7e140d869f8f98c0544a596f98bff889e009cc121a4ec92a02002e5fd3ab39689111e05f84b4c00bac854ec03680a32132b57d7ef059505c6460c5530760057430e190dbdc5724,
   0x22e8d7bd236c809be00416b73c5241acce603d903ecf09f2a22560551e4743ef4a91dce0612857ff216eb042602a6c4d0712ddae512004052aee7edaf876602f09458dadd1bd10c023053c707c0ceb7a00554c38451b51b113000b5fa00fc2eefa9bc02a7dd954e64462a9205c9cebc659e1545420361964fa6d3e35c5f05c78bc65335e94024005745244f28c214be0,
   0x25e8c6225259bcaa000390079bd81bb462a040985f1924b761828054f47b7f6f209cb0c05fee40e5baac911000264ed0d62a3dbfb020030171f4b312a037202d487ed3cce9a572a026cf7b0c93346ded005669c610d50463a5e00d64076011eb60330026dd667d4f46d562405983288f3d09c0ffa0354f14c38503ee6ee05f5710eacdf95e334005745a80b0a11a0d28,
   0x2916b22a6d60f37f20035b10e94abdef5d2043a4281b9ee1645e005494f43c86664d5a605e6739b95673d372a02230a0ed6f5d57f8c0024c3842da6349ae602b8c80f4db532456602accef38eb7d9684c0575a09f174dd9488200fba96b0b3660e0c60233f7993dfb7fc20e0561a32585ad8acc3c0347f8c9f47c1fd96a0620352aa5f6911b8600574c9ba57d9dc4914,
   0x2cb7c59cc5886e4120036486edaf12ea96e04686c44260e9a148c0543b185feca6d77b805c57198a8c108128801e0d775b54fb6bb4a00201ab4e3579e46dc02985d6ca7544cd46002ef5f1ae966093998057dc201137180483a01252a5e2d084e42fe01f7052face9474eb00524195bae56028cd8033f79d9bf5067aa7a0648c12f487b1d73da00575312d80af078664,
   0x30a4081fcbe0885ec003c1249066d47918a0493c28344c1da9da8053cbce3dc645adfe8059d2991a14d323d6201a02fdd6494c44602002283c2b1bd7174d80275df3fcb5c8fceec03339a88ff70c8cc0a057fa57133c6f134120152e9ab1a2162128001b9be63b9449a62b404e108b58f353cd12a033a0293d9ab29b28f066d22cc44c84b65260057568f2b23e5ff41c,
   0x34b3615e3dfa697730047cecc5c0b3ee0aa04bc1324b2882c1a72053328b1e0263ccdbe056f32f39b8529b3f80162b7f4bc1503c71c002becf82ec752a0e20253a5251b327ead0c03785355cb9a91240b057c27c5f52513953c0184a38204f194d3be017e99c8e958f006e4049a279769ab9b263a03363f5af4a2ff7368068bdf3bb6507ee830005757bf6b599149394,
   0x1f2ed76d3cdd060200060178b22291de18003f6b95169f8fa82020517cc70eeced5e0c8063c9a80389f5d81fa02b6065ca2d55fc1320037db9eeecb9b5a52033955707e6a916d3e02340716d01805ef42058121fd1e768dc64400cb38557c66abdc5402de4248d632e22ff605e187589067ae66e0032242fae013b4894805ab29277c69e662ca00574762fbfb4247c08,
   0x223ae951032284370005504357f9b3f5a3a042671a57b6add76520517f6fd04fe8b6cee062971c8d7c7fbc8f002739e6b4234afb62600261a801c8a020e2e031b19637b05511966026f96b2ead54590e00592c8d042b2e6066a00e92f8abb96f59cea02a28820a545ed023205b0e086020897a7f80317747d01baccb50105db0c07a40b7ee340005746a34b3e614fe94,
   0x2548ba0e7a35f5bfa00504227d03556fdb404572bf18cff44c00a05128cc60b4884b7b00613598cd1d685edc602324b94083c7671a60018fd6f0d116d1b4c03003f19c5adf2d31002adf8bdbe70d90cac05a33e9ba539e83260010cccc5bdb2c7db560269904ccb60603ba4057caabfd788f3565a0309ef7e05907036e406065c1cbbe9df5f5000574809b17bebe4dc4,
   0x28b169c5b923a0f1a004f2c3cb52fb667ea0485b5009d43158540050d03e239392e757405f6258e96605ec7ec01f10a56ac94e8dec60011b2dccba6ae289802e1f5306f322b176c02ee8e37c5c29e6c7405adf4dd8cf29b122001340b428c8bd9add8022e83b6961df105ae0542b414bd4c24b62e02ffe4ff722d858a3c062f5c47fa1e59e24a00574e5261614d6be9c,
   0x2c71d31d9eaa77ea200528150b5a0dd7adc04b1e18b6a46adc9dc0506c7fe543f899d3c05d191b8d9569967d001b051dc02cb26379a0010db481c50b6bfde02c0b66eb2998ce2ac033155eda4bee7702c05b2a6c2b863f049c4015f6038aa397a89ba01f1f7e49c1b4cf2980502d32ec2d8595f5202f923df1189aa0e7606554ceee2284d6718005753791c2c3262004,
   0x30649246b655eb40a005b56db4a0abaec2604db7333d72417235204fe5ef21dfb170b8e05a6e4062f56b0ca220171d575504d8366ce0016bd7c162a90ba42029ede469d0381b64803754809f2f0f9631305b1f736d966dbe528018ed41510f0bddd9401b66ed4842dad98b204be74941680dcac8c02f45db554d24f584a0676758b18c1442ee000575616d6c0866773c,
   0x346c2d95eb767e6a10069f30d52d27b9dde0501c9e5b6a4e0b00804f34e42b6b20fff400577456fc49937e7ce0137182246b96fd354002350901a3e40660c027ddbe23b0dc99e1603b90cee5f1a02f0b805ac3ad4efa8e64d5e01c1bddaf485371614017dba9f7f4dab0b260477242d08d9196d4802f11285dbfb4f021e0691bb8d90f906af4800575629bddce616168,
   0x215660ab58870bd4800709d2a9ce325c08e046e157fee466d417404d9677538c0da3d34063d56d5e43832b61c024954a0cc886b34fc0014324fb19afece8c034a9765a4bd6e7b8c02aaeedfa488519bce05cb5b251308e1f552011eeb34c38382100002a5bf7bb7d09226fe05987eebf74b56667002cdd3c5ed5e0939e405e4205a4aa95d7ea8005749d8a21a26401f8,
   0x24a1768e513b9f3ce006db1ab04fdd8cc56049e3b4a0d4759f1ba04d3f9bef84a208e6e06230c55d440ad09680207212e664fc1b64c000a0b1f1da8dedeac032d6165fce09bce6b02eb54574f2ae19cc805d8dd3949b6423d7c0144e9ce4e924eb7fc026ac7ba4da4bbd4ca056072aa2504ccf00a02c21fac7246c25706060ed86e293390802800574ccba455592cb4c,
   0x283d22ec452a3bed2006ebd0adf9772a16604cbbb892693c86dbe04ce38344b38b412f80601e1e02e8149cc7001c5c6c9e5fb9f3a380005fa3364d5db7d02030d425031bad26dd6032d53fae923d38bfb05e07cd7eacb7aee8c016e5921af0bba032a022e89a160bd365e9c052329315d83adbd3602b9daceb78cba306606369722956e9280b6005750df36d5cf28ce0,
   0x2c11a365b654b0a940074d31c82638ee7a804f6b365a176fcb8a004c6bfa31ffc74cda005da8a1a4ca9072c980186412b3e4e295aec00085aa46180fb35f402ec009bf2aeabfbd603709c8a15ec8c2d1305e2ba6efb66499a80019bb16f269a0dee9401f2b9a35f30bd0ca004e14321b92b1824f802b3da4721d6a8e4d4065a166de515878640005753c5a1f3ae1c9f8,
   0x300329abfc2a54b1200807b82047630359c051eb0bbfcfbfa107604bcd1e79b8181524e05ae05db1e707b41c00149f505af0cafc264001149c3be39927a5a02cb24c24688c1775c03b41d25044eef1ef505dfee30264a68f28a01cc9de4ded7a28ad001b926c3f5494d9610049c07dccd3107480a02af721097d1a01b0606782608bc1f9162c4005754aa795649d301c,
   0x33faf806b7523955300916e1073255fbc7c0542cc016987cd22dc04b0acb986a53fc1b2057d58091e8df8ced001123d4c3cddf30226002090842be36ffe7a02ab697eb5556e8b4c03f64e3e8a549b65bc05d82903ecc6a7577001ffffeab90d5308ec01831ad8841fe2d89204550962ed586d1c1602acbddcbd7e72284406901c2013cf22cc24005752cc170d98b7d30,
   0x23edd71e2c42755b00090b3d1269231582004df86e2dd485b9398049389500e55a8cae4062ecdc030c2057a0201e2bc6b047d19921c00023fbff99580a468035c24f67af64cc04f83255c04554a4afb7d06087bf3add87d1834017e6a07fa7ff2506a0271307c3179ca2d6a0543d945e74582edb4027cde0869d7c64dfe060fb3980f401a5e7c005750b674a19b11da4,
   0x27aa0eded8b459d660093e62aa54a51a9b6050c3e899e690becc2048d0f3aa1a317c076060aac8d411f34a49a01a1aa3716328c4ea80000f1c89e2833f5f0033b361d0a0b9c5cf6036867fcd621fc36c3060dcaab915bebfb8801a9d3b7603355fb1c02349e991d54aa1ad80504150954684258b80275958bf3c73378b40635f12963ae39ad3800575228427341bdf24,
   0x2b856bd4999265b90009c83b395f001a9960536036896c58db942048446452350cca24005e1595dcc84a6db520163ae24c40f52ab9c00061974862169865c031a80768616be89ca03abb7279deb066f2d060e10ee877144e06a01d8c04240890d273401fa1863d3ddeae74004c0f14b1a4bd33daa026ffc30880c09fd7a0656ed12ddb87043180057527ab612b1f3ef0,
   0x2f675bd12a126651200aa8863a68dc5f9a2055c396937a494fe8204790641a7b0cd15c805b3e407ebaa606ee6012a09cda604cced480011880f7193b2c7b402fb0fd0b5da3c80f203ee056d126a10cb0206099645dc73caada6020a64ddccda5ddea001c30a21dafee01f36047bde5910cf042594026bcceadc94ff9a100671e31002f778144a0057511d0cd4724e0c0,
   0x33418e72801bca3b200bccd1cf83062d6ec057d8ac5ea49d3066a046ca20e669994e57805832fc6518938c72e00f5e9026794bbfe440022b2f5560a54e51802dca0486d5bb185b0042d709824c55f5b44060013e70583457192023ce12063f63deb820190032a09bac9d7ae043692a7ede851192c026a04e9df9a474d500686d03974857dd37800574cbecf1a2f1c3d8,
   0x2ae11c6110a3d57c200c92e6377f0b9a8840570636d3fdb271742043fc7027e95b8b23205e55cdb3d58757dfe0147642ca56f2fb8480009dfe839b7bdf64c034b2ea3d8eb4548b003e39c2632dbd9cae406349fdddea05108600216e6ba9d34faf5240206b2a7e3a82b82ea04a0e0df48155bc1fc022dd23aba8c4d7474064ccdd4e212f5b10a00574e93277ea97d6d0,
   0x2ea24ded26790f33800d918a6ebd8fd27140594697f4700c494000433743a7685dec18c05b7ef8cf13ab126f4011120d4bd3199819e00174d6c2cd97e6284032dab9900b5c449260423b586a262c6dfdc062ed01d0580938b2a02485a50977c58de1a01d2ec0f7c31185e98045d30036cb6051f1a0229cbf30c62b4135c0664811ee128b93d2200574c02eae8676cc4c,
   0x3267fc9161dca995000eb9cb914f7aa177205b28d093cbad62abe04280e419df3b9601a058729b1e0de450fe800e04a224391329c140029dd0be08505b928030f69d0197805275a045ffdbf7f222d8d1e06234be53b6ac0ca9c02790d7a40e1f1e3e601a209cf7803d712c80419c9b13f6a16fb560229dea47359870c3206773eaffe50a58ad800574830bf44e09a5ec,
   0x2e06e3b82d5b6a67c010cdcd2fa9f9904f605c957a4701e8fdd5c03ec1b828d63918ede05b6446c070af93b6600fb28ffa83111acee0023b72b464ee21fb8035fc4a4254ca845bb0459aba6ab3463def6064e7e956a12f5ac960289b234da0f87e4aa01e44ea75c81c8922c043ace6f3e40198d3601ea1f2fb3ff3cdff00652168c21243753d000574953a30f70f9bd4,
   0x31e37eff819f26886011ed05b6085434ed805e410774d2e1269a603e3512c7262034f9c05838fcb551045a58000cc31e6bcf3eafd680037f88f9b82044560033f038bd9379ef1e70493baf1a0c090a984063fabf9e00be0953002b8ac6c0c522c969c01b309b281f72a06e003f795f1fdcfd0b80801edd99933b74bc3e406640508e3322ba0d80057472416913ece63c,
   0x31db9feafa2dcbdc601561dfc0c8385a3c60612151f9377034876039f6a2a4ccd85392c0576874b1c8fd1ddba00b84d117138bf3a36004d8d13455b331880036948ac4cb56d856804c9cdac0feb2714e006540ec0743e22080402fc4597fc744c796001c0ddfa386111ad1203ce1c99083b76094c01b748ed7c159fa8e6064e22af03e69e9eee005743223fbd4407078]).map icosaRowOf⟩

/-- `s2/ahrens_beylkin/ahrens_beylkin_1992.hpp:13-2006`, `2009-4001`, `points` and `weights`. -/
def abGrid1992 : IcosaGrid := ⟨481987505892042000, ([
   0x310e9ec645cc727480033e3b24415ec41ae047f20ed79fcc10cf2054fbb3e3a728cca9405957d0db37a58854201ab04c919d72221d8002844ff5b2b9eaf6e026604251b325ac6f00323b71657e5c168ea056e271b16e5d49e7601440951f8ca75bc6001b6a37c02c16fcc8204e61c649b096d8ad403508f70e8d4efbbed066b7f90d81163d78600574d289720d7f8438,
   0x3430cedca4d75bb94004494fe38d320575404b3d933d42ccf3b0205375c2bbb65bf5d760574df3ef3a191fff0016c7516a3dec53764002ae843b91fb393de025617a25016c86fae036c97d3b621cc7e2f057a93cc26ed830826017b64dcb0ee98cee0018621d12392322bae04a4e96dc71cfbbbf00339d1b4f089933af40687d8c4b334a4987800574da7becffa804b4,
   0x299870994a73239f4003a97c39f9e1f0ec2045318646b3d726e8e053b6ebb49600c865e05e51d823ee85b4706020c6832026850ac2c001ed1245bd1b4c87802bc58ab0228903d5e02c678440584f69f9605842694fe0a3b19e0010e8cedeab13d370602282ed14634bada0c0550f3a882f485cb4a03366b606b8025957c062b2a84d83f94f4ec00574ab1ccfa9e4487c,
   0x2c7991c0fa1c8f3220042f511ad28ad5bbe048b0216acd0d5503c0526f219a19204a86a05ccf06d499ee3179c01cab8d5d56748a0de0017dd36f3d822764c02ac88e41a69a6735a030d530664cfe5dfec0597c3deb010ac6c00013f82b2c44b0ddef201f5d0b08eb7d36de605163839bded101228031da2b0872fcd1a89064e97957204eff8a600574c32cf174c4af84,
   0x2f89fe33d570d026a00508a405564aa9d6a04c06923fec4cf4f58051067e0d6bcb3808a05aefca165b4f4c254018b33d75c414ccdf600174d311f7496e4ba029c2a46debbb55fbe03553d092c2ba9f3ee05a64215fb81642fa0017459ba41db7c1ba801c470e69231609f1004d74341192aa001a60306bf74ed894d099a066d7469f92398cfe200574ce2cc109948448,
   0x32b1e7078741a02260063b636364232639c04f331ec46b03a1c4204f71b6348d1ec16e0058c3e501ba912b2a6014ecb5ad051f6972a001d05f2c2aee52636028c97eb758d5b2eac039d7ecf08628e037905b02c054c53ad61ce01acdb442d01352a0e01957b9e43e543d49004952202ea00fb70f402f0fc3c4c6f75f2780686f0b4b3243c332200574c97f36e9ced230,
   0x35e118d1cae11a30d007c93fc55de24bda0052333ae0e694debae04dabb08865d8fd99c05656d120f54bde3a201162a4f138ba9ee1a0028e1a1dfc0cb9944027ea47388d4f8b9ac03e57e1e85132b2c5805b5d9f464e0027ef601e8b8b511cc2f84f20169dca989a90312760450a5481028c83c6c02dbf00973f8d07f02069a921bb868f3c54a00574b8a9850c1832ac,
   0x20b085b850e18d1620050f1d14c1f64a63403df1011e9efe9a8f80537551f4b9dac534806295d36b2c25b326202b86f0c70b60d415e003ee20274bb1abc760316f26d2283d5e25a022841d60161ba693205669e689f5597ed4000ba9579824d1a656e02ca7edb481a57438605dce9a4d858dc9d5203462320600a486aa105b30896592fabfc40005747cfe8780b79600,
   0x22b5e8516320114b4004fca9ffda88218a0041dab1d519f463a180522f482378751b8c006232043db223682a802754298b2102a5d2c0028a3c3abcc6ea3c2030f8e48fc6ccea29b026ab7d959a62e7536058974b2ccd792a68a00e2f246210dcaddda029c697503ec3dd20a05affb6fe2a1a5a1000324034698e9bc9f7e05dd4304acc8adf2d800574905b2b808f4e48,
   0x2523497e3c10271620051e3963445b5ab220459ce412bc510ff14050f30cc0e4d60d06c06153dd673b1aa47fa0231d68f6468a7e46c001844e00b1be7943e0303c4d1cb9975f31c02af6fbef939e7344405a60aa94cf013c29c010eb6865a830e9352026b75458d9275e2e6057cee4a35aaaa37c403062173c6e50524b40605a2725db487cf8000574a42e554846b36c,
   0x27e48f37889bd03620057de8d2ea7a6bfd204930f04637c4f803204fb58e5ca030374ae0600484e8e4a3fb0cc01ef53e7c73885af8a000e1a20f2bfcb2d2a02f4ca40e093fc583402f5a496c7f659492005bc78f555577b4d14013dcc8a79de3094f202391854032061423205449661b0d6a4826002ec00f78cf14dba42062b0b4f512168f4e000574b2be6371ead28c,
   0x2adc808b398bac4f4006279b469efef1fde04c95abc5fca46636a04e64bcbe17275f38605e55513260fe5dd0e01aeee48a55e2fb65c000a363cdc80cfbf2802e4722cb3a1eb1556033c984480d9f8e6c205cd5f7f3c22d384b00170345e5fed2c2292020731c032cd4f2f7c050814a6a53b4a0f9e02d48c5f0f1cabe7f6064c49ed64ded256f000574b8669e1474f568,
   0x2df1e6c8477c2f160007244d9fc424bc15a04fcd93b1a0137cca204cf04945f3a4ca5bc05c56eea949fc8a0de01717ba09b9e203a0a000c7cf84472b2a45202d45729b4842a62380383cdb9e271b7f21b05d97bc37503daed0001a5f99882160070f401d74382536db9571204c85b43338957ae2202bead4d7e63f4ee2e066881349cdd9a725e00574b2a93d8ee83bf8,
   0x3114e44258311d335008759c4408a422924052d56b9c7135531d404b539d6761591993e05a146511edaa79a2c0137acb768229997160014ce9eba3856a72402c5437a8306ffdbba03caa41d308fa74dac05e11ad5077412a6cc01dec8bda4edc1d8f801aa37dcee7485191604863ab38a482ceff202aa06c1d151548cdc067f33f560cafccb12005749f6b93d2041254,
   0x3436bb10f7075b0f600a1cf2c1121c322ea055ad76bfd28e7a61204988e3331e40dac22057990093554635d0c0101fb1ba53fea8b860022f2952753b7619e02b8029a6a183c7ff60410afead427ba070c05e4af03e0695dd22a021a6d66481eb4ef460180d7b28f0df64cd2044265215a4a1d29e80296186117a6a5b3ae0690090452af0b5234005748b891809d7f58c,
   0x3742892ed4b64879900c25d49bf4044701e0586452a9b4be61d6a04779074757bdd688e054f468a4b44512f8400d0899b219bbe505c0036a1b86da42f5c7c02ae47392e26ab9fa20456402fac660d4bde05e563a286329b259a02598a482c922b9250015c452c7337d34b9403fd447d905578db76028144fe1d43413e2c069a79043469d99e62005748b081d5ad97860,
   0x1b1c4e8b2250b6994007687e70f7c5c4042039f1456a038213028051d551261e16a0b68064b03c414b169f29c032471a451c71f47bb0061b2d1dac8990eba035e2f1047cfdc228281d37a04acbd71914e0553df43912d934c40009d6a8d9ea2d0351e033946b9867ae2682c06261b6d535c7023080341a77ee1c583ce8205590cce25bba131cc00573ce0bd367023ea0,
   0x1c9df3f158417abf00070c4c2d9143203b203debf150896a8319e05099bda82afa75466064e120482e37211a602e31aab2d7170e9880044a6c5c169b16724035b7a2c7f99ba04fc8211414dcd4e252584057d1be65224356a8800c0093feda26f8058030f38a8451bf188870601d0804865a98264031bfa8c2493dc818a0584fe54aee8655530005744a251024e11820,
   0x1e783e7bc020bf32a006e516735f839af76041e3988f94e05959804f50331e45c08563c064aee023fb95914b202a02b951ad5cf4470002c1706fe51e694e00355e2ce9953a8c6990252aca95e4193325405a26653be41e2affc00e6f3f51b42022a7802e265f5527c22777005d77128f8e1d2c7fa02f833d93a1e62c0d605afe020014c23ebd4005747f5debe69e52f4,
   0x20bb5ee3023c94c58006ea9f436ffa77630045b9cec799821d32404e1393880a67105f6064071af06af1e12d0025c83eac2225a69f80018dc54d2ac5ab68a034bbf086150db890002968b0dedfda5e8d605c1dbf7a2d39a49b001111ca66fe69289ae02b2518a2675a7299e05a70430cbd3e9b36e02d8877b1e840d638205d9798a1de0a8c0b00057494f8f9ce03cabc,
   0x2355177a0e8fb598a00726035455812084004961dbf6e1abc80b804cdd38af9497268ca062f01601c7c55e2ac02198749c011e9d208000b78326c51bac55c033e04fa85767ded5d02dbd2f902b80a824a05db3d0f341ed8bc04013e3956fe0e8d461402806f4c99184114ec05716bb2301e190cac02bcdb197a8edad740060094af8b0644e98200574984dae8b3dc6a8,
   0x2629537280a959b48007a30da842b20170204cd70df27c3f5578204b9d43c5df36d3cc206179303743693c62401d88d70840fcff34e00041e00975d4a96e4032e67431c03c9c99e0321a149c648ab487f05eef328e8ff585900016e3244e2c355ee66024ea04a70dda5736c0537cc0ac9106f74d402a450883e1fd463e00623e880a95978acae00574933442703594ec,
   0x2920afacea2cb8ac60086918617faf2ffac050181b38b605650fa04a472cbeb5136de8a05fb1425c1f3c7e404019a867b0af0687a700002c394454b0947ec031e4910fd90d0ed7403674e97cc28350b9805fd845abb868a133401a0e8acf44d7598e6021e546cdda05219c604fb1f81a203491a1a028e18fdded8808316064297e49a53a3171a005748511a71b870a14,
   0x2c29a54a41c508e980097cd405e4dc3c28205327222c8e0dc6174048d0aea54d514014405da4c9bd4092ea2a2015ffa63360a48da6000073e05f345b65408030ebd4155f90847d803ac81489f3253cbdb06078118baf324af7201d6538ddfc8a89d1201f0899da11256180604bc18f81f227c6dee027975a6e147e6c04c065c207241580662b8005746eff465b0e6c4c,
   0x2f3941b7e7c45a6dc00ade676cac76261ee0560372597fa00c0ae04736a03cc488a43e205b5c57bc2f0a29f1801294a69b9bca6538e00115eaf5ac517c1c403004f57b15a1ae89c03f0d99b9f1242c866060d374b5ce0d1ed2c020e393a16612e827201c5d23129bef0f3b8047b48553b5578aa340266171abbc7ecf6e00670448e87e4a10490005745b9eb325839180,
   0x32438e97f979150fe00c9578a46db2af8b4058b66adbb59cf63220456a6f8a48d650bf4058e0ac30fb9ad35b600f682c3f41fde02dc002102740d362b25fc02f405b27a36ee2e6a043496fdc2c77b060e060f5a2321624eb5ea02490c86ec321070b4019ed7da2dc4ddd5940438dceac3479cdce00252fe86992e00412c067eb10b83894a6f160057463e9111ea09e48,
   0x353802883fcd2173200eb3de6e57f6263ce05b511dae3481930fc0435008cb53afaf3e20563b83021d68a16d400c7a2fa065da9705e003635ea82c982dfbe02eb997c2af802623804786a4d76cb3a301a060ef2ae0abf4287160287eb2a89b3b210ba017caaf6691388dc0403f4c9aa5ff2107836023e7275e98f81f0dc0686b5ccbc252a24de005747c71d5ab8b8998,
   0x26ed1b5347c106c6200acc383d2ff5697be052dac35285eaa1c9e0464947dfdd8fa487a0612202e4347ae8fe401943586b938c21f4e0000b26593151f82a2035b871739e91b302d83853aad9e1dca7bc906270e94a764eb8cba01cb01ffdf15df86d6024046a4f922f9346a04f6dfbc02818c9cac024cf3a272bc2fe946062ee41849d9ba6518005744fc4bfa2345c48,
   0x29edd75935a41f94c00bea214d50d18da5a055d12ad5ab9b15e1e044d4530087be5f05205f0f7f26489026362015b5c46fa0d877a8800064ce56f56ff82b6034c3d6c5d383138da03c91f2a2cda373d82062fdc1407b1f48c2c020002f7edb2c6e0d40213b1765fc3a0ea9604b86bfc671472103c02391ae642ddf4bbca0646fb4286d7ad4e70005745b72ec14f4ad88,
   0x2cff7a4ea854f4dac00d5bea72916bac874058a28598914a8cb3c043334252778f4166005cb9ebda4b9f16e0a01257a18c14fe3b2a40011a11152ebfcfbaa033e00c9f172c22cba040d49fcd626289b060634a412e9448b181a02386ccfffa2bbdf5001e997ae977aa16704047735a24ac1d09e9002260a42f0bd10b2a60659ffe3d42fb2fa0600574753af582649654,
   0x300e6697b603fe60000f2e7c8cdc06b995005b53a1de5276474c6041532d3dc5d24768405a2c2f4d74dd0ae7e00f32d88484076ff520022ce9623e719ca1603324e22c8b052281104519c41c6a2d0a286063601ded1790702440274ac192cb0943edc01c346baf219c8ce8c0433bb8d00b7474da60212a6c2911b592b1006671056e5269eeb4a005748d88e9fa794f40,
   0x32fd1c2853f80b8c70116b0b110f40c333805de4890c4793fa5f203f237fbf13311dc00057799068a14ffe62200c58f9a543e9db8220039ba670334b7bc76032aed1cbeab2220ad049557f041e8b9f51c0634b473bb9b9f82e202b4a65ceb500d49fe01a285e461fdf2474e03ef31ce2d67d0141601fdd66d1fb4b0cfe0066d23f1d94e67698800574873d1e404b593c,
   0x35baebf3549437fad8140452280c5e8c7600604603d3fdad58b0a03cb168f4a58aee3ce054b17cba890f31a76009da927415fd81fc60055e00c78d94e1666032800534cf8f1eb9a04d6f10401749c63dc0630bdea1e70a2691802f6e3aedc5639a17001880e3d494c729fec03ab25b5a4e473f84901e81a561032912bb0066c1a31add59a6ed8005745642ba3d53ba4c]).map icosaRowOf⟩

/-- `s2/ahrens_beylkin/ahrens_beylkin_2112.hpp:13-2126`, `2129-4241`, `points` and `weights`. -/
def abGrid2112 : IcosaGrid := ⟨507326487442437500, ([
   0x33c01bbf8c57fc8f200342cc4ced0fb8c5804890654ea3b55815c0557de70f59ee106a005758a75b21efcd834018d8de4d0a3cd5e0e0030de6de86cfa12f802465a9fa4920e648c03415b23e8730e2e270560862fcbb070d41e01568827f64a657bea0190dc3bb707ced76e04c00c11c494bd4b16035e0332ecb05b9df7867d882b037c4c87fc005748d32f116ee9c38,
   0x2c858c369c14fcfa600311e9a1fe6092a140455c796219f1134f6055038ecc2bb89de5805c4cdc9def67cf4e801efe5f6dd3b0afe10002447572f952c1b7c02928fc9227e9c1efc02dd1faa04d24c15000571d7164e1d63324a0116b25274d65368dc01fcbd39cd8be80ca8052efb3a8a03c8ca2a034e95b4414cedac000642a3e807fcb12bb80057469dd6fb6b7fd2c,
   0x2f238c65405d69744003d7ad6d9ac33ab3e048f7a82519e17a3740536503522efef9e1c05ae9376f498749d8401b019d5935af60f3e001e5e7775d175327c0288b1b2f1e6be48c203248f667af419e88a0587c334adb8f171e8014a7c5eeb11a2bd8601cf3634f735b4880004f517f8f9e76ac458033105fab56fa6a28506626e1c98301d29260057483814042cb02b8,
   0x31e5e0620afd0e20b004f45cbcc0482f38004c6fd88f2a2c0a5b20519cdef698df8e20605931e883742ce6c0c01729dceaa0ba047c8001ea644eccca9f80e027f07b926e9675f8c036d0a8ba2484bfa7d059919fbca5e4ce74401824733031180b62a01a33d558943792ad004b75424999ce037500314b0155ac56ee78e067d6edd7fd2cf6f4e0057487ada7a7c28758,
   0x34b6a3b318b1790250066ba2fdd7072842404fc1cc61b4671240204fa304f3c8092e1e605735cfb1c40e5f25e01385d25a73008096a0024fbf3bc6da1c5a00276ba901d536e5e1803b5ca1f906652514a05a64e6fbc5e9e640001bdbc1efb5628d138017a1b61c832d8c7ee0476bdccc7205043ca02f8fcb67d82af3c6a0692f07a7b691a05e8005747c139c226528a0,
   0x25d45bac1b0853b54003cf0d52c08be33d60419dfc2740e468f420543861749ceeea81a060301a26138cc619002598d951d64371054002ab50cfde703455402dc95dcb0e3a09566027ac65bffc4dd40a605734280b60501b45800e1383495975fa3c2026bc95d4b85f2174005923522fbdb1de36a0345dbf99e4991ec0805fa093ee17f4b375c0057427eda6f68245e8,
   0x27ff896aeb0c096e20042af0817edd1c0280457569b4be9a1fa54052ade34b9bd418e6205f70e7c6beebc472e021840b5f1ff49d912001b57ff5f51d941d002d660e9a77ea3eeec02bf9fdd30c13a1a340591dc83f469b3900c010f51ffcedd91548e023f97beaa9b42576a056045516f0b5a97420323b5545a4d707cae061ed8352948f9a120005746387eecea04d7c,
   0x2a83829cf4e18732c004c7b87449056891004925a94a266e8ab820511dec83a56d63b7c05e3d5175f207b421001d7697bda76d2c24c00123368222e9ae06802ccf403c752e7cb200306856d5dea59599005aa742aeb54d2b21e01413161e837998bea0211b19afcd88e6af4052892ae94a621fa4e03050f574dc1a9199c0640dcc2005fd4ff68005747b0a55a752497c,
   0x2d359f22ebc83e908005b38b1b35693160204cac874950257fa5004f70f6355f1fe515405cb018a144639cf540198bf9b48e5d4b52a000f3d1f83233bb94402c2dda0eb3ee2fdc0034e4b3fc60e93908f05bdfc431d776561ce0176a8f93bc7a9e46801e4bb2d79192c2a5204ecdf16a22082fbe602e86b4d450bda4c44065e7b3d0e966c4ba4005747cd407cf51d730,
   0x2ffda8bf3b66be30c006f342d6ad5bec4ac050072867568277f8c04d9d058f13a9fa08c05ad9849888594236e015d41bedc7ef5fc580012531bb91817b49602b96fdc16fd68e81a039622a715a2813f7e05ccf985c4e45c209c01af6907522255342201ba22d08e3c9d0c6e04ae4b3dffc4c847c202cd147fba71d4a8700676e6448a44dd50ec005746c7fd474d7f5b0,
   0x32c98486df58a2dd400888088ae7e4eb45c0533376593031e28f804b9c9d40db97607a0058c70188d12644d620125a17ddff0aa876c001b3b8ddc08f53b5602b194065f32c91a2803dd6583d4fa43f7ee05d7dc0a4733894ac001eb165892ae29644e0192e678b2660418dc046dc28ae0459f648002b28f5f75593035e60689a49ec45eaa3098005744e1c278d2f15b4,
   0x3583e88d99043237600a764c19ffccc463c056373f199fde55b4a04962ab3c0733418f2056895bc6fc5eed3ca00f253f4e66f6461d0002998335dca57ec8002ac9de33364d11a060423ca99ac04b12b8205df8352d51a1675d80229af8a1b6a5347ca0170208328a1d8a322042c185c6502f675500297d08a09e97be46c0696420a7e132f743c005742f721f515efc50,
   0x205971e61b1e4b50e005202b0c366ae3ede03d64084fe54b708da0539319aabe12c70c6062a82ed7b6d181b4802c29cc4df77ed772c0042780259a5dca72e031929036275dc6b3d021ebcc29fffd2805e0561e1ed53efebd3c600b55bec7b9ca9b00802d227734938bf0edc05e3815d622ffacffe034a36f69e0ffc2aec05ac1584cdd7f979a0005737f0ff3658a2978,
   0x21a9b82c20846878c0054faa3680d0aeb1a04169106d90bc8f87a051d212c25d04cc8a8062be5f00a09f05bfc0284fd57f73824703c002b3532e853beb698031d83f895b9114bf8025e31dbf858007a30058a7cf5dbd953083800de699ee5019d7e3e02aec2c876f170bd2805bd24bfeb424fb9a4031fc641a60e300d5c05d05598227e2bc12200573fd06bd176b325c,
   0x2398cc2aed8d1361800598f3dd7f960e5300455891f9a192c1f2c05038044d716ea9c7c062408981eadc11f1a0243fda4138371f18c0018fd9b755744f0e2031a3b3b1a49381a4302a2064547dd45654005ac8b69d2bd7ad85c010b2a20331286f7a402848f4676258de5da058e5ca37a8a16e84002fae318435975d0d805f5acc994d22cd412005745163ba6f9cb8e8,
   0x25f6b3e09f67d937000612c0251e8274d580491f0b2d2660a849a04ead7a7ae19be4002061441b7a709a2166002028a4ea6cb6c443c000ca62a565d6032e60312111f1c93df4dbf02e82e0244a9cc615005c82043e457d40fea013b3a424c6580b78002571026a256335eae055940bf2ccbf6115602da99d6a1aa9b4a8a06196bbfa421dec49c0057466726f34cac100,
   0x288d227de25793064006d142c1046a7f28e04cb4f8c14626c351404d15175956e01a84c05fe896baebeb5b67801c31adfe3383730cc0006640049e2cacd6c030840fce2a773a906032ef94f560fa7f0af05de28c8d3bc0d8666016e56f181e74d1aea0229cb0ba99c1455ee0520137a75b3564af602bd35736473bb470806394466cd7283dd6000574611496197fc4f4,
   0x2b3f9785367526e52007db0aa288ce503200501763993908768f404b62396ed6af1286e05e40d8329dea1c02a0186da2b03652a3d02000616cf12397aff0802fe6192760d9cc34a03757e338df638aa0005ef422d3e4d413c4201a4306dc96c18806601fe740619b89428b004e41ff6cd89993dfa02a1d7dfa1cf03bf7006543d35a49d8e916200574472c7fe84af1a0,
   0x2dfb09229c70074de00930845db62d79cc605343b6679ca6b90e40498ff172193b8435a05c5b443f796343dce014e840792154bdc50000b7a9d09eb303e4202f55feef69b21da9403bb05090ff91281d205fbe136d93d71aed201dc5968a757b1cf2601d611b0638cf33ad404a666056488059e0e02880823f62bd7f30c0669dde2bf0039d43e005741cd8da42160054,
   0x30af100f3e0aef97e00ad146f75d758880a0563ae4b479f3232ca0479908e7ba7af90e605a459fe9b956a2d1c011a8d58619f28a61600163164ab5726c7c202ee11d3350ed8b52603ff14deed52b408bc060497773f99e6606c0216831516986ee22201b170632c1f5a665e0467b88e92a5ebde54026f38bce2ebe4f0c20679e23ee6e8f7ab4600573ed56579221b028,
   0x33457e80c1173ade000cc5922c7446416d605909a912191cd2b74045699b8f59f39906c05811abb4e8a99277800eb2b90f1220453100025d26fc3a47b2a9402ea17433971133e4e0441c9d3aab89717d8060a925797e645e1c40253106608d85e56080191b243f4c1ed3f520428b5bc09db7340e60255eaaf3db6c69aea0683d7af3ad31ca37600573cc6e7d925e71f8,
   0x359882509761d833f00f1fc105bd8afb9c205bc4c0a0cecbfed0a042dcc14c9c360c63e055db3bbf1d328b97c00c0db90fc616558ac0039ea6fb46320357c02ec5331714dee733e04835c8a277f685cd0060fb21a8f423b26860292d9dee4f1f622860178ed31a3d6f4dcf203ea4dbc245c2f233002398835be549f23fe0686bb83fa5236b34800573bb818e997c0230,
   0x1b7b74994cbd45d360072eadeb3df1d217e039c7c35156dcbb028052363f1fcf57445620647356ca88ffc42bc032273e526954e2e2b0061e8f57d116e59e60356c3b080112f77c201d33c103ac14cb3c4054feaa1d9b89b6388009b088fb6215013d2033375ce5d62fd094b0623e78a85e1c9ccf20347d7d4366871b336055c838c360555ff4e00573b9f2061d28e130,
   0x1cd03348b215f29f6006e97402c0aca314603dbc1380c68dff460050dd641ee128ed8b8064bb1b11629a45b4802e3480162623f94ce00455b1b08cd79a70c0356ec5665d6848eff020fbb6821679f08400579ca9aa7961f413c00bdbfb838d86f9b6c030c8426859f9037720601498135f2afedc20320a4674617aa1f4505863adf1e1d84b4ae005738954132cd986b4,
   0x1df5f05ed5d1a205800717677a1e6f83882041a298d538226db3a04f1fb9ca0a0f4b6ca064eb0cf2ed3c89f7002a8802a77f88575b2002e2610be763795f8035ccaabf45cd6d7b3824c49a2990f8330fa05a236a02fc41e826000e4f303359a74713202ebd0915b6946183c05ddb6b495e037dfba02f671fe30ab80ef5e05a8c88f17c531aa6e0057353584139b82df8,
   0x1f8f64c926d9a0e100075b1c039c914e21404563922ae1c1ba40604d86fe183393e0b3a064a6e63f8c009cd7a026c6c2c33e7699322001b731fc65d0ea52a035cc389562b34a83b028afb226a8d1024ba05c4b357cec4ba5ece010e4fa7981b40493002c6aacca7536fd00c05b455a749e844edf802d157c5043e73e95605cb4c6954f76f96d600573bf24238e869918,
   0x21aaa593d9df39bca007b91882bd8a451c0049119e95cbfc8c9d604c0a91f5321fcdd3c063e6c015b5cec40d2022dc0b5b57e321228000d2d88ceb71d73260356a0eeaad7a6950302cd47fc2f5808320205e1aac1a1fd9839a4013aead74f18fc5566029c24b5129fb8f0c20583efc7c324fe9f0202b0bef7eaa3d569c805ee666dd383dbbf7c00573ffce33d8961128,
   0x240b26b3eb10634ca0084e3b4e18b72ecd404c9aa1c50e8a4da9404a8972d9dfc0244b2062c78e6326a6686f801efdb50e8a7f53824000430807d9b7d145a034e00003797ef78ae0310f01daa85d0b47405f988146dc0c2ab7c016a7e01f22638075802708e854c97eaf834054f076b476a620b6002931ee870891f71b0060ee4af1286bd37b000574021fd448ab61b8,
   0x268df12013b1324e400922405a851fa5b4e04fef5282b9f48d74e048fa3589fc6b6dffa0615d03782839a55be01b4bfd132bcd441f40000ad8d3f36348a54034497a24e77aac70503543c2e597a6cf23d060c76ed6121d680be019c461a8e779361a2024636499bd89a2b5805176edecfe489d00a0277ff7e841e903036062b3be5ef0815b74800573e443bac2cf038c,
   0x29203163023e7e95a00a367d9694ace3e780530cf7b5812cb1a660475750a5d534e83d405fb4d7f928a830c6c017d2eac48d42945f200026ead36e558073e033b58be1f7767327a039678edbc8cd00171061ae40e1c21acd0b401cfe18db29a3921a4021e27d87b399f7d2c04de1c99ee4cbb3eb4025ee6c34ff501ea5a0642e7ead9082f9e3a00573c113c7e37005b4,
   0x2bb9f023a6615d68c00b8dca3e629da654e055faa8b1312f217fe0459875f9aac90a33605dd6431da2c8fe29a014919de81b7793ec200093888356fea4dfe0332e43ae3f880394203d7d076c7fbc41f2206255cefd8fc2f031c020586786c24f27e6601f8bdfa327169561204a33df128a578f0c402472b264ec83bb76a0655d54fd16198d39e00573af27d79519a728,
   0x2e538bcb0163b9c8e00d2fcb2ef62a043b0058c26fcc14298d8f8043b01586537aa2dca05bc6b93af75f439f001186248b4ca68df100014f802a03512e9ba032c0babc27aaa82820418ad7f2bea1d80c6062c7acb303919b536023dc2648519c1c2b201d666f903f7f639060466c6e0f0f33ff556022fe7d8608a08035e0663cbba4a1c591f2c00573a734b16ed0667c,
   0x30ce14eb394a2669200f2bb8f0a902674dc05b6e88c5460d047de0418331d2d669cccaa0599ace8cb3675eece00ebc6311f10d02b000025875075d839f0c603290bdcf968b25ec80458e843b3ea64844006316e50c2744b5fc802791341eddb2038a401b8fa6fb3c8bcaf1604299b7b85968052a4021755a5dc0827f0f8066bbf0ea56982fc1e0057393c92a10f38bfc,
   0x32f631c0843ca57e50119459a8c389a150a05e0a1dbaae8703f6803eed274b957231992057761e5ac4f3b323200c4acb485284918fc003a8240991c62bd14032d4ae55c29eb44cb0497d34d637e1a8de60636060007adaa87cc02b7c78167a6e8fc7c01a3700e78448070f203ed870ec869d05be801faec69812399d152066c17b587e1a958fa005738d1eff970c93f4,
   0x3531b74312b2bfef70142bc1e63fec6106c06063853fde6bdd68a03c585a7ddc6e5bc7205515e376715e0104c00a137db52460628b600544c1921e19044a00330bdbaeeb6bc2f5e04d4e84822ef9c4f0c0635c28111a88bb3b402f727d2436a643394018fa7e094633c0cec03b0485d0cc25fe68701e18fc6ea9979bc2006686160ff4fb992fc00573b2f3ae81545fe8]).map icosaRowOf⟩

/-- `s2/ahrens_beylkin/ahrens_beylkin_2172.hpp:13-2186`, `2189-4361`, `points` and `weights`. -/
def abGrid2172 : IcosaGrid := ⟨450937113971896700, ([
   0x33b6b2d956250346600353fb8fb5b18cdea048be91f744c97fc4e055560143536fbe75a05765f159b4fb1198c018bd87154a2ce007c00301cf39d3ea6419c02484233ba4cdfe7760343ba85ad23817fa70562d231ab149fb2b40158a978352d543dea0190fb36b2bf408cca04bf181893c211bee0035b0d42c49cb8b57a867dec98cd25a9e3a800574564297e0c662d8,
   0x29940bba0ea5aaa3200304172c9272918b2042cb0fceea80805280556e99f739afef90005dea37923e64006ae02286b5d39f8b11fdc00299234559078960c02ab885110af7f1f6002a4119573ef5d4c14056869b7ba36b235f200f2e69667da969b34022f1a9bad8f61baec056235c3c0c62289d003588bc10958e767e206203e0185e51d169200573e23bc088bc863c,
   0x2c619901aa5613884003576584758c691ae04629cb4c6b98175800545993310df71876e05c86a6c01b98e2a0601e7fb64eee2d2f6700020ae73ebfd8da398029a84296cb46abbb402e7b95439fc407ba2057c00db8b9189b8a2011fee8dd6592500ae01fcc3494a3e0bfcf0052aa98bdf432f6b420341bcd6bd070ac6a60644d94cfb3b08fcee005741cd367f76c72e4,
   0x2f450a38619148a360040674437f0a942a00497f9e87824f36f720530589bdae1421c3e05ae0bf694dc69525e01a9153e84471f85f0001d21d93b92bf2ea4028b169ff06f2894fe032d628b3993726e75058cafee8ab98a08440151bf26d759c885ac01cc5aa980a509818204ef500025124a3ee2032a4ab328e38c11fd0664f5e976a84b7346005744271df77d2f9f4,
   0x323b7560efee353370050faaca92fb59f0204cbbbe37c4e87e9900517b4750408f6ba88058f678d4d43d5aa88016ca1b8a4698ebcb6001f4facd8fde07c2e027d059f1a15a1498a037414a31c75635c2a0599bcc1e1b14beda20187aef578ee7e65be019e4cb8749b63df8a04b0aea6a7c99840880312ff4dcee769f70d068013bda3f994a418005744fcbde6cb021a8,
   0x3540f5ead6ca3e0f60066f0da958d92759804fced11a5846585d604fc47d53edf3b4016056c838c24da3bbff2013372f4ddfb69239400276bedad373fadf8027017cbde09e4358a03bad6198fe8c6d4b605a2937d09b1b113e001c0fc64765dbb33ce0172f7e1c651bc039e046f63a20d2213759c02fc95dff9e1c70c400695d84c0805b6de560057443c53405b54800,
   0x20e4bb526522fe9d0004cd07570f19b7a6803cc5cba2ca32e49c20545085a2cbb8f1c10062302b5dab8d6ed8002c4a7ac5ed81c48760045e665a7e6479c38030c76906f4c884f7e02197bba407abea4e00557226f0fef71cdba00aee684f82b8bcd9002cb91bc27e37026a605e21de1934fbeac3e03582c95c2355b49d205ae08797d00d365d200573602c8a6673d50c,
   0x2302b5bf6cde4184400483b7850c0397d500403bb3b17210efd40053785c18af6875a28061b01da8d4c5dd99c028581f5b3416a39680030f9dd7bf1e2651a02ffe0b801aead6f560255cc7e8213753bd00574687eeb0a6fae5400d1587db6b50749f0029cc390880fc1827205b7e4b313ad71d44e033dbb78511858cdce05d7e461c5b9ac3efe005735c92afd1814fdc,
   0x257a3caa7198c91a400467228ba5bdade0e0438d331e0c6dfd534052a9e300812b32bfe060c5fffe06d7673560246444bff770b4c9a00212e5a2a4c71625c02ef758dbe6b6738fa0293ef85fd80962420058c2db9ee892621c200f6a4f12eb5673790026b881a8f8674afe20588728cb18883d1d4032710df85f6e0578b060014c70c7ba90132005738fdd840304f2a0,
   0x28227b5d602144684004939fe69b98ea040046db8c392b6885d06051b0ed5206f7b2e1805f8ef61c8f3563680020712f26e5e7f26ca00161ec515a33a787c02deccc5564efad6c002d4d8cfb2356f9bc405a0db2850b92a61de01207aedcbfbd8edec023a2e2bc274d33624055450c835192eae4e0310ab81002a8ebbd706256afdd6c8198b1e00573daa4e9c3673270,
   0x2ae7ebe80e3692c5e00517875c2e6d385ae04a2b3e6f7cd70d91805079985d2026dd40405e15035b52b55590401c896ca676e0b2f6a00100044209132624c02cf6c109bb43ec64803186d4eb953a3aacd05b30047acc849a438014f57903c00b922fa020a0efc09c3ac6b36051bf321233ac2e58802f96e0aa3edaf9c6c0646f0d1ed71f4ad1c005741952c50d81b318,
   0x2dc96da6eb8df8884005f3063f58b3cdee804d6b6a262baeab3c404f0bd61275cd6cd2805c53c3bf8c22ee142018bb42343156f1dfc000f568bb5deb23d8002c1100511ef81d894035dca73eafaed762385c1cad2e34b6f71ea0182b0933c3bb309ae01db8dfb82c1f9bf6404dfba326994a6c81202e22901601bdc151006641768adb9d79956005743b796396e3c588,
   0x30c2e79972e620f62007232f53406dd7a0005089fc46349473c2c04d71c9fa19f57cdb605a4a68b74a1f2b11401516742e573aabba80014780faa5e82cd8802b37ce5cc4ae62b1403a3d708845e60c2d705cc80141877b134f601b9bb393149e009b401af22286f1c05682004a04bce177311ee2002cbb40bef2deb4538067c5fc9288ab4f178005743dfd7007ea6984,
   0x33cd9781b72d612d9008a27298f3ed5997e05376e0be78dfbb14004bb5e77976a3c52fc057fc3a1e4e55a668a011a9ada1ba43deb54001f7c0526b5a5b29e02a68e3097c646000803e9715a798213c26605d2a17e5e02a9ebda01f38d7631e5b74b74018545fe842d6dea9e045e7b6fd14c82512002b6c4b87e4eac4e02068f6fe8a29a4debd20057420199025963990,
   0x1b5a39e82c5d7b9320073ee8cc9bcde994e039a34ec3ead6891b0052311351be06e04140647ad77df3675f8900325a5dca3ec79108600633a6469392bd00003583f69cc956a8cfc01d0aa9674c9241372054ecc556e676d27a2009a12b5cb88aa61b003365a0504702bcb2e0625c81317113736c2034855a2ea5a9d9e6d0559e9867e2fecae2e00573261fc231155a5c,
   0x1d1f2a921ab76a1c4006abddb8af9c6cb8003d3ca85f6e628a7f80516753bfb80d9e2b406472a3d621d2979ec02e6111d290a128e240047bfaed09912adac034e8b7e10b90642fb020a914ab62e1d71540572120a4a6434b7ae00b82d99eb21513d3a03090f49e36ac6abf80601ae0934cee9c80e032abdf947db433ca50586e3271609188aac005735a6f1003c639c8,
   0x1f226d4db6679954c0064e06eaa921a840c040c2f21566c4d76640508f532c45a4365bc0641786f5dd163854a02a6879a2ba2f3853e0030c24a2a3e38fe140342fc432c059406e502467adf24c8a58f0e059167618e1050e57600d994d0a44c9c747802daa5beabf6d50b3605d921eaddc2a4872a030f089092fbbe0b2005b1c7b93e68a6dc20005734654e7c6fa4030,
   0x21726e77d880a999800619ed627217154fc0441bd0c872d6950d204fc3fa9de476217e40635b6c34ec489a4900267b269d150ab1c90001ec7f7fb79cd14160333f8fe998810eae602834cdeb9da0c8aa605ab3c7f46410849d800fd2869a6494c64e802aa8947fcf84f5d7605ac470cb234c8087a02f736a3a00be80ef205daa01b8916e168b6005734cca9031f9efd8,
   0x23f3383f49d7c891000623f2464321e86e00475fd67387aa3e7c404edfe070cc80e8752062525981e3e219d2e022997f26de30cfc36001189b66dc3b32d8803240821a612561cbb02c1ca692400373b8a05c14a5a329934932401242a82c9e06d154c027a4d606451783d24057b6ad6dc7d43ceae02e0c5b5acfb2f4d8606009ed368e4c856ac0057391eebba6cb6438,
   0x2696e963fe4c57cc40067f24de740e98aac04aa8b7015f2bec73004dc2753fb2a4059a806105f32ac05ad60a201ebb8c645eb2077160008ebfcb1d2e71c400314f4e5b6e8ace18a03032f651e965ac0d605d4ee740f49d80c2601501ad1eb67bbfbda024abf177b5922e58205462964707623426c02c99bcbfdac54bbee0623562934bf1520d800573e7e5c317581f30,
   0x295f393b081b51cb40072f0f98f2ef4de0204ded138ddb131205004c6e12ee66ebb0e0605f702b3ed5a88476201ae91f839085da7fc0005701327e21022d603069712a02b932564034721c30e55c0a25a05e59044ab8fab53ba0180e4b12935572abc021c12dea055424abe050c7e7fed8437852602b22e6b7e89de7578064255cce7c2022e5600574217a004490e454,
   0x2c487b0c4a3bc877c00831a364492038c3e05117da81bd4e86b7004aedc9fe049a8c6a005d8e7f9f99d3ef2b8017347782b41ebdfe8000791b4da51af870e02f8a59561d1587ef6038c69371f4dd5740505f246a7a53415989c01b5b2c219c8adf27e01eecff995823fccae04cf125e2d4e2658da029b7b1481b3d10260065cfdad1fc0a719a600574350bad14e9e758,
   0x2f4afee67395d6a7000981e5b94aa7676c605415f7d2b11a13bd20494ccb7068d9a2f7605b63c0699d4b8380c013af51c62dbb47b76000f830e3a5175205c02eafdc7522144aed203d1b8afd1576dfeaa05fa70c5cb04ac1a1a01ed85f089052c5c2e01c39069bd34b5d1e0048ecea904e8295b1a028653d9723fd9535c0672cf995541516b4800574226e387af2292c,
   0x325ecf8f7a45977b100b171a182290623fc056d6e184a87b61e4204797f817a629fbbee058f59fa3eb1d5914201068572acc9f10516001d3000b2f4ffa05602dd6f00e47cf1b53e0415cf3b9eb926d3c005fda364f0ab738f6e0227417e211ecbd702019ac7137bfdf77052044cb20cd632db4c5602737a5835491c97bc068390fee88c6bda3000573e9b9f3908ae1ac,
   0x357afdecf471c549900ce687b46258a22800594e54dfbeebaafd8045db5b256cf05d6f20564cea1810b9d8eb800d6a9a540fd77847c003043ac88c6966b5202cfda81ead33d98ce045791aa3fee4ced6405fbbc4c84d52a1f980261cc5fa857671b2a0174ce73fe5c6b23400409c2939494cb00c002637acf6bb6b96e88068f3e65765fd686ca005739955662b0a6600,
   0x222b017372039c2e8008338fcf8df187aae04ab5c89ca2da4076c04afd13781e8c63e9c063c382bba30c2d46e0216dc9ff3ecfca7f40008b8187ed869a0f2035c148dd6b1f1514e82e8e714a53d4c581e05f089196a0c8795240150b8076ca823a85e02915d846df3ab69460571812251727d0702029d259d6e40d7833405f7d1266fb8802d9e00573e18ac0fa7cd544,
   0x24e24b947179e161e008b823f1affef3fdc04e11055d141130e3a049bb0e28cfffba936062583d3cd0c21e5a601d83f9c9ccebdf486000200082af7613f10034da9780bae273699032ca31a7b42764df00603b17ab13361f55c017fb3c31fda8a65b40261c1d38cd74bf55205399c2f4e3546b5760284de39a83311b4a60619649d81e324cfda00574208013133fe1e4,
   0x27bd62c2c9099c7200098e452ccf594df3a05153bf620bbbe76020484e607225e1965300609fa782f24b6ce22019b54acbe6ebeb0520000dcaf0969d36f18033f82301fbc61b7200371d378f0c1247f3e0612eaf7aa1a65888e01b2bc0a4dc7a7e51a02335c5081fa80207404fdd4989162d5413a026d5f4e182d5f4cc40636c56266bbeddb320057436fad827cdf3ac,
   0x2ab5111a5d800817200ab01d06e69aa82f005469d83e2e8685bcc046c39830006363d2c05e9c4a94b0ca300ca01613d0ee7f68f310800057fc9053a0e281e033169dedd186394d103b71d3743ed5c40be061d87b0074b2e4d8601e8c0b20bc48cb4be0206bf1651262b737004bf19e0bf1a6af080025790753e488e4a78064f7a6c0690b4b1620057426a36c11473d74,
   0x2dc107072190b3b2e00c13f625b24e493ae05741db33b26341ec004528b8fd54d6a112205c545573a8caf8bd2012aed3411f53e5d06000fce39a4e96c861c0323281eb953aa3a5b03fb2be3f79b9d6bdc0623182c110b7467cc02208f5203b1b68c7201dc5e5cc830b66a98047e7b954969bbd6ea0244412756db57cf5206634ca83415b4177800573ec999ec3cb8110,
   0x30d7833140cbe6ac800dadc6fc9f32e5466059ce91794ab161a100438b178ca69d990f0059d19bf419dca8e4c00f922aeab80d5114a001f65ab3ee4d9ff5a031499942f330edb5f043ccae49420bb212406237aeed58c2aa61c0258f227f73206196a01b49973368f296656043d199e48f9e511f0023409e95c49ed3fe006723df582b705ab000057393e9335f622a2c,
   0x33e9b32e6d835d6d400f7b3317208d6bd3205c12784eead788a2a041e6c9b7c98ceeec6057220efb27aca859600cc282cb3915d85de0033ca5af8e903ca6a030677864825b742c8047b9831ebcfbe9894061f5270fab02abbb8029195450b38925494019011032cb130603c03fbba6c970643a30a02265f9bd766613e40067c37858ee85d915a0057358a8d06d8969a0,
   0x2c1a82d00ecf8e1ee00ec5db2628b3ef20205a015d8d98290679a0411844503e1282b3405d2a9b171cbfa351e0121e1f2778b91642400148b4c433873d518035baac8f7f94f319f841edd32fa5a393b5406468bb11ca133b9ee0251448a405d1a244801f9b45896de5c99780470b34110b107a77602062794e2f0a9a69a064e3d830105ce92ce0057384c47e1689cf14,
   0x2f232d536b314b2e801056355d5347aa39605c587e5bcd4af5dd803f98d05b29162dc6a05aa73bfe71d4cb6b000f30ccac7c88db89000251097613fc49998034c7a7adff3dd41dc045d2941a6cb1761080644d630969e1b948802873be241b689f77001d35f893bbd43c28e043158ce42e6b31ef801f8662e6c45e751e0065bb8509308283a42005734ac82d549ce8a4,
   0x32248a8a6070d46c00122c59a47612759a805e80d48a09c4ce9b203df60a1e3c8622672057f86a8fda903541600c828cababd94e7d6003a6f7c588c8495ee033eefa868ac40c146049a364607bf241594063fa45d34551bbde202bf202a1ccae7673601b07ee8a99237c3fa03f115e93e8efa6a5201eb6efd7aa5d32c4a0664114fa806c51024005735f94ed2ea0831c,
   0x3511da6453e7dfca8014561ad1e26cd319e06084bf49bf3f6bf9803c1ba25f3ae774a2405524c28f38413086400a15a0a43a7afd8040054c8e6dcab46f2a80334513b354cf6415504d668da1c4810b74c06379e200c33902b5402f9b8409c415399d60191f2d085233616fa03afedbe435a52e55c01de1167055457455c0666a97fb34483f1520057379bc04c151c308]).map icosaRowOf⟩

/-- `s2/ahrens_beylkin/ahrens_beylkin_2232.hpp:13-2246`, `2249-4481`, `points` and `weights`. -/
def abGrid2232 : IcosaGrid := ⟨354581000621054500, ([
   0x2a9b96410786fb77c002e6f6655b2704b880434f7b65f1669f1020559565226e2b4f72a05d4c7df152d51e4b00218ecef28e22b17b600290cd1e7db085942029fdaaa8e81d848a202b26ffad77d75e67005676f7d5bbf2330ce00faa7ed6a938831da021e4f8396b993226605533cb81d650ca60a035aa6041558e3d5ee062af16da99b34e82c00573b9e6b01363fdd0,
   0x2dce2f26a0e373854003159196567f80fbe04627b6a40da8b7f420550088dae92e8464005b7ff734cd822e76401db6c2a1e77b623720024759e9afd24941c0285fbf1d5e230f72202f1bd9dfda44c33160571c6b40c93d0a43a0123946dff79c62bc801e84fa4e8e2899f14051a53265fd87b76ec034e81ef48c7d50c91064f275d130f89c58200573c914859574081c,
   0x31282bf5e758534ed0038fe21cdad6f3ad2048dd3b7db63f93f560544bf40b2f2f22a8a05962fdb31f9243c32019fe7ec3dc077eca000258add4f56f5c48a026bd1622348a98f6e0331fb5f260fda6dac0577ab24f8e3c0f94e015001fa4e5d04eb7601b35b30bc16f162e804ddb9a9cac76c0fac0343e3fb14c394c9b2066f365db1f90169e000573d329cf94396500,
   0x34a21cbafd5a07543004595a8a50e2ec37204b6d1c2e9020ebb0a053740737acde5ae24056f8f4c73b3733b2a0166d2a9fdcc452a46002c6bd6b23723bd620251c85a3c63b7fe9c0372d8e129a88817c20579215ae777d867ca017fe0febedb486002017ffc7bf0a3503056049dc36e27f30b854e033aa585628b025d81068ab59b87720a692e00573d678d16d6c40c4,
   0x1bcb894acaf62825e006f195909db27f918038d49ffef366680b9052f9fd28f5b1b349206405f7508b1c2b288032b106bec65ad2b5d0067f72c1200aad0dc034c1c33362f00897201c84365217e78840a05424ccffc04ae46100091e49124d9274f2403323298e4402a44f3062675dab6c2ec4e4c0357d1ca678ed40f6b05598d37a23397b2da0057224bb2e9f63e398,
   0x1e3342a201dd153c8005ead46bf78dbe30603bb184f932c2084700531e623964d30b1c206379b0609d9dec32802edb0b717499eb76e004fab287dbee57b440332ebb1ecf4d0b74501fb7cd7a5c8f816a4055930ef5db24df4ca00a766dd348d1bffb402fcb2d55903951f300601622975e8a323c0034b13ed56b2c333600589a1d84d1b67363200572e92f61105c53a8,
   0x20d67de1dad0671a40051cbcacae9a11fa203ea86576cb65618c00531a55f4ea4484e18062a8f7ae86c29cf2c02ae3cc69dd60c204c003a92f32f0be0957a0318feaad6f7e0f6210232fad30cc1a8ef0a056e712bd996ab6e1000c1bcafbf644cae3a02c5759e39b3ccc2de05d7066e4b28157268033dc9a5ed4947829a05b8cf1bdefcb466d80057350c404b1f3ca1c,
   0x23a71c4399743bbea004937f7642f964856041a5f883bbe8828cc052e942c0a6e991de6061932b78aa24d84c0026e5b79bb9d3348b80029a0d434343e821002ff0e141273f9b4ac026d8f079f1299eb86058148929fe546fb5e00e0a3c19394dcaadc028df29ceb988b0efe05a8174063c6dec6a803303f5776e293d2d505e5971969cf372e48005738973e3db4f434c,
   0x269f1229eaefcef9600453dde53f942da5c0449d1a43af4960eea0528c03a3951d69c0c06036bfbf2f8062686022efec5d04cc96492001d5d913b6596856402e54d3f6a935ee87802aa768372e7719200059125e8261df7abd80103d29a99fc42944e0256df12e8e075b98a0574fdcf71451cf7980322d73a0825756007060f354397e882aaf600573a9ebcece5f6a1c,
   0x29bf1da3c9d1500f60045ddc233bc02a776047809ed0c74528df40520965edc64b40b6c05e8f06b14e589f21c01f0cb4dbc1bd3e4820016366b085108e3bc02cb71926c43a2999202e90cccd12e3c4c58059d58a89c60d51a88012ae3bd3867715946022072a4e786cda83c053df17d9028b500c6031641a847ccc2b22d063543b10c7b1c80f600573bf0352d42c3c30,
   0x2d0852818498e3014004b09c3376847b0dc04a4432d093b127d68051689c1f0aabafae805c97c11b4a3f044d401b453b52bf7e87a5600148816aa4b4b3ca202b1293a0fae4ddd460328b6aceb5a1e279f05a53cf350d8476e0001556ea8d72873ba0a01ead561b914e4d626050328395e0a87254a030b2b16094d5a0122065770541d87e3785000573cd80c59fc2fc14,
   0x3074e275dbee540de0054d9eee0ff38395e04ce048dc98d826aa2050aa6a474a403d02205a528b8e77b455ed6017a2f9fc5c892ec2a001885c02e69106b200296a60cec1c9398340368eb5da816ff67ca05a89809719245d2f801832db31b98a8d5c201b683ce785ebaba6804c5067a73bd6c99740301bf649205cfcb6806754e9761d39c3ac400573d44c4b4879d1dc,
   0x33f84f3008ab7c3d000638ff1dcd80b2e4004f5407cc538d6a3a804fc80e897eda1afb4057c73108471f4b49c0142e2466b384c234400222d8d3e4fb0b980027ca66784ec15e2dc03a9503cf36b75d0b205a7ae972956ba1dce01b4116f272a9d5d28018444ab09c0a67f9a04841154094685515a02f99150e97d2bee3c068e64ca80c88e3af200573d228c72fe2b3a4,
   0x1cfac46290e60de200072628fc3f5cbbcd603f8f42c2e4ce9122604fcfd6f7e5c7fa9380650aaed80ff7ea8e602cb80420f866800c6003aa5e5ccb788b09a035fb0e268976050018229db750ff89349c6058ee9485c84f5211a00d03d771ea687c2c003033cec06c4ab0d0205f436f71f2cc9689603092d6bf573b7acc405929500d04b7ed3c80057342185e8b4cd5f8,
   0x1fb1c97ee16f803080067c6daa040e41800042a0b09f23c707c9c04fa736c743c149e4a0641ffa11ff0f7bdce028aca171572230c440026f1c753a578fd74034669e0e3d3f1e95602640339bed01b535005a42f219190a2f0b400eda0366983ff7a1002cb9f2a620d8e26d005c734ea9e2a93f66602fa75f90ba4c6afb805c121db8a1a9b1ae600573805bf0bb1b9724,
   0x2295e67f9b6247cf400617f35ef713e2b7e045a69053168e4362404f5a45d74c2ef7b84062ea9774e81c0c306024a97294c5e84e2e00017f97f9d70cc17b4032ccc12619514ec1302a0549381f7d7756805b6203f4f0514a02c010f05e9f27bc6356e02941cdf9e5ef70f140595fa448b4ba2e39602ec666f541c37078c05ecb0c7c9cde9b1a800573a50254b7a84bf8,
   0x25a45431f2ad26472005fb4527c8a0cae8204899ebe21b217f9b204ee994aac6f04f7d4061695a2f8ac5fa330020b645fc7b12070c0000e07ed903b4bfd380312ed5a98d8824cd002de6bc134aad7cdb805c46c2dae3dcb433801344a10d58f79de80025d10c4b3ffe13a740560b90d13d3be738802df361cc6dde47e500614db6df1c332f18600573bbfb0e75eeff44,
   0x28dc9253ba29fc7640062648339e375c8c804b70cd2d3a29d89f404e5a0c60a6a32952205f99a365df7a3f5d201cdb62978a8f25aec000968ece21f728ea802f8a21ebb7d2fa630031dc34aba4295df9605ce9681e0ce2bc546015d1924d9642631060226b1bfd06cf57ca20527a9d772e769cc4402d362755dbdf3f192063950fe01aee61f1600573cb78d994c94110,
   0x2c3a16989d254cbf8006992d38c6001c54004e21716509a33320a04daeffcc72420c68405d7c02e1a6167d0b201923022e1e169a588000a5697e19884da3802ddf666ca637f95f2035db975414cb6d49f85d444442965ff8e800189111355d4ce24ac01f16c5e8ca8e65fbc04eb3625dca6ceb2e602c9448f24e387f2380659aa783b6069f88e00573d3bb7f63802114,
   0x2fb2b615ec309e8c000755ac8fc5754d53e050a62dd8aada1698604ce6bbaedbd99da9605b1615faa3238d2000159757eac7ba944500010e242830b6275aa02c35f8dca2ba38ed4039dbc1081948899f005d574f089db0ad2f001b7e885315b19df3001bdee0525c79b8b7a04abefd705ce30b63c02c0cbebb98c6b4ed0067571fd9c0d51441c00573d31c6a567fd810,
   0x33396beda1b4f3a950085f53b4a2c835770052ff661e829128e0204bfa28893b098ea3005870bd11abb27559e0123faeb6f56d67b8c001cf66e1673c089dc02a9a4718889c0c57803dd798f5e598bb44605d284264ba7983daa01e99035223ee917de018cf9b8a30f99618a046a61183540fff1b002b979ca581fad7a1a068c3c4f9f7bc1783200573c9a984073dea60,
   0x218706dbbcb7fa2fe007efaa15cd30c8e240496ff7df31a4f4d0604ba43dda237ae5e52064057045be498d622022b2632205e594d64000c4cfb0e90d6b850035bf50adc59bb52f082d1fe1a8441807e7605e67f30b8efe4f734013fefde254d3c1dc0029dd3d86ea08f2338058235d1ee2b6c951402a9ceee13e7e9248805ede6c0b8f413c3c200573be0da0f050b13c,
   0x24ade20e971cb3df0007f1320fc5db015be04c5c883019ee5e11404b260da527359d9a60625f3b42b3f5303f201ec1d4dc5126deda60004919b71e0104cf20341aa3a4b3f1914ce03111622f316567c1d05f31a61e69584bc000166fd8397210c2e0602669ed34f900d9e08054ae84d2f9047a0b4029d2498d2b95ece080614ccc277b455baba00573ccf7ba7f013a0c,
   0x27fb4f795382ed4100083a2582b07062b6e04f25a8c4c1007807a04a8bb8f798f189e840606b28c81acbe41d601af0ba922a868874400024ce8c64b8720820326f849d055da6fb50350f9289426bdbbc405fb552fdd3926a4ac01914ada35fda4a0fc023061188763e7923005101b5b38bacb66c202921869dd6f5b1d2e0637b980e94136376800573d4eabcc618af2c,
   0x2b66c0fd28aa5f33e008caf110104f7ae7a051c35db58e0c70770049d6411a19964be6205e2d76c375623b26601749f2724d38ecda6000599f3e1ae880af4030c29e25bfd31794a0390fd7aaf565ac43d05ff0a999dbb893f1c01be73345e3165126401fbb4444429fe712c04d261ce1f82f0c2b20288cb2fff923522cc06563d521e1c41de3c00573d50bc903745bc8,
   0x2ee525872d875d906009a45011467647d3005431141e3f7b6f91a04903ec756adf7c12005bad51b6069b582fc013d6f2307e43d6c94000e7015826705e65a02f1bd81987330002c03d092faa4872a6c4a05fe54551a5d0aba6601ee24bc8a00d2f7de01c9440e99e49beb0004925ba861db216dd002811bf8aaaf358526066ff36e5e47c4ba3a00573ccb496a6a0eb00,
   0x326b68969a00be00000ac8acc54cdd189ba0566fb4deae84bb4860480ee5e6a36095426058f2c33e18ea2aeea0109d46b3518a6ed56001cb080f6fa293f5802d85a6559fe8a38a4040f78bb97f765742205f98adbf6610b415002204f3405848af3de0199aeb692ec4f37b8045080851a7c67adfe027a9a68ae06905d3806848d1178c06b08ac00573bc21d5bdf867b0,
   0x35efb810bd502826880c3e221299dc07aae05885f9f1b0d481692046ebd720031d7ea9605604c3fb696cec6c200d9e4ae22eaca1528003043de9988c4eec802c0d1c603d6a559da044dd56de1e820745c05f135a16659f15b02025546e2d838231dc4016d82f0b2ffc5a10e040cfd6a65bfef0df6027482ae064acc1b7a0693c0763ee136199200573a40809a18650f4,
   0x2726c87e91cd2de3000a967566fd5342d06052a774bed048c2448046a040384dac5bcee060fe603ac3e00a9ee0193f66fb32422513c0000b21f4cf7bce8a80355f0bf3fb54af1cf038366263a3d5e9ed20623b2d8f8d8c8e8fe01c7ccd05d9e5f0cf0023caba6d60199959a04f6a0eb428a4f6894025262fc8b3d5e30b806311eb4958167e13600573d5bff3b21ac1d8,
   0x2a9929901e0c42c5000b44087eac8d58466055305a29e337e4218045e00c53ab9dbbf1605ea63fb17c01b104e015aee1d4cdc6d563800063c78d9d2f8df2e033b47e8262b0694b403c322defc8d98457a0625951a465c8c95e201f5e5809ba88d08dc0208f22c5dd249fb7004b80e3f4f675e5ea00249cc54e1b115ce6c064da9ccfc8f6fe8c400573ce270c4db5ebdc,
   0x2e1829a25f7624d5a00c3806701a894f8b80578555e7e86b449ee04504bbad93a891ef805c10a90f54aee96f601257cf5b58758a1a800113407387c97176e03212e5d1a95999701040200c03d2bde5e1606231640b99b02f89402262ccadaa56179c601d7c9557eb3566a880477a5895968ab8a3a0242de74c5296e07ae0665447e7b6353815000573bec65fe71c669c,
   0x319bf8a3925037aa400d730250222676442059a6e326a96399c340440b2fa3238ccc4c605943caf16d081f0d000f3de163b4c88e2d8002175bff4668fb2ac030810393c94ff3ca8043fca5b19d890a6cc061c783020a8319da202588757829edf367601a9987b490860acd80435c4f12343e34896023d51c9fbaa5cd8ba0677c491c0711c60fa00573a5d6d31fdf8148,
   0x351d19b289f1ab20e00efa621a5e8952bda05b9ae323b407dc948042e9c930361c7a45405644d248d344f3bce00c61bfa8fd53760440036f374512f0ec7ce02f096ab56befa8012047caa95ad2938975c0612283adca56bedae028d450bb011a2a980017ecea7e48ebddcba03f285211b04129876023883a057d3cc1ab20684ee2a62445b6d9c005738015ef85b1c528,
   0x2d5961d187420bc3800f0f5fbdfc8328c1005aa516d602ffe3ff0040ed76dc43a92b7a005c3677d6eb6adaad401110f2f9ed5ea155400194dbac3336a7dc8035100de7220f64cdd043286f215747924c406437083ddcfb32e740260428d47057ea54e01e8b770bb6ab23c06045b1e0fb80069978c02066bc5df5d9197740655cc40480ca6df2600573a672768bf23814,
   0x30d95e6b3d57494cc0105b21686b628b37c05ca484bbfd427942e03ff63a665f1f115d005959c300a09f36e3c00e19b81bfd7d290d8002b66a4c48851acec0337f1abb462323540046ecb36ad22233a5e063ae468216c76e42002925255a7fe8f411a01bbe6f38205a9afd204199177d7ad6ae3ec0202274ae3113b691406664f5749682e9194005738017a71cb50a6c,
   0x3454f25425047eee8011eae9761fb1951aa05e6f6dcc954f8935e03ee0db092fb1d487a0564e616b5ab0b481c00b6434073ecf9aa2000427e71754de3eb22032038133b483a83cd04a994b9a18471a6de062e836adedc7c5d3402c618b36244f27e8001927366609a2ef83e03d72169dafcffbefe01ff17067d29c051ce0671a7f27ff22bdbd80057342265ea085534c,
   0x33a2a4be7f02fa07701506c8d8628e22742060fff08dfadf9d3aa03adda0896b6b702470561b9143c2df407c000aa02a20987c5693c0052c6c4fe41a806ce034ec906e5f8ec401904d4935d6cf4078a020645e8e2a3a1c91fce02ff69330191b7da7801a7a86a916eff89b003ba9877e7a4074a0401c8f389575a121dc8065a7c769a06c6bff800572d850ebd9deb80c]).map icosaRowOf⟩

/-- `s2/ahrens_beylkin/ahrens_beylkin_2292.hpp:13-2306`, `2309-4601`, `points` and `weights`. -/
def abGrid2292 : IcosaGrid := ⟨337524858203787900, ([
   0x33ba6bbf9683b7f74003746b9a54635b650049172ebba76f46206055109b3b1990c46fe0576e18657afedaffe0187e005c7c51c6294002f0e56a456d2cfa6024acba52098397eb80348f3b41acc32611e05668f0ed3ec6627bc015d24a7826fdd194201901868c8b47f61a804bc2e49ffcc3392ee03560fa2baf9f31e56067f20048fb216909a00573a443e7d39f5670,
   0x26843c9b229b9c6680038f017c7c5c857760417955ab8cc91af7e054b4dead750848d6a05fb682c8aef847e880254ac4d95375f3f1c002c02d03353ba586202d0fba9765762d5fe027d2e50941fcc4cd0056d25b94db8a512e600e03b900fc26207e00261999529a96d3e30058c06183e418ee6ba034e7213fa67d7799805ff86aab3bf2c3ce80057373d7bc50708048,
   0x295bf229f14724fa200388c588a453c6b980448c0b73a3b10386e054116ed0960ed9a8205e6001716e0691bcc0216086aa65d66560a00212a6d826a5f923602bb2fd4c4c7bb876402bb948ddd808d4e7c057e4e434fa7e55a5401068e89e04785e30e022d6a55ae3843170205583a980050f0c3d4033d872f9df1cf039706267b09673e13eb5a00573894dfeb0fc3768,
   0x2c62a94911e807b2c003c7863d0152dfc3c047801958c93a8b85c0535409b3034f419ae05cb781492d3ee841401d8ce637963424ae4001bacaf77f989c7d402a493dd868b3267e602fb3b1d9365e37f70058b1cd88a97fb525a013051aa282f48803001f99a17d17ee666e205207e4eddc7a26aa6032e4c11da1687030f0649e595e06ab2b9a00057396b481fc3bfb68,
   0x2f9055b8426b0693e0044f72d38ed147f9604a52fe11c044b7b4a0527810ae5881e85f405ac0a74f095874374019d73b77afdc5d27a001bac002c346ccd16028da5074d24b1c30a033bd5e127db3203b805939cbd95f547c448015d7f466bdace60ca01c6bee487b66d84fa04e524522b2743056403208c1538a9685e3306695451252e80013e005739e9ea3014e51d8,
   0x32d87e6e232ca614300525991643f55796404d04b115974e270f80517596a0b4a1b37d20588301336372370600164759a48cb3ae79000212c63d0bed80ece02772d09be188ee9c4037d199ead83ea51690598184f6a1bb8aaf8018e1ada4dd5d07fc60195a2c7dc4bb86a9004a6a5d1546a4cf12c0313cae3110cca124b068447e0886113c13400573a17c15dfcb6cc8,
   0x362e95e09e6cca1fd0064e219d2dde0503604f959b7c5b9827b8c0504528adf7f7e6ab805606c2f2dc10a130c012e47b77a74c41496002c22556d1ec1b9000261f1ae244100634203bebbc9d5665ce97c0598e4bb10be2d311c01c21f72567a5a1c220167077be033e2abcc046581fce9b3ec740003078a2f10de59b868069a4fa7c8db16e644005739ebabb8bab9960,
   0x1b91802c1b17106d6007140bc6ee3a54f68038f5083928c7c0daa052bbf89fcc6134e340642db38bd721418e2032be79bacd9c22b3e0067930db9579656680350bf5a4ff7cf6d2c01c8c0fc35edd96b6005451632268e8adc92009386f66f862864120335954a6265d135550627b128cfe015de9a0353b3a16821818f410557b372b2f4a5744800571ec29e871c59ec8,
   0x1db1f6a9914699cea0063586147723d8e9403c02e92d6cc0dd928052914dec1fc8a0658063d618ba62861db8202ef0ed80abbdb31ea004e679b8c4843e574033d5d52113cb55b7001fd01540d375f3708055fe78df14979312c00ab399386b667be9c0303ff9dc5e5d4db0a060403d75ad1814c7603417ab1683af465e20585e6d6bc6aaddf8000572b680e236476450,
   0x2008f70398c39a784005909f78585a92cb003f30c76e4a378966205238e124a28ac40aa0633f719d95c9ee4e202b0009662f8d56fde003833c44d975d5ed40329a47682845e11920235b0f4b009f0819c057985c9f894aee89e00c7e3a055dcec0da002d0d6c99ae721255005db296cf1bf62110a032e3b1665e03319b305b33dee526e3aef760057320703fde1085fc,
   0x2292918d04ccf6f140052b6d2ad220496320426190ce78ff11b9a051bb182b238a83bdc06260e7113030bd0c6027072b4fff902ba1400261b6040ea12ebb2031568a8e3c726780f0271562676b021472605907a02c4d3ebd6d800e8d7d24c1c1a074c029d0e276c30f47cfe05adb3ef9b6cd9e6cc031b2f8d35fa98209b05de6df4bd6aaf5776005735a1be7fb768884,
   0x2550919c4200bc3a0005060910b51189f36045818e87b5d776dd005122476161feb53de06132e0fc21b8308b802315688072971d2c40018c653dc912fe10803003205f10eb18f8402af0095491078339a05a3b62ec9d0405132010d82a17b90bd67420268f0c535e95a7888057beccf06f62c0a260309651f576d7d90060606e0c3b51f78da18005737aa332a2d83c20,
   0x2841cd2ccca25b2de0052103fed06174a9004883fb292c10404d405074003c546cd3a9205fb215bde31761a1401f35d7c3a29f7c18200109c5be88fb848ce02e9d500eed9a34c3a02ee046c91329a022a05b29b818e25a08ba001357f739ef2d24da20234d1603ea056c34405461dbb2df829911e02f9750117f575984a062c231b7ba9e73f66005738ccd1838f2fd50,
   0x2b5e4b40c73303c7c0057fff2a2e541be6404b6367d25fae7eb5204fad93ba2b8e2498205de17a205fbad3a3801b71f9fac2b929614000dd0801a1e6acb6002d2baf9cc8304f89c032ded82bd6e72288405bd117cdc7afb15060160aa6263bb68b6b202014f1234f269a182050cabba6e6b11cab402eb53cc2b62a82780064db31dec55e01c6a005739647b0d72eed78,
   0x2e99f0cfe3669d0bc006286e436dd17b15004e1f82ead07f9bee404ec703dcc560432b205bc8063fe0d142fa6017d1cdf7db4e85cb800107004f05612829a02bbaaad588c41c88c036e71d40487cc249405c359e4192e6bba22018f0b98c10022417e01cf33bec43beda3d804d0097569bcbff28802de89d3d60c87a746066b0bd19d00140a00005739aa668bc951120,
   0x31e8a2593e306b9d40071f0053f80ac4ece050b8babd84f374c3a04db891a77cbd51d5a0596d5039d8d90e3f00145c7ac69272bb39e0018783bf1b888727a02a5686e00b05332be03af4d40665e996b1e05c5c3fe980f8b9c5201c0a74ceda9d5d71e019f3f75b6ef4f8ff20490ac0b53cc8d28ba02d2998009e2575d5c0683b82b73bd226994005739ab27d8e5175bc,
   0x353f81532ec206b2300866e4d9e27c1243a0532ed0c46a9274ef004c7c6cc4132cbacc8056d8781be3ed20604011189e41304d584e00025de97a447b03de4029099348008a92a3e03f0356a47020be80205c493d74f28c80d8c01f56f090e92ed746a0172199a0ce4e66b36044f07e74b1b0f46fc02c71f45c847fe85920697573dab7e08fbb80057395202e81ab4504,
   0x1e9e86c5c40d7f51e00718ebd5b6bc98554042f61cbd2d2e9e94e04ea8d653eb6a50cd6064cad161a17ce2d080292183046e57d62620026df1f611619136e035adf389925adc4ea0262c09d1527eb067805ae1533f1f368a88000f2e450578b18fcbc02dcc7ce413b2decb205ce95abc22d4e675e02ea846a2376d6d63c05b69296352ba4f624005734e46f3493a8b7c,
   0x214205feda8c76772006d43b482e5cae8ec0462bf886d97f3d35204e163816333785dbe063c8a478361829bb602521a3b6577fae2dc0016c2f50df02badfa0346716129e96375fc02a017545778ab6c0a05c3db3541f8fbb5b2011625e29f2a35814c02a89afada6d9a3638059eb3e133e5b94d4c02d765a6728e05fb6805e0c66ef46d823110005737346e1167757d4,
   0x241b81493f7564e1a006cc96906d95b355404944cde58aba6b64e04d71688193f997f32062734cd864805ba60021311ef972f848cb2000bb01b31023e82620330a19bb0c376e5f002ded40b0ed38328c005d54bcc69f2e32534013ca05ead4ffb204602742b3d6d06a13fa4056abe6f428b3022ba02c640a46181bd255a060806cb958d5635800057387652c2c0183f4,
   0x2723d95de4e29d762007045c7edb244088604c385cea883a4dd9e04cba6934ac6514828060ccd18a7bf5adcdc01d5aec8c329bd35e00005e4093c8eceb64e0319b645b913b4d6bc031e5eb5d6063a323105e22971f3a1d6da5401660d3d08b48993ec02401087744d3288180533275a62f8d897fc02b73b7ae4a5d9a7a2062bcfc716ec0c25c600573909c61fd718bf8,
   0x2a4fe1bf562d4a2920078055c8412ca0ad804f04c11afd4a630f204bead9ad5e4138e7a05edb42ad123ecb4a6019a7a5159e1370f5800057490eaf38018e203025cec78d8cca714035e5d18cc3529907205ea9d6345d5b24e1601926407be6a3c49d4020d0b1cf30080e8e404f8625b4b4ba0f67602a9fd9e058b9519f0064b9d11a95acfa70200573943cbcc489c9a0,
   0x2d93bb34ea71410480084626092ed75b3dc051abb0bab9ac674ac04af9a3b5f621ebdb005ca5f0a867137ef200161d93bb730d532ca000a624be142a6b00e02eb64d03d00c38a92039ea244ccdbfb094705ef00e18f41d4d55801c1c0bcb07f8324ba01dbd95068dba4369804bad38ab24c189b26029df6095e290304900666f8ac2e9efb325c005739543b86d63eaa8,
   0x30e4d5c13b6f6bbe600959b67d63f8037260542d9ba24bd9eed74049e021ca3398dc62205a3395016d1c8b1d4012c2db661740fa2a80014a82254f76ea12e02d5781d10b35ed09003def2b80f240f013e05ef9abe1feeb79c9001f425419d5723a70c01ad20fbe2bc2138a0047ae22ee8da8b017a0292b73ee0f0d1a720067d7f3beb9942cc0000573924cbb4cc4b800,
   0x34390057423f092b800abd0a4ae957084dc056895c5a49543ddf40489a1fa4836b5bd3e0578b1239b3c4e904200f9e2137f71d2bcf8002436e85f2351e38c02c1252d6d73d5151e041ef8067dff16e47a05eca3b7a183fac8ba02297013275aabd9ea01817bcfcee3f145de043907c5fcac6ac1020287f499d282c3ae3e068edb25106e0fb39c0057387de5ffec23570,
   0x22e944ec15a80a3c0008db165a342b58bb604cc6f9e21966d4f66049a7be5434d0f975a0637959d552b171d3001f964cc0b87b1cc9a000453c45cc6176fda0361ea681c0fe2b653830cd77dffc85e7dbf06021cb5c8378ba810016d66c7a1fe9aa6d60282c26d52045000e005586da28b1f84752a0285196b9df00c239006038ee8888592ce56005738f35f8335be44c,
   0x26029c950f5ef2d420092d01aba188b240a04fab8ae294fd5b950048e857af8ae8742ce061b369523d100d0e801bcbcfed955a3c9440000a61ef5369aecb4034aaa15018ba20d5c034ca95afe33a2a42e060d2f086ace2af11001980232422886a604024ee6fa9e37941904051f737ac07cf2dc900276dd092f203689140625e18e45a072fc1e005739166641c8c986c,
   0x29390380e8fa848f4009c3a93bdf369827a052663c0aaf71a64d00480f40296665c305005fa6a79559a0787fc01829e98c6b8ec1776000250e0a1500a224a03334872372f8700b2038c99821b5716580a0613e6ffbfd129872c01c558066fe93a6eb0021c884be35c4b77a604e3aa5301c6cc0d96026a5350cf967c09540643fb2864ff8c7cb60057391d4ad58b1bc84,
   0x2c81a7eb0ea98b42c00aa49b701e19bd104054f99d4be2e06d0ce04713592354eeb4df605d59d8e8b5a4882a2014b5a75f8900cd96a000951f737ff00086e031c8aaab0ddfa4c5303cc8e089d582a100a0616a0dbeb9f18726a01f58f3119cf1cd93c01ec5235c272a8a20004a565199ceef6d0fc025ee910eff058a422065d72cc171f08372e005739003f4ace212a8,
   0x2fd25098aa729d03c00bd28c6ff938c99120576503023a2d775c8045ef9fb38fd32efe005ad3b390791b35ca80117586c3bc708053600159f32fd7dafe4b8030707652ac755f5ba040c39d51e3fa66efa0615985aceab8c42f8022892c844c29d421601bee2003ddce4b990046515d41aa742207e025447cf48c56d61420671ed908042204d3e00573876f97e4c65a48,
   0x3320a6fa5caebaacc00d4d86831021584b8059a5d4ea3ca9b4d44044a225d5cc24df7a00581bc240b8c625f4400e70cf9474d2f13ea00271abdce020dfb9002f337f160308de3fc044b28cf8e0a3952e40610fe67a801a328e0025e1b71956ebf48d40194caa3aa4d36b57c04234ed655a90b185a024a3e3af41e9c57e806812311242eff44e400573733c4546acda88,
   0x3661c7fe6955dc3a580f16b127a29d41df005bbc7ff28bdf187400432668c32b30bc87c0553a61ad182fd8d0c00bacf689c804f195a003d9a4d1edd785f7a02e1b4926f4ee7c36604890f166a9a07474a060929e81204112b8c029605b16b3d7fe6ba016ea02df7ccaaf03a03e091b65a00c0d24a02406a045859408c3a068ad1f07f13134fbc005734fceb9c6a829e4,
   0x2b766d328402edfae00d456183d4d58683005814a9bc43003362404312f5c8b0a24805005dd75649f1a05e3f001387f58d651c73628000d54e3730807fd26034e6ee20009743feb03f965e6697881f6e8063a2fa49687c80294022b42e45ada21334a01ff808da0971788c8048e87103fa7a9390202215d879b2596e8c6064f1d5d72dc3db6740057386eacc85edbda4,
   0x2ec280b50d2ffd75600e8bc45f9ffdfdc5e05a6760362fbc212f2041e662b8d70b5abce05b410c6057ed3c16001065a5ae97550cc2c001b8d5c137e74851a033970712320c9a5110438266037b24c30c20637936a5ad16d5c7e025ea6c49a1c4c7fa201d38944cff6bc2370044e2999b254c6471202175e45f57e9da69406617f94140e8dbec0005737311c655ba845c,
   0x32073b927f860213b0101975e7710a9923a05c890e5a8c9168a26040965e560e57a5a5a0587de5b788c33155a00d84b6308efae5040002ec4ca650881cf6a0326191f133ef29dd0047591f4193c6d7a2c063156b46431af73aa0293f9153173ae599001ab1df71af7d62b7a040ce33380451680d6020e3e5feb19dca980066e9a302d50a6e480005734e18ae321af0d0,
   0x353c6984eaa83f11d011ebfd471ac3cc34205e789a838d0fcf0c603f22ec66388a143bc055956ad90a93f226600ae96183cd9dde8840046bb6bc18c98664a0314b9e725f791d49104b14c8944979a76c80627b92009955c329402cae8791dffab6f7a01869a80ecf982457c03cb374757ab2f823a0205d6a9e670d3868a06765bd3bffbb44cec005731073c0a6783350,
   0x3104f9d1c9415845b01322e62d5420ed32405f37bb2307ff2090003c7a43a6fb3f329200589e4e738f25c879000cca8cd5f3715f624003ba1e010b174a8b80358b6af31d6815843049f3c46019e1ab650064d1d66194e92746a02cbc0f764d37cb1b801c3355023c7b0209003f463882ae38b4d6c01d46ff1f753e4c6b80657c351c3d5fb19b6005730e8bc9e759b438,
   0x342c2d08a58c969e8014eeb1e291c3d7c3e060f4a3559a9f6aa7603b21444849537c283055b4da95fe8057ac200a5d18f38974125ea0054915b4d73cc912c0346dc2caca658f70004d7d639fc44d4204c06418170d229b3702e03007ef5cabfd93ba201a02b52143fb210fc03b49ccec7815e972f01ce49316a71df3132065e01df01e144792e00572a268e01ad87a0c]).map icosaRowOf⟩

/-- `s2/ahrens_beylkin/ahrens_beylkin_2412.hpp:13-2426`, `2429-4841`, `points` and `weights`. -/
def abGrid2412 : IcosaGrid := ⟨404860026108958300, ([
   0x31a1fe0d78697d9d100314a77f57fb5ab04047a21c25b4ed48c9205572da7ef22897888058dcac1cd971d3ae201a9a71c4524b32536002b830c9cef37daa6025bb89ee6b8e8fe50032379a10842038a9105664ed3786e73036a014248341be0227fa201af6e879db5310dfe04e180aa8493654a90035a02daaba27e51b1066df2cf6e13741d84005737536be2f9db018,
   0x3430a9c256dbfa84500427b91781d1bcd1e04aed1e6bf4efd5844053b91e3fe6810cce205746009545b84bbf0016fe19f7a960dc944002bb869a694707eb002537efff01ab670a40367df254a92f427a105772994f515f095ca01772db5898583be8a0186a4c74c1eb8ff4804a785d0b05f874a94033e8811b738b57e330687072fe159242526005737b97eb3e8d1c14,
   0x2affda14839a0673e003210e3085af8f1780447c4f5c1afbac648054eef76a16da6085605d3b4a57dd8638dee0207b40af8a91e19ea002485e777125a50da02a268eda9d57297d002c5e75369ba5b0c4e057264245436ff666e0108ee425c642afeb802153f0689f1bcd2f205468abe5df4ade17a034d72e8badd2f5fd2063357d186bf76ce9e0057348182cbdf173a0,
   0x2d57ed7755e8b9e10003c0867c5667567f0047eedd2741ded61cc0536e1bf81dcbad0a205c16cee20c97017b201cb67e1d8aa62e0b4001c98a1ebf5308a6c029a18bb09d1fb673803085c6961215b899005892f174710cf813c013829d983b533ec3801ead7a7b21ba7a5ce05122bdac9131c3dde03307f08f09b1a1480065272f7199cbe1a040057367e783ac6bb3fc,
   0x2fd8adfdb3e4b1462004a9349313634660404b42b313942a93338051cdf3de080822cc005aa3520cf0fbb80bc0190cde834ec15bd50001a1ddf978f3c6fb602916bcf23e805e6c0034bf340e6062e2e48059bbd0884ef5d2e4e016aec75f473fbbb5801c14351ce930db39e04da0ca379bac34d9a0314f439d19606e3a9066dadd43d6541478e0057372466260fbe354,
   0x326cda2b2b1c2e10d005df1519756f3936204e744d71b3d72b2200500675b8bef17ad66058eef1c2cc242ffa20158d15e0c3bf829f8001cfc41416f45e9c0028983d2e7bb4c9304038fe806a7070072cb05aa76cfd62c030af401a0e47d804ece83760199c66e6223a5d39a049f31b7a72a9c403802fa4236e808ac647e06844f97cacea077f0005736d1e0c1a965e40,
   0x3505f9e6be61fe50200762c490fa52bf9a805180597cf1c4e1ccc04e1453abe2d4dd4a0057040d898ac3f2c3e0124140e88b254f9e800250ebcd8d474f3b802831086cbf38125e603d39efb1769642b8805b5a223a08149175201d9b7b9cb92d910840175319abf830bffd8046261ec8c3bca1e9a02e01d3e30daa5aad40695ee37b0ebb1f16c005735c4e7b42b88798,
   0x24fe4d75b8fe0d6f4003eb1265924125366040d7b0ee0ad26679e05442b65998852c68606091fd992dc5d12d2026acf55686db27c46002e2fbfbb2e8223da02e474650fa2856638026a99aef52e288da8056f61a3d11c2a945c00d84e33bf7dbea3e2027b50bc066342abd2059ffc30899d1a586c0348a7c342bfa2531005ee49d99dd78f15ba0057306a487491b1e00,
   0x26d6f34e6851332220043a2c5c3f03bcde60447ff85bca97f46c6052c0a27637f6c66b00600d62ca94fa67316022e39ccb6459ac702001e0e5396e523d89e02e11c5790e1f840fc02aa3d6a4e499ec49c058e6ccef84f1006dc0102b13e7730b91f640253ce3ee350b2d4b405738813fbbe60ee6403268e6574995e6ff70610ad1243cb01c5e00057341833a584287ac,
   0x29111c50ebd89e9e2004ba19563f52f6bfc04806aa41b7ec7c86a05145fb7777f5fd12a05f171a1243f71ced401f13c4a00432941ba001353b2fb83bac5aa02d9b69babd6b7533a02ec2becb4e5c02e6005a7c7c186190aecce013061bc3aa4985d4002298a2c68b49e007605414531e11d58947a030842733635b3bb8206316dc0b6a03d812a005735d3f1e83032af8,
   0x2b7dbeba1d15b15fe0057b506141ca22e6404b68a3e1ad286346604fb87793b2e3dd9f605dcbfdd742fa24db001b5c91aaa151877fc000e0582e7388d878002d11848abee5a63aa032f15b982f2530e7d05bc70ca49334a72060161332625ad29bbe601ff789dd6f92d1ee0050b20329f3a74f07c02ec22ccfb3cf20ed4064eb51c79a2da0e5c0057364daa8df699750,
   0x2e046e5afd514413e00683a29670f40d20004ea349a32b221cee004e0d23da88a3c890805c3c19600553e7e2c017ce22437bd8a16ae000e0b2aea35da5be802c89f248b0695502c0372327037f890f18505ccecc6ad871fa8140194e32a408a12433201d71122b496f08cc604d2339429e599d33002d17110543a6d3ea20667aa3cfede7457e8005735b99f7dc537b94,
   0x3094fd344abb2079a007d42e89b00ee6576051b3de38d23889f5404c3f7727784c0b04205a731b9dec365923c014731d5671b2cc98800133913d0a585739002c118079d6669df4803b4e2b3ec1e678f6e05d99427e952df2ede01cb1a5c816b23fa7a01b13baa317695bb6e0497555c72d3916e6202b7c9ba34eb34734a067bd8bb284a5f4f960057344897004500f18,
   0x332188cc0e0f24ec50096becc151ade44ae054985322fcaaee18804a4d037d7fb81f9a00587c213d1e66ed51401153cca7a8b0bb9e0001d4db8cc772c1ed002bb24450aa36319c203f697baf9ef7e26a205e2c07959adbfdc80020376501fe3f10058018eadddc32ebddfbe045b4bac8a71c99b10029edd6ca34f5e122a068af8cf2b6846c2be00573241301251f5f60,
   0x359900280f413cbd500b4dfc4313121f87a057569e73721302e6e0482b0150eb20980aa0566540e3487b5ebfc00e74dcffdb3568f86002bed6ea951d1c1da02b7d737895aedfce00437259600d50da0c605e937fe167253abf8023dfabb041517f048017040258592a6c626041ebcfc30bf6ecdac0285c7075c7cf023bc0694bd6169754f96ae005730926604358f9bc,
   0x2010388df8fb5123a0052b3950ac20e767c03cc89f329171b4cec053c13bdc1f810834a062addebc06f0f572402ccf8e694637d685a0046785cf049ed6d7c031a34e5eed333ba180214cdf424460f3c30055c196121268b856c00afa5b53d031eba6802d9341eaedb9e58f005e9dd24807779fade034f922f97a78fe72105a541160eb141d036005729effa1528d4a64,
   0x212b355e6c084fdd60055615ddbb5c015b604092281d434604276052113d1998a39a9de062df19aca4d6ab0260293eeff2fb1324ffa002fce1025ffea1b58031ff65dc9a540cfa0024f7fb216287c0bca0583737b7ea806b23000d593f71dd6605dce02b9824ce567084a5805c77d89e60f324d0c0326903eacf5f2e5d705c6d9b89160afd3ea00572e32bff5b9b0eec,
   0x22c95820d5fcd750a00599bd569b1c5ca700444d34a829323b7d00507cf4ae05845313e062955b4f947fd0442025801ff56ee82d336001d610156cde4f716031f94ef869bd8bd9b028e09b24aef150fc805a57e4f30cb6db7c000fed7b0fd031eaee602943cd369d263befa059dfd98dc7e87f48a0301e86a9ecea2654205e945fa868d7ee90e00573326c0cf58ae3dc,
   0x24dbd1f443d10ed68005ff3b01ceb2ebd08047e80a921d39ed1ca04f015b2eef03c0be4061d29e7e6389ded08021aba8dd20ec38ada000feadcf75837efca0319c0fd26c5e2a04c02cf3cbcae87c79c0405c19e237ecde987be012b0eeb3ccdecc194026ac360f7a1ba5818056e2c4bb7147582a602e1dcfd7213335164060b39c13465f0f618005734a77ecca3d8e9c,
   0x272a71e2de5db43a20069c37c411264e2f204b5826cfc4f65d8c204d80cf05c88a59e02060b644e0075b95c9201decd5b61ed7706160007c246d6975808bc0311cb2f652a3446d703113a4f6c2894890505d8a15705466b9dde0159e818f688d3e17e0240ce90cc6883e04c053a67af67b408fd5a02c4c9699e1b30c1f0062a32c27c7a2176c40057349d7192aacc27c,
   0x2998661543fa94d74007782af4d1f1d87c204e99d2c09162ba37804bee3953325a670ae05f52bdd2c8767b6a201a575f220117b90d60004d71ad7fda48a14030951f19d489b25fa035310b4ccc1232a4f05eb197d20c8993a20018b17ac04b5e62d8c021821869532f4761a0503fb722471c0ee5802a9d24763dc701bd2064524265fdde814260057336922b75033acc,
   0x2c13b29f5fd9f01ca0089405302b0566060051aa4d111a063355c04a44a967e4e97feea05db543ba2bbbbf30e016f6c80fedacf76820006f2a31070b0a398030137f3c90e283b040394110925b0b0cdcc05f96e25a0414f6f4a01be3ad945b329c08a01f1ba30f11a75334a04cbd678cac808eb54029086bbacaad84c68065b92ccb3911134460057313f4d17a69ba3c,
   0x2e8e70b536ad6566e009eef5dc5ddc24ea00548986cb7c5213bf60488083c7311d06d4e05be9796419bdd3582013d1cf8a4781463c2000dc60f5799a99fd802fa2a592b1bb59c8c03d3c74d0f4bc08028060411cc9d36d32d6601f301e13300e0dbce01ce464712bc2d128a0492b384293c54c3ea02787c59207cffeeb0066d440e4e7907a94400572ec28f78bd2de84,
   0x30ff52198b4fba8f300b88f64964212ad1a0573b362d55fa3d36a0469d129452ea4c780059f80f12313bb3850010ea19dbd9a69ca8400190554bf6418a49802f4b3badcf7e3cd00041218f9bb72b57de4060b7f113eca58805402295c1cb865d2a8d601ae2bad947863ba9c0458f8e3da943b25ec026138c2b9a0303744067a27f13e305eb35400572cc0e19b45df104,
   0x335654b7bb1c05cea00d6c2a7297254d80a059cd92aa080fc4ea2044861383b02fed012057ed4ad86dace4a3400e3f49e22b09d537e002872d4beaaa4170c02f23ab9d3ef3909d4044f7027cc9e7103080610bbe6f6b76040f20261ef6482cdb64d44019244708d784e147c041ede644063e354dc024951be8b713968880681ddc7ff26111eb400572c011511331e180,
   0x3571f51556b33c08f00faa22a11a51654a805c520545fe088d9960421a414c630387564055e0e2cf1d8bd2c3000bd978fab39b376f2003bc0ed111d1132cc02f553bc271fe980d8048bf8ef2327ccf1ce06155eef9474d6cfd2029d84a6949fb00c62017c78ccabc1b8b13803e5333d767a8c4426022e82fd0ea150c76e068367ce49b2d74efa00572bebf4c3d3cc560,
   0x1b6cde02741cac6b80072f84ae386c42ce40395f8aaee3240cbb9052652ba4e9bc4b50e0645e83fcabb22ec42032831d117e1c4ab900064ed75ac68f80ff2035583efd1e3fd080f01cd866ff77e68a980054b161f55f62e83f400978985be3d4ef68603363ca64eff90a6540626a0f647d6b68cf8034ca40b0c214c248b0558eeca60701b6ace005728c1ba818f8bb0c,
   0x1caff0aef0a9cf232006de7517bad86965403d00a7bab03dd97500513a0746afdf0bf64064a0c94f48530a59602ed8dbfb4f4597b30004a08a36492d7c9a80354974b93d4cd3e5b020508ee5e0cc5112a05718905f11ac7929e00b6b6843338cb60f803116c6dcc0f083e180606e1b72cbf6b991e032952b76d5bc1f70105804e5539a3e456b4005728b8fc57e7e2cec,
   0x1db3054389a33fd22006fdd804b046905b00409eba1965af64a7e04fa1a91f4d63ab74c064ddaa24b5bf2991a02b73cf6d007bb7ab40033af4d7490310eae035a5b87ba027183ef023c9014f9c78fef680597a8858c77ce882a00da3e542e8d3d592c02f36b29a67bf3594c05e6ea4437d5746c060301fcda1b308e0dba05a0a998aed34701ca005725223e3c723adf0,
   0x1f0266f40e33a95de0073f3d03b2a995cc60442c0024e99068b4604e0dc1d5a68805934064c69e737f38eeee002800b5acd3092219800210dd0dd2ec18166035d011c96c03e3f71027648590f84d3c23e05b9e4068705f13020010071384f69de251602d2f15a2b2c69cc2405c25a24cc5fba87c802dd3ab10dbc50ec0a05c03f84cca39cfce400572ba9fa14817d1b0,
   0x20d73cfaffbf20ce40078f35701529b8770047b27e21d6787c25c04c9ab125f2548c3840643a390b61ffda02202454df546382045aa0011f3171cbaa89d8003593a4cdb14af279202b41c890b24620ce205d7540b9ee5abad720129be5e5dc446784602ac4e352ad0132f9a0596b77905db618fc002bcb3e181357a000205e17659a02ee685e000572fd2182d08f79d0,
   0x22f47f318589848740080b58daf4fdfab7a04b1b82f4e3fc7525604b2902b9cda62c674063540b3b4493abd26020aa511c3279f4e8c000765f331f9c57a0c035299a6873b3063be02f390f8b7c1a1b99205f028cbb99986816a0155c187a3dba2cc620283f4ac407db9679005669bb96d8bc3bc16029f13953cf4e076780600ebc00ebc4018ca0057302d51629c91370,
   0x2537249776530c9ae008bc4140b8f977ddc04e55839b14d5dd552049afb30e314b5656806226b44b5a0b96a5801d236945d3be713640001b4db222175121c034ad2bde4d266eaa50332d4d26b5aff27a906046cf2c078a622ee0183b079f710e8e76e025c45cd46aa097f240533de5417785be8de0283fa11e8681b95d0061cf6cfb804293aba00572ebd10c0b5756c4,
   0x278d1eaca0d9d1778009a3f793e2ba4ab3e0515d83108ea1d3fd20482906c218ceffcd2060bedf09cefb1f888019cc3af5a937b20880000b8c76e012133660342d0cefebd6cb9bf03713b0348cecf5746061480367078a5e06a01b3345d9a8d545ace02364a612abdfeb0ca04ff6782c8f043ed22026af3825d9cb7acaa06350c024e1923243a00572d0180b5c773734,
   0x29ef47caa68b4cd6200ac5217dc288ee0980543a19346294295ae0468d584411556e13c05f230a6e781f70b9c016a3d4e34e1a7e7ea00043be6a901e5c59c033b2623e74c9bcee803aeecccebfc16392a0620e405b5cf61631e01e480df12cd3e73b40212537f680850ea7c04c95e02683dac09e40253644a9aca88991a06491a7caae0af76ea00572c431a61e3763b0,
   0x2c5a4ece968fa6b5200c25d896fde173a70056f4e4edc781cf348044d1e25f1508d538405d55d1b879e65844c013a5f9a7b855aa790000c2fd0f6e554dd9403345e0a1b1e92b28703ec6a57af4b138fa6062a1149302b68d4b402182184f6ff87b87201f08d52f47e1d354004918c6460fdeffad0023c9730167bd0dbac06590fd9f16ac02e6200572c3daba0c4c4e4c,
   0x2ec331f8eae6d68c400dcab0322b16376080598f65aee08c44ee8042eecafff89fcb96e05b5e4957793dba9bc010d85de13ad0e878c00188d58fb237b54d6032f32fdbde75509cb042985985a54cab63e06305cd2f2be420fb0024e27190cce55a3be01d1a3883b3af6a8be0458551ff4e77d32b602260a2210b78ccaf0066486701134d7085600572b7a28e1c9656a0,
   0x3105e888b06d8dc4100fbdecc3d970aa56a05c0d5fbd98ea17534040cebef1ae55b1c4c05955a006c34cbb35400e4d26100ecd04a980029091a4649034428032ddc31cd6dec64f3046581ce81f98b50440634e4e7092614ea3e0286827b4379bab95c01b7a812f83ad79370041f25e19701b6ee06020e3954e56b379350066a65501816129180005729d7c4b88e1f630,
   0x32fba5ad1371a67830120fbf81d74a7c5f405e7aadc9b96352b1203e52b9e801ec940fe05756cac1944a1ed2000c13227068e197206003d560189a634192003330c095a5b5fcb7e04a012147a9e6787be0639294ebd548a378e02c1a44348de7f2bc801a4d81d9a5c8d1eda03e738c05945cf58e601f304e132f69cceae066979e03f571453a600572ae2ab474de2f78,
   0x3514b67b2c978f92801489cdb7cf3622af0060ae0394b02e09d8203bde0f32352338fdc0551559623c233bbde00a02c9b685f59063400562a1c49e484b906033695d6c457abd34604d99582d65953f80606389dcd79f0ec142c02fdadbab8897b568801929f5a9b6e36781e03ad5f19fad8be436a01db127fb8ce0f06040665649191f72a2d5e00572c4ae72a70eebec]).map icosaRowOf⟩

/-- `s2/ahrens_beylkin/ahrens_beylkin_2472.hpp:13-2486`, `2489-4961`, `points` and `weights`. -/
def abGrid2472 : IcosaGrid := ⟨315345796212666800, ([
   0x3bdf924469de14f0c002f8d1fed3d7d259c046fb89918162ddd9c05906c539a7dbe377e0506e36afea3beeee2015f9d054520729fc60061f123694440e11e01d313f00f8351fc14036c707b318250eb91050c7fa7095b6a112e016e4d21a4fc84a650012d3901c919aecbda0461087cb83a1bbea803b4e543f1797a65ec069cc851d636022d8400572de52e9c39c6944,
   0x3897a2fc878de5d7900387bbb1448d73fc20494e099a4ea22fa180566658e8d001cbc8005385fd408561c31b0015e8fba13316aa3fe00465e2cc78092fb6c020d7ef44041095908037302f9a81ff27fcb05420be6b96f74f7360177e22b900ccbf5840150ad485ff9aecfea047b8e28280ec1a8920379d3d0fcb6d5ddae0697e98d558c559e2e00572cfc2408ff29430,
   0x50cf51e1dd608499a0070b1e556179cdafe038c230a4e847dee720635075e3e29a24ab00390fb2dd398cfbbb401845f0755fee6eb74016ff3c32c7fb083b6009e50784d52828cee036ff148d759487c580398c1ab2144ced4b60198ba329ea644770a00851d297f96d32a520377c7df05dd2059180500607022daa9be9c065dcdcdb050363e04005717e1246582acb14,
   0x4e8093c020cf5356200607fa43ae6a2eed203b723a4caba47de22062138aa004bf3e3c803c43ce2c9b81406d6016f098f5881940e2a0141f047252ed1e1f600c15fec2840ccf5a8037b443a269464f76e03d303053a8b34a40a0195b751138b2fac90008d98ec6e39651b06039075e30fb0ac449e04d0219cb7d67a4c9a0674ffb3eea851c6cc0057238ec91160e6570,
   0x4be7769d7fdc98f140052bb0436fd8859a003e298969588b3bdc40609c92b7c1f8ab0e803fa2e68ca38cb728e015c69083f57201da8011439d2106506a82400e98cd224d869cc2e0385626ab30a91678a040f355e7dc4d45344019375cdc98fd065e8009aea3a65efa1e78e03ab8bd10b5003890c049c719a0151220f2006890527354a548716005729daba3ecf67fec,
   0x491711f9a5d157bd8004853cc630d043dea040d9c022aa85747ca05eec83a9b4d5232b4043119b2e843c3ee34014ce8c57e8ff4c52200e863b3c782290028011610e46ef2de2c1e038e74b7dfb19bc0a4044bbbeb7c2cb3a69c0192a31b15cc9647f200acd8de1a1ad01b4e03c7e1ac936bb5dd6404665902970963b170069907a1e997bf7a7e00572d46bb1596558e8,
   0x461c482c417e0adca0041c9e78e4658899c0437ab72d051a02e4205d04f48e8060c392c0467efb4efef0ef9300140b2c62f8e8767fc00bf5657480dd38a0201465d01a1d77d9b360396a031374ca54bb604879e87a17355ea3a0193a52f3c0189b84400c3265675c70c679603e4b909c3de9df664042e80ec69292566f606a49e20dbf9c2676e00572ee33712c4d5a30,
   0x4300aa69d5f9e429c003f5de84c470408da04605f7f68d05b11da05ae8d1af5ec9cb8a8049df459c58a102bfc0137e21e1c45d1a5a20099a8fc2e9565881e0179f5a735732a34d6039df1ab6535b1013d04c2290bdb744dff580196abe0bb07d6818e00dd970a39f7705732040195bcca0e5635ee03f575961487d7527606ab8fff825f0dca8200572f3673168fb58f8,
   0x3fcae9808c8c3a85800412a30ed2ee4b9cc048767b948bc3cd4c40589b5a4535779a10604d2aafa5e913e12de01328a803996df15340077ba46beadab10aa01b078906f6238ccaa03a465c1d9aa2b946f04fadcb852ba1b4274019bc5652b0bfde56e00fbfa6a681818d6c0041e2cd457471e048a03bba5710b7c8207b406adc0c2bfb5cc5d6000572eb1e6a010b7fb0,
   0x3c7e0130a44b7bc560047454845faeb996a04acaecc3e2d4946e20561d015d36e57dbde0505db1dd24633e4580130ac45f612038abe0059b5dab99d3677d401e9c3cb3be335962c03aa0a073f3bad496b0531897794c302d15601a3080c1b6c95a64c011e3bb3826fb8c4be043a530618d2b72b54038132a6a766f4707a06ab2247353db73b2a00572df0e225b715e0c,
   0x391aa74714f5734be0051fd858310364b8404d08d5ab362cb34f00536744026619e454005376fcafcd3d5987c013212415f3baf76d6003fb24ac35a758a8c022610b5a38621e40003af44144fc6afa03e0566591ac48eb75e3001ace30a9a5f56bf7c01445d7c1ef1701f640455bc91783f23d3e00345c2fafde691948006a3a4fffd667f61c600572d977ece8eb037c,
   0x4fa0b78c1b8ac577200727d78f205e5695a03f12b88da431a400c05fb372a31d45b3a8e03be9aeecf46ef7886013ca50d9b16854c1401390b2b6d9209cb6a00cdbbcce4eeeae1e003b8c74b43bb01e7a303f3654a384a8c441001c6da196b773a23e00076175b1f8a60ea040366f67d09e265802d04a4a0c85a5b947c04068906182fb98b6230005728f10ae32261a40,
   0x4cec8176339e87cd20066552209cff64fb2041e5f27bcbe740eae05e114cf2d687d5de203f5a719d762003ec80129f356fba0ab6fba010b3cf16b12c9ad8000f89fa104d40c761003c3f579cd536877c804315a62363f29fb0a01c63f7e4b7353bc2e00850b879a5dd811ec038213006cebcbc4ab046e2f3872446a050a069c175c0dc9076c9000572cd1b2816aa1c68,
   0x4a0591b32e9caf352005da712a2d5b89ba8044a09052d41836c0e05c3ec47e34d65d30c042d0d0de28ceee0fc011b291861582050f000e0090bb29080bc7601275785a904bd643a03cd6269602f00153c046e939d00d7d2a35401c6b57603741a40ee0098c71f519d583022039e7ca78b2589947a0436534caf18b4de1606aa98b23430ff3f1a00572ee8218f81833d8,
   0x46f652a2e9bf2f7fc0058d53009cd962a3c047410a7586c0498be05a3ae1d808b7de4ae04640d75c49877127e0110250c5439f9357400b7fe6979f264029e0159860af20823552403d56be0307914a5d604aa8b9a1243d1d29001c8b275f6007e9b5c00b0fbd2e4152b757c03bb833db6a57f4b4003fd55e4da80c8522606b46229fc99987d6c00572fbca026ecdb014,
   0x43c5d59d353cbbcea00580e32c334a90a34049c4397dff3ed304c058070b0d37e6775e8049a25e09baf921bc60108e5eb44892076e800937f0415b1ecc66e018ed7788286513e6403dc3005cf8f79cf6a04e4d28b7d3cd1cc2e01cc66011947eff6ba00cd7519f20bdcd31803d8c3820b351db07a03c389eee0223bed8006b957add7146a8dca00572fb686e1eb5d28c,
   0x407831904c8914488005b68025f2c565c1a04c273a4546007ab78055a4d9ac60002bf5804cf08244cdb7af0da010577225f030f03b40072c7e5a9e946df5801c7138bcfa9e7655e03e1b0f6bad39cc032051d1b95314e1dd02e01d1deef21eb648ad000ee173f14461e680c03f60bd79177b20bf203892ebd2652de7d0306b964a43e02206ad000572f48f11841b5508,
   0x3d1083564e37b5f1600631125793432b71a04e6aceee28948180c0531288a39c74e497e05027872bb680868880105c45a74632f1fbe00560804dcd2814f3602022cfd583e511fa203e61fcb4a8d8f167605534940bbd313812c01d95858e2fddf4ed80112cd7b10c4e0a00c041318f073ee97e8f2034e4504f6b3d6378906b478de3ff2ac618a00572eed43b3e7b8fb8,
   0x399504f0de9ff840c006f8806cad4eb79d405096957eb3657ddac05047d1233642d373e05340ca6bc61db321a0109603a767830bb1c003d8780b0126f91a602403812aad8dcc45803ea37fdd07ae425780587654710b78dc0d801e3943dbeeadd56e8013b60c0913aaca34a042f3554a2c3ab2976031274ec19cd055e9406aa89cf423c9b14ea00572edafe9a85c3954,
   0x360ff8bcbd550064d808188569047599ccc052b57cf5ce1124c2004d38e9c57e1d33b1e0563182ad79d04abc6010fa52841b6e855960029b972763370a266028143e68b8674302803ef1327e16d1974e605b9711c878d85b76601f1b4a6f6b698d61c0167740c5bcad1379204494850a7e1619ac602d548fec6c6209688069b89d0d864fb6ed400572ef4f0331c26ed4,
   0x4ae239f219719c188007777ea1ce95f318a04846d1c21170d2e1605961a8f5a80ba0eb204270799a682bf249a00ed00d2c9987cc3f600dbfca7c5e5714a4a013b22e8e70e345624040b7f2c19fc994618048ef15ea9ea2792ec01fd0d290a9e94786000887c15209c6aab36037460c5e010f56b060406010de3f86a630606b72b109f39dd3cc80057303000faa55a14c,
   0x47bc1e3d54fd45e5a007434fbab6bdba6b204ae35fe2898d77a9c057447f9551f1163e8045e55118f9d2dacd000e361b89c22b56fa000b4e31f36c0bad674016f2d725eab1f538204131a422f2cd65c3a04caf23423a734320601ffbc8282fba8511000a2b39510cdd63fde0391db3441bfe4881503cc043c8280e8022006bf215ca159fef6ee00573084206337f5c64,
   0x4473d135c84bacd960074e7ce5c24c3c54804d5c5b2cfeb079c58054fb4c62e54ee634c0494b25fa11207fec800ddd9e6d237ff8720009171438a0cbf872201a63d9320d8e1aba604191098c274cbd76e0504fed6665d03ab4a0203da5b7d99dd237a00c15071a45003c54603afc53e24892a075103918915766dd8ec6406c21dde21e20bffa400573062bd8ad428bd4,
   0x410e2ee568cc2b8520079b75bf022ca21e204fb0f835688e2383205285fcff80a8e96c604c9c93206c4e5509e00dc58d18e2b98edcc0071e4ff2a1846355001e023f31a89c57280041d8ad248d9128edc053cda10b061624178020997e7a4433e6d8200e42b2e54361cda5e03cdd06d40713cb87c0356b4b6ea119a333a06c012b8723586cef80057302957b75a3a27c,
   0x3d928fe607667eda20082f530c17d6f6f3e051e3fbe7241f54ff404fe15483839b8075a04fd1f5ca8899154ce00de990eb53a660f6e00568e76427cdfc6f8021cb7f28da916dc76042100bf28a51040f2057253c37f68f01b5a02117199d860eafe82010affc9343af5d01e03eb67334f1b704876031b84da142f41b40306b8f86bce1dc33ee400573005eb6b3b963c4,
   0x3a0afef0e66a8e3a7009130cd40c7e319d4053fd523c8f3366f1004d0535d0fdb93a7c2052e124e08931599ea00e41015f9a310591c003fd407c3159b23e8025be6806cfd0e9b54042455980de8d23a0a05a555cb8d1004ca90021c4c90afaae7ab6201356cdb775558369e040798a912eb5f1cca02dfb6f1dcdbc0bab406accbe5fc70e02f3c00572fd25813b0f6f34,
   0x3681e1c4568dd683900a51c711f025b14fa05606ae3df2d73c646049e6fa9ce6b0190c8055bf244c34531370600ec244154ea9d1d40002e2bb89c0bfae326029db21b05e9a233960428912ceecdbf202405d5d372fac643723a022b3a019edb849102016314f9d7e0fd4f1404215523953c8c3a1a02a2e98a32f90837f8069b7df2d13a8b570e00572f5c9fcd6af746c,
   0x485fbaff150a1078a00939267d6a8b4322a04e659052f1db64e2e0541ff76fd4516d47e0457b9681271ea16f800ba8ba523656f8ca800b55a7dc8f2ac7e7c0187ef350cbcb44922044f52ca66b930039604e98e7b8063ad6bce023856e81bb278e5140098c38f311b77405603688dc236d0ad0523839a058066f55b0b4706c4fbe15004e322ac005730ea497f602a6e8,
   0x45035ed11fa263fc60095bbd490c6c43362050d125cb2a2152c66051c4535b031581d30048e1cd1ee71ef779400b6c57b362d34b34400931fb23e5cef120801c07c0ba2dac9c36004546efd5c515bf5c805231a684cf262f48c023cd57414a11a260400b9619d88970a057203870263d42e2fc36a035f238a9206b464d906c5faf7867583312c005730d9c683617e178,
   0x418ee598773c59a40009c182c642406455a05315da707e115d21204f3e521368f34204604c2deae4e4cb65db600b703a4b1deaf9f8400750a54a9ab6cf1c801fb9a3fd612d2a31004581f32f23340bbd0055a23d25bc748add202430b60d52e98dc4400de117c6c57490b8003a555eae4912cc14403242bc1719e6ecd5906c1e62d621260232c005730c808314eee87c,
   0x3e0b77eca6bd24b0000a6fd1d0e5d527fce05536d27fedb63a89a04c8ae0f305ce0fe8604f56d21a9701bf0e200baeeac78c1f684c6005b73dc3490f2915602390da3db6f8470b0045aefd4122e865d68058e6fa551ebf517d0024b8469570e6c2186010677ed528e56a41203c2d76b208eee0bda02e92445949b35ed9806b8be9c52da5aa7200057309242a12bc203c,
   0x3a81e0de19ef5c80d00b6e20bc6968864660573a3d50df09ccb2a049a3966fa9db4af9c0525393b79cd313f7c00c2150fffa27b25800046b6dfcac10c55760278beac6405cf8b78045d9c2d9f0412038a05bfe2b2b3d84d1ea80256fe19fc53bf20a00132403bfb77f7347003debacb113f58d00a02adde7b1ef8cdb84e06aa80a12c30677ac600572fe8e3114ecd8b8,
   0x36fb7d77e97994c7500cc6cbc0825d5ef6c059289c3681b59697a0467eb4e9784153a800551a0f34ffd676faa00cbf10853d936e3c0003743bb7bb4806d9c02bab1147bc55346ac046110791d4b1c785a05ee6cf0c2a8edd23c026670e40771efbeac01611a08e04a8c659003f809e7b482a07624027203f93daa66d1aa069718772341848b9000572ea769a783f26f4,
   0x42039fb3248a8ee5800c290cd6e09579d2c056529c45cbc65308004bd207e79fc3f2d4e04b9bd057f2d11c1b40095599033fbc554fa007c851c9096dcdbca0218f13810d87f5ee00491901109af3ebc56057482452ed54fd518027e524610f55824b400db6541116e40165c037c310e7fc2d26a8a02f2068504f754320206beeda7fa5aba7638005730d3ed668c61968,
   0x3e80e5ce1cededb1600cf08b7958f15ea5a0585dfcf7165cddb360491539cdc3004fab404eb0e2439177c8856009ad2fc2c2837dc500064e4db4fb9f21e980256ba40f248a872b00493cb5b46ec5d75a405a734778722a761040287680fe4c1d5f9ce0104f6d871fd5b8fa803994abbb8cc2faa3002b79f9c77406b657206b3d6d17137e8d5ea005730444958806cf64,
   0x3afb02edb1c89eeda00e04e36e59f3cb87a05a4658ee1786a8b300462ac80675d632a060519743c006a30713e00a3a6f02037b714ec00522fe0e3189ee59a029665d809ab8329b80495a40a0afe05d5c405d6beb199c57cdeee029338d4e8331f89340131c54622be55003603b4d3aa197d0242da027d68bfac7c6e1df806a3b5746c77e3b53600572ee49897dbc7b84,
   0x377c84019d6d2712a00f705e4c7379f739805c13b7eecc540b5f4043099eb4420011c8805443c22bc63e2055000af4bef5bdbe63e900044df4336525c776402d7e56ca73d9778e80498095464389377e0060301a11f67054b6402a2be2746b9b314ee01617290ecc1296b9803cdc94701e773c72c02431b8691fc28e5c2068e78cf548757d27c00572c8f29fd8b03a14,
   0x3ef2ab7ea2d9aa47e00facbf41834fc2c4205b52db82ddf829e540458779203f3ec134804de09fe0f283a284e007e85ace6d53c24820072d80813c3a8380e027579574aff4c549004cb24a5a5df41d40205bc656bc416e71e9602c4a925654540eecc01067998eb469018b6036f0a3faf6f7dea03028762ad20ac42d07c06aa48af557584ca0600572f05acba8a46d34,
   0x3b74d33d2f0412ea0010d0861636f0a11cc05d1ac9d4fcf553698042a33dfe893b77eca050aec31e983b01bd00089095cd1ed73f826006216025f4ce4794402b497f87094d02d9c04cbe634d6766cf08805e9bf3ff03c08e2fe02d06604d2be4fafdc0133fbbbd60f9990ae038a4ff54efe797ee2024ec399d8d7be3454069883e25c0522b56200572ca4d575a9a7928,
   0x38044af87af0598d101244f8595ae9a059005ec0ce90df58f887003f92d16c4da06039e0533f50c46083cab120096685ff3fe0a280e0056b9511f1ae177b602f4e7f6ff58ecb0a204ccea2565adf52e10061368c1196cae244602df699f50b286e7bc0163fe946a91c2e6bc03a30ba9b14112cda40216b724fe5efa6d320681dd64f671ab73a4005728b69f55002bcfc,
   0x38902a844b8fc421901539954f2fe874f400612a67262d5982b6403c2521600bae7210e05212b2606f397a88000816bf587f7e17262006c61ed0b96edf0f0031167e01d943503f504ff205d24ff5bf5d6061fa732c868e05c9c031babc4920e9c03ea0168a35d6f5f7ae91c037866a358bedd8da701ed3ee5fc178a539606719bed8732954c72005722625dfebaf3140]).map icosaRowOf⟩

/-- `s2/ahrens_beylkin/ahrens_beylkin_2712.hpp:13-2726`, `2729-5441`, `points` and `weights`. -/
def abGrid2712 : IcosaGrid := ⟨312481875091057600, ([
   0x1b584d7b83427ea20007345b4aac24865f4038f197977d2017d0d05291e04dd877b20400644ac1d7ff692ee9e032e7d78f1ecfc28e300683602120fd356fa035495374e5af16a8b01c76aa02cf2d1b4180546137feaf899f9320093f2e0ad83eaf3c403398d2b8a9f71356c0629a411bc3b12c5b4035176d2679f4022800554dae378fb928c36005714bb8ae3d20d760,
   0x1dc8cda0cd445305a006125f4958db9d65803b312c31800e2eb500531dab672afd68af00639461c91a43cfc2602f8453c6b7c8686e800539f6d9484e2fcce03370f764ad40cc64901f26f56b5e48a2d08055543ba1cc8f248be00a35595d027dc00880305cbc36c855d480806080269b3558d8a1a034d7a1e334da50f87058190deae52cf7640005718389476bdf2eac,
   0x20905ec72d8d5fd5c004fd6769686af184203d1b02c5cc806495c053e4b571ac9ae38d606276908c8c9aa1e2e02c3eab1e078984a0200440dc02b01f1e0760313e2e482f26f4034021c17112e52ba2cf2055d253241c84fb8a200b26151ab6c0e116802cfb3684bfd559a3805e3398c91d49081f603504b7620e405b80005ac9ee89b33ca823200571c2ea6f6b605e10,
   0x23840a1cb77e28d9e0041d2e161bc1cd6bc03f224f6c98fa7f02a0547ff9840d9c9b46406123ccb723b68eab6028db6c3805aa224cc0037152c96cb088ed402f0b311f7999bc1720249a1c008f43df75205641e6b494739660000c5dd8883fcc66694029874784b4bb66cb405b9fe31c5ed8395f80351fb7c9ee18e9d9f05d6c7f42e0b878c240057226a2dd3e6cc530,
   0x26942dad9985c72d6003834745961104a8c0415a93e83648c53f0054d2a985b194629f205fa5f91b9c1ec2d74025580e95efa509748002cafe2c140ad2ad002cf376b36c5127800027be5bd42e5c406a0056b520c5c8710f5e200defc8668474f66560261057af71ab3cf6e058c2da17a178d84e20350b9b8731082627205ff773c021fe86578005725b8b65c2b6e938,
   0x29bf02a6ae25faff40032c759e2c481de8604393a5ef9a6bbbe0a054f6ed040ac02d1ec05df14218461cd5ff0021db6cc1dd80e693600262c7cd5d2b2d40602ae7ee08ac86556e002b0555729a3ddba5e05706eda0c5f4fce6c00fc0a40f31b849210022a51a92ac9dd73b6055ae6ea2463459530034ef76e1d9c6bee4306254c945df4d48ff6005726d28586ea6b0e8,
   0x2d06dd4e4647cdeb400311677d28c399608045aa82709a99466d805504e9981018c452805bfc9c5b4334b346c01e7e6ce346459aad800244fdab187370406028d83a2aa619aca7402e519cbbeaed57dfe0571c12d7c50e77674011b9b66ded2e1527401f4ad6b55695c3cda0526f38e5f3b0ca6d2034eb0a4021391659806479a25ae4d369396005726bd1b930bdaf08,
   0x306a4ced33be134ea0033120f04b897193404798cae03a7fd5b3405500286af357b8320059c7b84c359e5bae601b46a09dc07a518a80027391461b4f0749c026c30f8ebb492bbb00319d04566d8f6ac18056f06f7e5d637b26e013d692788ff03b76601c043047f0b4bbd4004f08d9056b09ebc760350312448c0d488d206663299d67f8ede540057265f7c60f5cd3d4,
   0x33df0145581b2aef50039a9e22ad1c2f7740498139200cfa6ca68054c7fd242dd3818500575e2af5b3a2274da01821b970af9051ce0002e61552de05d0320024c2ff6a9adfb53e4035031da4a521afb1b056a0a25349f06369c0163184c525219cd88018d642407ea6af8ca04b716dcb9769219c003511ad4e78d81b64b068136c9674ef4e2b800572697d157963e36c,
   0x1ce121eda20e46fa6007000cdfb6855262803e79b9872f27036b6050718488c6538f604064dcb69e46cd8b3a802d9996970e5c071660040e62355daf9bdd2035a6f9d037743d00c021a4973f24169304005826a484a1319068a00c52520ec6f7ff4880308b41416731bd9bc05fc0fe0f768b0cbfe03172545c43d6552ee058b574622f9bf452400571dcc8b51e6ff7f8,
   0x1fdbea91ce574bfda005edd00f8d6bee9aa0409b673e4cb347e100512a4120d3f2f249c063a559df1bad2baec02a0dfd330b212114e0030b650752aa681920335d6040e33a7937f02486b3ad37c6492d2058b77544782372ed800d710297d97f1180c02cf0683b45e2a489205d3861d97e5555ee80318b00925c6fa457205b8fdeb15ac798a420057230d4882daf8818,
   0x22f03a1911a02cb2e00523265023ce368e0042d3d162355d18718051a59b3ac3d0472820623c935e1a533a6ee0267959ae5a48c13000023ed4b2e0861473803129f0007842d25c70279e1682f03ab58d605937c941e5b2f21d200edcdc6750048ce500295dab4b9d90e34a805a704ea93fa14e43203187ed43e744179ab05e43a2ef334ebe1300057266497c77d4cdec,
   0x261af9a6aae410d2c004a4a37d6d47adbaa04520486432550424c051e0422c4e50e0738060a1c487f00c5c076022e0cdd61a59c0d30001acc8a96512dc34202f109e57977569c2002ae87232e0bc6d330059a5958c8c5e0e5a401097475fd1894058e025d8a8aa228e9259805769ceda7b25849ee0316851219006439fc060cac0e2bac7461ee0057279f8f091461ee8,
   0x2962f44061a36710400467e936fc64ed52a0475a06c70e67653b2051f81586d61a9924205ec8a281a89b4a6c001f5d1dcbb812214b400162599d1d1f8722602cfac20adf2197bea02e469a1ce429bf606059e14afd37e657a480128696b665a84de4202262ad659757877b8054308ddc60d138a240315223d14358489a40631c52a01ea35e5f4005727c98b434e8cf40,
   0x2cc9fd58860d9f7c400463fd658eb31187a04964ae0e108c0c56005203182d72ef4a07c05cab6bef6e5e948a601c018d299c9d259aa00167040d8342a8b0802ad99fa73733061200319fbe5a369f09825059d5d2872ef11ae9201495e86dcdf01506801efe8681a80d8ceb2050d052c9df391b6380316008ac154d3621006531fc8dbd9cb65dc005727127a499c02080,
   0x304799da24d60c4ea0049be2434077601bc04b43b7953c294a3b2051fa7f6afde61abba05a508ef922b725b72018d077fbe123c7612001b8db8653031a7a8028b6a78e9d4fe7598034f35ee5851db8de4059894b334ba20c504016c6c96dc94dc63c401bb37eb8ce980b7bc04d4d662353ff4b6000318a04a26596f2fb3067086d527430c4f6c005725fd53246afd1b8,
   0x33d0e9b0a1967af63005258eac69f0dc07204d23e16b96b94c46a051b2cae6870f70570057c3b00e9c869df74015b1e554dd610e46c0024fe9a96e168f9bc026b3750d4098d9fe60386707caf15115e140591e8e03d2a4569c00193e01673ef13be26018878a57d93b5ab2204997c55935291eab00319fab9376240514f068a0e2a457ea1c9da005725b530412e553f8,
   0x1f739934c6123d0160070f9b5cc5060c15a04445aed1f9f9035a404e4a6e2410f3b70500648acb1098c4541c8027a49d7a746e69f3e00200779de840defb8035649cbf97ebbfbcf027a32dabef7491ed005b89265a171b390ac010105cc21c5b40cf202cb3c1395133970e005bd9ef8a520c2971c02e0635369c7c4b14605c5a5348450e1a5f4005724c0d7104b8234c,
   0x229121dfacb23a6e2006663a20021e2d83e0468cf0e7733a19b4604ea648aa3411e56be0630e8059e3caa4a0c02409a4276950b5d3a0014a422f5a6cfcef80333ef0cc200a3161502ad578470c8815b2c05c0697023b98f144e011a1696907c876a3e029259c181101e4e16058f52ba5d4c2575d802df173466608c4bb605efd6fe3e16d5f204005726a6e8dea1f9b90,
   0x25cef8c70ace383dc00603b89c98af22a6e048d5ea92dcc1708f204ed1ec755c4e11a62061552ada6e0a09c8e0207306cc58a0d91d4000d6832f54543fcd20312319c940da8c96d02e2f345a58521262e05c5f5d75ee2ccea5001376a4146b37105c4025a03c399cfbbbf70055d24d4aca2b3950202dd58e1a785ac5dae061720d5a7330e23540057273ed35f956739c,
   0x292f8401710b583c2005df30bee1f68799004b01c95d2aeec5efe04ee4b385481342fe605f57c683963ac70b601cf5c1ec46f90eaaa000ae2e9c2348833da02f012d94b252b02b003195e57503e187d8c05c7c171b99977a9fe0157a2e4b8858a92d802226c40f05a7148ca0527d5cfde98f2b6d002dcf683a33086fc72063b0b334ad236a74e005727062513864ecd0,
   0x2cac2b5f22c904dc2005f0fb2ef1bb2b23c04cf7a9c7fd9ca5f8c04eef370fe589402a605d17cbe07bf459538019a6e6cc2f994f02e000d57b62ede4fb32a02cd2fd61a7d0e5fde034efbf6138a320ba905c4e4addff398c210017975b7d25a302b2001ec26698336f7ef4004f0735170792f3d0402df235abb00483fa8065b1172a1d4747a9c005725dbe441e59c450,
   0x303ab3b242ba20c240063f05ad28e84ed3204ec1274ec69f5879604ee4b41588fe115d805a9d830c636dfcb1801685a2428489e9e24001493e4a0b34b192e02aa6bf0bc677ab84a038413f4e26604891705be107148a57d55b8019d49beb0bf56b92e01b7b69a5a23d859be04b722da63f33d84f602e2f3e11e23877bba0677011b689bec9d6e005724718a401aaf5d8,
   0x33d8b36c6a6f78446006e691ee0630fbc180509282e2a1830ef2004e929ffb537a5a61e057ec647de96e2639e01371ed5c542bbbd0200206434f882e6062a0289d2cbe29c08382003bbc81132bf32e6f205b56bc409300ab4f401c62fc8463d2cf54a018523bfad22e58b5a047a173ba91dbfb6d802e51fc07045aea718068ef59302f1ec953e005724bbf79ad35bc50,
   0x224703a9f886ac694007e68c1d85dc3fc1004a2196bbd7ee4805604b8e2275667b8c32c063a5904eb50ca2d92021bfe0cb315e5cc480009ff3dae2968083a0355652be750a42e8402e0cc186167c37cb605e9a789427b6d858e0148bc0e8f4a62889002906790dd4a41c01e05755b69e14a67aba402a700bd1a7e9149de05f79ef83788b34382005725f78febc257adc,
   0x259bdd41b8d85a9da0079a8b800f97652e404c5e3a97c797b3dcc04bb4d8d0da706de6c061ca8ce036bd6c78601e2eb108020271f840004bb0bf6c16f68ae0332f4eb28076304710316ef86fd1a89093405ed6cebf96c111e380167421a96dd00a67a0257d8bc8a582e09ba05418c9f65bca1b6d602a62ae7fad0e6aa6a061dd49badc29834a200572610447d4e74430,
   0x29109e3332684e7320078c48be2b9400ef604e788cd63bf7022e404bc4a09f8dfdba46005fac4015ec75a4f2e01abc65958ed110bd0000446581715bce25003102bf26522b0482b034d873977a94e2cee05ed45940906280cfe0188728a9e774305340220448d2490943876050adc9c1e353e298002a6df4497db20ab9e0640763c804161c7440057259a9662230cd2c,
   0x2c9c784345e317cca007b1ed2544cbb56cc05057e2e584b0079a404bcf0c3d28dc1f32405d4f15b00902668b40177e4fd761fa66f580008bb925ff23f4fa002ecb392787ef7bf800382dccf5811d9a4fe05e8694eea9be62c4801aadd25dbdf55c94401ea483d6a7a225e1a04d28605f28b511fb802aa474fb8aa41ce08065f12574e7ad86cc80057247af249b12c900,
   0x303a0469cf3fdaef80081353599a385d4360520a5e6effaed7af004bc504cef53366c6205ab7dd2d19f8f43920146e21e42ae456a580011f4a1bb2c154e0802c9566d8ee52aff5e03b7a2d184a0d1b1be05df936bb5777aff1a01cf3dedcec918e16201b622b22125b5f08604984a1763e01a1c5002af5a0ff4b115f3760679999902f039e752005723b71839b393918,
   0x33e03fe2ffea94f59008db590d48a7a3900053d04913f0874fb7a04b60eec7ed2d829ba057ec4f9a4ace6e0720116999ac3222491be001fed8a5940f5f5d802a91def9cd977010803efa542d7db3d19ca05d57837a1f8f0263c01f99580bbeb80f152018461a13e6ba8d4e6045a08ab463f189be602b1bb563481562e3c068fb6e2e17d632534005724a7e689e01d12c,
   0x257d1e5ef9101990a009633b6e9998301ae04fb4eb33f5da256c20488e88889ec5285ea0620731b278dd6ffe201c17bad60312b7050000084ff1e5ea9678e03534a3734c9700b54034a02e2dfc16661000610c83d455790de3c01987717815e61be5002572a652b6c0522da052453491e306c212c02712b9dec2d8541ce0620daa0ecec0adcac005724f98a175522878,
   0x28ff747d384fe0d660096b864085065d7de051be05f663ae89be804898dfaad0d675c2005fcd4f097e566410e018b38aaa33061e1a60002011df97310f09e033030b9c3d7e2203f038097e535fe9fcec5060ee5de1e645e10f401ba84e283500f741c021feff0b20db6c8e604ec9427861b3b09720272bbfd79e448326c064211bf36ea65f808005724b082c102f0b14,
   0x2c96099327e74f510009a4a7ccc46890c5005388c27e81b7c0d68048a1249ed6b40f77005d575a118cab1714e01586c783d1d0f701000084c775caf2070ce030c638308b350960803b59908fafa04e705060848bf257e399ae001dd7c04686cb27e3601ea6a7dacb47823fc04b37c9bbccbd917ac0277242b13e25a107c065f41d6f928d31d4200572442c2fd5617b40,
   0x30369cece1616eda600a1cde0764721ea900552a366586dbc9e1e0488e1be0ccaeb4b6a05aad03319553c640601289e9a67485ec1d20013440775f112c4a402e94178b33e744e9603ea0b9f20b064ccd805fe0d675fbb48508802028ad2f200e57b2c01b72873679e6de7be0478b72dcdb5361598027cbaca89c39c39380678288988dabe01f20057241f2960b8a94fc,
   0x33d287ad0aeb462ae00b080b50cce506ff6056e66d2384811de100480f3ef4d7c8a9990057d53aa63eb7d917600f9d40563065d1a8200231e9beaeaac244002ca77c4945be4016c0421ebc2c2b332003805f319506164ac790c022e28d346d4d402500187361e84ea017ea2043a120454799af642027e9952ea596c53d0068bfe26a966b2900a0057241f357c317cb28,
   0x28fc87b33fc67040c00b7f790c6fa63ca34054dcaf1eda25eded20455a48bd30f77d32005fbc802883711ef32016d3414e653c8909c0003e30ddd5c55fb58035062f872d38bbbd703b328acf2186fcd68062d19407ac98e6b5801ee5164eea0cada2a02214897cff1d65f7804ccada1e5555cadae023ffc691e41e136a4064012e2e453ecb1f2005725052504cf5907c,
   0x2c929f87ee1fb0f1000bd0c2d375f1772f20569769fe6546dfcbc04556dcab337400ce605d35ea29833a04768013bb26e42331b2cf4000be4bb934f7b550a032d0e34f334cdae2503e7ce25fb9fc6a83e06253969d404a7c3fc0211fec09d45ff51c601ecd9dfe642b74adc04932a4d8b4189d7ea0244b86d5fa01e66d2065b87cfbd2dc4220c005724e82bd075340f0,
   0x302a5de266cdb9f6800c61fdaf2ece127e20582940cb7a724bf9e04534aa562c6dbd54c05a8162fc48335a634010d710631e888ccc400187160c362889202030ad96fdb122ce680041babaad0e000afa60619feec3cc45993d40237a8d29eabc351a001bb1f806172e17b0e04585c404ae3ea3ac2024a56ce31eac4efc2067282173e1016ad54005723ffda87c198ec4,
   0x33bd31c5e5021afc000d67052dcd8501442059cf658ed0bf1f63c044a91d1f376652b9e0579d35de5b961833a00e08ca928cf518844002a1e384bfb017f5802ece715e633c7977c0452a53ae7f6b8b734060db60b0dfa4ad1c00263b7f65ca9098dfe018cdec3b9aca004c40419cb0bb9323a08ec024c8a7c52b752eec806842b9004246d21da005721beaf60aa81e10,
   0x2c95798dc7cea5bea00e3c36cb9e1ebf50a05989cc56cd89ed276041e9673203b4bdf3e05ce6ffa9cd290563401216d6869ee2aa7240013b2207cb2d6966e034ed6cc7a56925291041a00a8cdc1321b02063f50cf4eaea8e4880248f24b0d2d8b507a01f17eb4a71d4005c0047117e2c9993e10b60212b38aeb19a240e80653d69db0b600994a0057252ec3b1376ebd4,
   0x30278698d48fbb4b000edda34d21e2e744205b020eae5252f150e041c522dc1e180aa0a05a271310fc68e0bfa00f4f4b913ff140bfc0021c0e2669bc21fc0032ceecb0586d26f25044cb59753b6bcf5780632a8adf3d1ae3f54026e85326f63074d3801c10e0b7f818048140436907189c13bec3c02191f6d15f028a6ce0669167dcaa8c5d7820057229086992be8058,
   0x33bea198a1425eedd00fe810c81def72a2805c7de9a353d4260cc0414baee7eaf1afd3e0572faba2ae2af2f3200ca2c383f7152611200351b0fb4e6af2a1c030e1f2bd063bc3e7f0481c8ad0a0108893a0623ff7ecb94459efa02999d0f0dc6078ae8019392350c699a611e03f86dc366e88d4f60021d7e075c71075e5006793cedd78e73767400571d8a4ee10a77a2c,
   0x304bf6067e125377401183a84122eaa67bc05dabd9432f19e8c9c03e56f86f21f7e79a80598945edf88675dd800de7042ab8a27fcb4002f6f2a97b54cc492034d7248155927c0b2047d6aad7cf6b9e67a0646e62d81ae70e44202a6d023ee4901699801c73b9c2603859fde04125db2f032c5382201eab14dc7485550fa065cd08048b3331eae0057207dfab48c72994,
   0x33f35efb987fdd8fd0127f9a7812f8aab7205eeeb46884a2325c803e0ac5736cdc0d4c40567a4e35f8432778200b5bf88d0dfdd2e220044267fb744875b6e032c41f00455d305a804afd6c8c3811cc580063520580ab1e31d8002cfb52b6330c099a0019992b09acae04d5203d4f5a3f5f93fba4a01f2bbc1d264cb0748066c3b02e2b9fa12f600571b06e0d1078db94,
   0x341712b9aac01a8240153b7c5d11b935ee00612ef81d4d962c2fc03abf7471a94dcb33c055b18e638d030f06200a50300962d7679f80056385f455cfcc210034b74112d8dda67ac04db9c225898d43fc00643a1a4644045d4200305cb463dd875850c01a2826721ec0cfe5e03b2273c2d2e63abb301c931a41e71177228065b8a2e1310556c7400571a451027a97b36c]).map icosaRowOf⟩

/-- `s2/ahrens_beylkin/ahrens_beylkin_2772.hpp:13-2786`, `2789-5561`, `points` and `weights`. -/
def abGrid2772 : IcosaGrid := ⟨335372911142912900, ([
   0x2c10827aa725b1318002f50a2ffdba9c704044aa3557fc0ee53040554fe1efe7b8a385605c82e59479b3d2a2401fc0308ba0dc157fc0026210fa9c3f8c1a4029422616b18fcf12802cfe5158678c12110056d0aa03099a17c82010d67ca4d26fce3d40205329c1025728e3005393e93eca7b2c72c03547fad005783f208063c44d9a1de8e8b5a005721b523af5b2fb14,
   0x2f00bd9acef22cc2400322ab09b28bd445a046e373f4d0f742b8e054f6cc5ff05ed096e05abb6bd763bc66d6801c89a541fca74658800252cf6df82cb869e027a84d3350699b1c2030510fcbaa36aebb805716fa2c86026ce540130079b50345599c201d5980ddb70660ada0506c9f81ca592deea034e5777cea9a1e7bf065a476a6fb7771c9200571e4b58a2a525b3c,
   0x31e393a3a410c61c80038bbe516b434665204900f219972583d6c054775b6e609168a56058d87bade070e3214019829ee7bbbbe2a880027d626f7fc0c364a0262e705185d58b0d00339906d149cc0f67b0573b2a7df1cf36028015488adb5107a5b4c01a90fac9a73e68b6404d3b062601d9c0ca80348056802023568dc0674283da31d84c7c200571a45e26e0c84e18,
   0x34d13961126ed5059004338ea7b3c0793d804b16c3146dded426c053cc56ab65f640fbe056cb0e994d561c83c0168fc9b0bbdd3fef8002e1e4f59bfb6a44a024c8d3933b37f747e036f392fb180351f080574059f7834fcae3e017c2de5c43fba178a017e17362d3a24d61c049e3ae68e5c074244034137013c04a23151068ad50120df67522a005718f1bdc98af4f74,
   0x1b998b45e78b1637a0070d73585d3ca68a0038d0df82a52661dd2052d5df3f77a0514d20641f516edd8c7079e032d5ab43641cdf9a4006886b8a8fa966eb4034f6fb1974ea76dcd01c70cab8a84b7064405432268005f3e991e00923815f6ef129b2c0335ab31131b01e75b0628309669a52194b40355e8a3b051e4621805570f51456e81414a005716c3ef43a421878,
   0x1daca468ca8888d220062c8710659b84f2403b9e8f86caf1142c9052c91cf7ac2ca0894063bfe3c87cf06f71a02f41fe527f058e8960050fba68aba053c54033b6a12b1cad559c601f7975176c6e7fc06055b2ba4e080dca2b200a788041b0b2c77ca0305ecafa3900c13d0060680d979943dc4ac03468f8ff23f8a7d9405831e2d0b13f1440a00571d92d741179b230,
   0x2003ae5183c78d9500056f42a1b70aa2f0c03e65cdf6f6316b27a052b7b98dbb5fa70be06315ad6995656806c02b9c9431216f13b96003cc19500a40ab8dc0324f265d86916b93c022a9e5f8c8032dd7c057011a86ac653eb1a00bfc1d993a93783c002d3fbd82ce390b1c605e06448edd0d082ba0338f920681a30032705ae7bdd6ebb272338005720ea08281c30f44,
   0x229c1b219b1f05770004d82954aa572cb9e0410dcdb6e2bde26e4052ab4914145c7ec2206219d3b00f804e054027fb8b215726dd12e002cb2d2d80b3b98f0030bc3356f3f8dabf2025ed8cacbc751100205809b6c65f55fbef800da331369d92fbfd402a08874880ca503dc05b6627a19c51c50a8032e45822a48894ec105d834d1d313bc13060057220d86c7289c3a4,
   0x256278e997e2cf5bc0046fda268db31b85e0438fd7e2eb5af8f060529a2b3a53aef548e060d5af2ec5543a1d202470b4b67943acc800021148ac91cad2e6a02f0fbfa78d28b41c602937eb9e88c0f54fe058ce2f69407563dc400f6b56e1b7472d5da026cf4630752bf3e0a0589535b7ad5779e160326056f8d5007a0be05ff4396f792b4fbfe00572174ae1cbc4d7a0,
   0x283f3d66790cdf2060043dacb9c7ef34f8a045ebe83938d481640052772b41cac5ca8c005f589e1cdcb4982c00210a1e5a81ecc951a0019d185e82dc2ba2e02d608128dec52d24a02c7f7f11bfd645d9e05958014856a2378e00115336e9f5d20e8d8023aab2b5c6ffd120c055a2cfa9c4ef3c282031f588027f153a30e0622d49cd3dbbaa69600571fc6070853f4d54,
   0x2b21022ab1dfd4b5c00444f6da215de6a4e048269abaffbbf5e4a05237e7ef23c7ce24205db075ede3f083eaa01dcdc875c885bcb2000169a08090c3e4fd602bbfa31a3f6fca8f802fc0564ad4b455090059b29268d7364d11a0135a718dcaa13ae20020a91ecf591fbe59805299f1a2fda077b4a03196758da30a2133606428b8fc5da52408c00571ddae7a6bf35f3c,
   0x2e0a1cbb1f4864d4e0048404ae59d672b2604a4565497caac1718051dbbf9262bf88d4605bdddd1f46606306001ab596ae044e3b2ce001737e2af6e05b2d002a2c181fda58373f0032ff8045879806271059e1a9a02e053ffe40158319c6adac7e25201dc61d31674452b2404f77e230d34c7fffe0314066235d8efe38a065eb5b2e198ba8bf400571cab861122c4c10,
   0x310e98605a00ac606004fa79ae5bc713cb404c4f756b882c694fc0516597eb8cd1a6584059d3027d16bfe63fc017b1982fc1b20c5da001bd01659a387fa2e02897b27daca85a0b00364cb4a541899919f059e12c7935e9282c6017d6ad235c86476c001aef10788340a086004c2a6077ed582cbac030f7ad68de55b33ea0677f43a94f1f6e21600571ce1d22466764dc,
   0x343b8c9931857ea1c005b535d0fdc0d706c04e5798a80224ae9b8050c5ab64c0e37eeee05784ae17688c3bcfe014b00584485d019980024b399605e83b294027041a3aa06e72d6a039c1afe55082c34c0059b5caebd7b95eda601a6d0890422e49c4c0181a01bf40359efda0489a959c085366704030afa661a6e15a6b6068e77a5efd298f11000571de22cfa5732b4c,
   0x1c5c9dc0e8aee5588007612f135ed4b420203f038ae950adfe84404fb513842ae37624606541f14c5ae489c9602d8a5d84853e299c0003ef1b8cd5157aa0a0366d56b1f3da9ccc5821efd87a17bb06c02058ba61c3e3aed10b800cbcdcc85fe4d924e030fc710b0efd62a6505fd10ba576074d74c030a28ef496d27d11c05882d4bfb5b2d4a8a00572092d65916ab194,
   0x1ed03c0d62b0b1d8c006b403b879bd01420041cddef4e9da1df0404f9df42a8274d820e06479834eae7347d02029d923deac07cd7d6002bfca8f86aaeadd8034f7bd596251a9ae6025360bd7300d23fd4059f7fd1d42e360a9e00e57dfd6aaa668cdc02dcd5d079f19e3e1e05d4f22fceb3b8426802fcff9e3f8822ddb805b360971a6705797c005721493c0cef9f890,
   0x2174ba5a5e1df2c120062e794cf49bf8f72044658aed7505ad45204f8f33d973766f7b8063661312403cb406c02644b49227c503806001d8f7745a173d74a0335ec2b16efa0cfde02877f2c51bdbb181a05ae7ee1ccbb8e9be801008b8b4093e4ab9c02a9a366ac249bf02e05aa186cb938c660bc02f3291430820e13f805dbef519229d7cc0a005720505da4716fbf4,
   0x243848f255fa8ee30005d81e357a633657e046d171f98ff9f553e04f79c301a1024e8aa06214631e81de7695a022d2bad11fff3eca600137cc95ee4f32180031b6b7a636630db0d02bb48d9704864e6b205b965945dba21252a011d374e1b86a876be027730c70ac13430a4057d0b7e8f78eae39002eb985091752e077e060156b4d6b1da565200571f5ff95fdf037b4,
   0x2713bcb9dc7b2ae6e005b6d7f63d7cb666804920b588586b687ca04f4f149dbc4994d1c0608bfa485822a0fce01f7c60f41c6840676000d74761db336bd5c0300d0890cfc0b763602ef656e316a0c1bcc05c113f5b58b874b1c013c2333c6dc0345260245bf1887eb18af82054dae34007137491a02e532f848bb90ab0c0623a00784ed65ed5000571fc0417d8648130,
   0x2a0c2759a6e128a84005cd43d27fc3a2b9e04b5ceb74650f25cd404f09d14e3dec3194605eca6662724a07c9801c382bc1674d9572c000b64b5c65912ecfc02e61e0872c2f0a836032486783922fa3fd505c5d09ee436d236ba015dd6d2304c1b31660214f24378180095ce051b7aa12c79b06a3002df98983da902520206430f314dd1cb5db0005720cde9519d0ab68,
   0x2d2a55b1f0d502ce00061b31c8f2602897e04d82e43c0296fb7a004eae6fd78dfa0baf005cc7a4ceab2c3d4d60190439b584455023c000d9019d70dbfa88802cad0ce9d7adc45ea035ac8350bdd85629985c72cda1dc818d0e4018261c2bad945602801e4669e105c97cac804e6101c5d947f414a02db39c0ef8db4cb02065fb8a65cab268afa005721a48f31aa5a5a4,
   0x306e3147090371304006a46c8640243f50004f8f70f189ff0fb8e04e3b6f731a28d441405a80e6937e947c2b4015e4554d3753af5a6001440bf3ffacbc4c602aef896bf8da1b7b40392137b6bfa7da4b205c4ed6751144c0fc001a9db337c3cd2d8be01b44b5df77cb30d7604ad61306fd859187602d82c33e0f3a3648e0679516b6de4943fa200572243fffa377c0bc,
   0x33c78178b2c5186b500778d07b9f1a09daa051910376a01c9d9d604d97befd2eaa0cb5a057ffd3b91fc27c184012d9d1f162cf7727c001f8032b5a9baa6c202942da86f8fde5f2e03caefeca7ba3fcb4205c00099f3c075045e01d533cf434d9a80980185a9f41a74dd6964047179873ce126cbba02d4e4c5bfcffbbde4068f2f8c608e80a53000572279ee60696b9bc,
   0x204e7877dcc7d8e3e007c1f440f8d7d54b6047903a7f9bab1d7b204c5881b67fd780cc606484e8c5200a82f02024c4a85e920af3a660012f1d974937d534e0361113585303b749502af15c4a90196cfd605d8e3c32e2c91375c012898e691f045129602b577f0841aaf3bce059cb54750eb1be71802b92e5db128d0d6d205db2f28855a3fcc0e0057219ae53a40fc008,
   0x232d382acee160afa0077977682a139115204a03e79c84e9c84fc04c3c5cba7e670e10c06318b101cdd7188b6021431526d91adf4f60009daeff5f48d2f160345c5ebc320c0904402e4622bf2f4f347c205e310fb7a99fa187a0146bccee1e53fb4120281edd8fa3e59d732056db2fd53fb0aad7602b1cdf196570cc3380600a7aa93d7237e72005722aebf0d1310d80,
   0x26313620611c8991a007687b41288cf5e5c04c62a1ee05c1644fa04c094c50815d80a7c0616c1e52d5a2ed0ec01dd0fc1fbccc6e8280004f23200de92723e0329ecfe6385142313031adbc77f8ce239a805e9f2ac933b2e7ebe0167bfb604dcbeb738024ea5440d7703bbdc053b7a2ad74c1e75ea02ab943562e2d077dc062362490c140467e0005723de817160006ac,
   0x295ad9f704a7f00e0007906d17f487e2ea804ea81c82f0795086604bc06f6e35f27391c05f7cd20828dd7bd6a01a72150a5abead18c00046e7ff13c3e1492030d775725786bf847035255377e026bd3ef05ed46e07f23542d94018b93ad43e5e91cf8021bb9a233b82aeba205060f6b90cd96bcfa02a6b502cea5fd259e06432c243608d241820057247d8f8d1b412b8,
   0x2ca5a4570c82ce246007f1f12dc693dd726050cbe15c9b512715404b6418679a33e39d405d4b80218996097da0172faaa81105feb280008859b5807c12dce02f07a7a18a4b46f00038a40281604a3230605ecc0e0a34131329201b1e716455ee99f2201e994220571dc948004cdd1aa056688bd5a02a376b8372173c904065fa30166fa66c392005724b58f5057535f8,
   0x30031cc5693592a28008938e0e7faf7a5c8052cf0cf9594c0bf2204ae9f8be0ccd27e4605ae0f23fb991298980141217479aa8541a600113b8c4eaf8b44c202d3eb6a07362056ca03c2577ba156f9df0e05e8c28fc4dbdf943201dacfc107e6621c4e01b91ec912f5f1a2ac049342830758e3fce402a136eb919a494b1a067833c09a03a93d68005724b343481ebca24,
   0x336405bf200a79753009832f27245459c44054c0ec3b23491018604a3a717f2acd1b0cc058474171fbb57cc0001118e600150d446c4001e7ebf9704ddea8002b94a6eb5a2b3684403fb2c25c5dbb056ac05e24714a1c842022c020730e86cdb84ec06018b4292dc913c10f204566c3b46a9e05c44029e70d10882e147fa068c5940c8837899e80057244ab68a54ce904,
   0x36bf17f6cb58d1ca900acb2548c3d44e382056aac048685f683ea04945ab9e4f13d133605583a3144a3d4bd8000e446dd8125a1c51600305cd34c6b89aca202a18feaf4832f889804351eb7ef3124093e05d9dd73a73e8f1fb80237ac3cf69396308c01609c5ec0f75ce38c041746a51118021874029a2f6259e25311f4069baa238f194997200057234f8c001692218,
   0x25a7e4633dd5862d600951554283eb5813604fb156bf580f08c90048ac058ed048d7842061ec6ed5563d6e14c01bffb54962e1935d600008d6dbd62503e3803507fa6a144a26011034ad23ca70ab218ae060f9c35cb0e4c67540198463ed68556e3320254833b010a7e78d40522ca81b529b2f79e027308a46930903b820622792a06279404d2005725a6f5242809c44,
   0x28ed54abc08ac33500098e80f7d6ea05b50051edf540fe842fabe0485f01b8aa8a7119c05fd94b688f09e6d68018a0a20cd3aa710080001eccf6668f03cd20333202b2a0154c647038320542630bfdab9061136650bd66ad51201bd6f8899f349379002210560e44057161c04eb79ec432fa0bacc026f11917235d65b08064172d4be33000c5a005725b45f1a0f91fb4,
   0x2c43d25a3b3537cbe00a0882bb90d9960fe054036bc285974ffb8047f99f30efe45667c05d8dd7affdbbff7cc0156b825963f14c4440007ed3b996e4bb9540316090bdc8b6f47b303bb28c7d03d16152c060f20855b2755a69401e4c75ce569d6b90c01ef5315b5de62845804b22784d92eb3235a026c70f8afd4276792065c74145af9d04dca0057256cedcf460336c,
   0x2fa016c3e37c44b4200ac396937e6e69020055f4c90ddc3f32b6c047736d8d09ea62bb605b1206eabcc2c670e01264cf359e60b4e040012754b71a74ec1d602f9fd3d075528f72e03f2cde6a45574b7fc0609c770fcfbee66ba020e6541730d5805ac01c011112025a31c4e04773442c49ca68c2e026a90207640399346067326ced204af6f8c005724dfd50857f7e28,
   0x32f9f087cbf48b12200bcbb286130bcb29a057d0aacc717eaf480046b8e89d1a51ae1820586b0322e576a456600f88807852f0677180021826350ce5d686e02e00ebfb32a3cf800042ac67a2de33d5d3a0601eec0932b6ece02023b30753b885e5cee0193c0cc959165a8da043a623f10be930eaa026835292b39f55dac06853c9bbc5f1bd60200572443f4ec7dcb7b4,
   0x3649a3ada57145abe00d2a349b39a2a40dc0599f4a04920dfac9e045bbfbf997790c7e40559ce9a5d8991a88000cd6b225c203b3e9a003525be45a76bcf5a02c9154934c5d1e95c04636d63318f336f9605f810735ea26e5dde026bbdc3b26a617bf8016ae8adca12f9c88603fba1fef2d6b987aa026489728525caf3f2069257c5063a8674820057237f6cf1393a3f4,
   0x288f512bebffedb5000bc8a696e481af8ee055124117eae68bf1a044e28c56d49bb808606000d229cf1368d78016f522b7442075eaa0003cdbf8f6b057d7e03593af12edb677ca203b3de35d4b0e596ba0631ce926217b7c60601f1953631bb84242e02280ed5531f1cf28404cee106c134ebf99602387377c66d034e5a063bf03c0f9a3a3fa0005725318bc3e0757b4,
   0x2bdd1d511fe911db600c5aad4abf5eca43c05711ead58ef4a6bf604471f1de22fdfe71c05da9a7eb2ffbc0ae2013dd6ad7e2017af46000b887fc00a2ae24c033ce8b88297bedb1003eafdb048de0476da062e6d4e04fb151a9a02194a923c9b8b1d6e01f7f9026a0bd9a20a0495aac89a73d6fdce023630bfa57e76a6dc0654e1305ec1403aa80057244e82624cc8604,
   0x2f2c65606c0b4c0fc00d2ab1a4e5b739924058eb1c4c760105932043e2e21e4405a21dc05b266835124ea5346010f73c6d851feeff60017a0c59c3d4bdf000321b502c32273d8e20421699326693d4c740627dbb3b6070a36a40242f5ef873f72383201ca7e1b8a70267946045b2f9c18729cf88c0234b95dbcb56174880669834bcf42807b0e0057237e46304bef80c,
   0x3275d5719b415afa700e474eb8edfd8be1405aae671ce0643bda40431eff9d3580074040587ad1ddb836fc41a00e3d5d504bdd9ad9a00282ad8c2e78242f60308c56e8e055e69c4045805eef10b8d6344061ee2a476a7ce9b6c026fb4afb48fdc009a01a01fe7d0b6304122041f07971e34416aa40232b40305067253b6067979d0c5005a31a80057231c6d5163c49b0,
   0x35b394a9f01f2970c00fb865a0158aef80e05c6184da489defbd40421b3f2593fd31026055a97436e023508b800bb08791e0cf36cce003d42019c9d9c97de02f2c10292fcfa00c6048f150cb911e522dc0613d40cd80ad80cc0029ffdb464c99193b201794cd182c805b49403e123125dcd40bc86022f80d8c24df7639606846fa5216bc824640057228bc7c82bb02a0,
   0x2e91af59f833295c800fbcff6f2cba71ae405ba159538063e3408040436070fec7fdc8005b30f35043a3f068e00fde5e34bb7a550a800203b32157a9b6df2034b82911aa7fc23e3044c65215c248d56ba064314f7a9dee631fa0276f42c7122efba6401d97aa82908b0ccc60441074c129af3b1e20200126f1fbc8f3f0e065aef016b94d3f81e005721830644a7f9fa4,
   0x31c883c25e05318c8010ea3af504e59803405d4d6d2ee109bccba03f77e7723a0729fe805884ef2817609df5000d45b7920ddb729b80031fa1ac0ba82d5f403339606f5667969480481924bc107bd8c200639321b4e5bb3b3bc02a37452d26d34a2ae01b1050db0718dd3f80405bdf93c811e3b5a01fe528b41367f7e020668f8af3553245438005721ab8cd5de7ad04,
   0x34f386b7ccfbf1f570126911359e364770c05ee5fa9e7a7412c8803e7085ca87b630e66055b3a4ad77e07ae7800adbfd0ebdfac8c6c00483b176e1d457df8031e6ec3550382258404b6f7a714f88f9cee062d1d942c6a52607202d33e2679669cc2ea018c15ccd7a5cb6d1603c8e1545a2050f60a01fb9d5f4435198e9e06720b6bb3c4ba3aee005720b4e5962157ef8,
   0x341514a9bfc644821015386b58bfedfd8040612c844dff92860b403ac28bd2af8f42e47055b3f18ad9c80a23a00a5238649a99ab86a00561a72642992fef8034b69335d3d766e0904db5d49f8a1e247960643a0ffaf73bf01e60305861c67c4d15fac01a28fc9717ee7917603b265aec1ddf1b70101c9509b7fb86c1684065b94672e9432a01200571da0df7749d92a0]).map icosaRowOf⟩

/-- `s2/ahrens_beylkin/ahrens_beylkin_2832.hpp:13-2846`, `2849-5681`, `points` and `weights`. -/
def abGrid2832 : IcosaGrid := ⟨304073707573032600, ([
   0x3842e98d6cf24c2ce0036aa0515dc60a6760490a0f771f8f5aef005685b3dcf64d5455a053c41480fbb10034801641585ec6f1b9a4800456252cce7c14662020f8eb2493986a9be036c5d5a90512db8f70541d1b1d1db7d9e080172a6af6282ccf55201555d383563bafa5c04820fcdfbe54453e6037b2dd922dbe109d706959f9a64ffe10cb40057147caad28631650,
   0x471aeb4fd9fdec13e003d0f504535d5aba8040e022c17eda2633205ede24eb41f2fe70004508d281d5752fb240158fbf8fdf9a24dc400d5429615dede0308012a3fdd862f3e8e62037b6aceb3a9f4229c045f6b2299803cd894017fe827516e96663a00c0c8b32d5099f66403e715fdc478ae63260459a0812653d49ea2069887dfefaee84a3200571e1feed32fd6a34,
   0x447c2b7e703a7debe00398f1c7f4f43daec043600de7f8785ac9405cfc3a28cd8ba723c0480938ce3099b82a0014c81bed476b48c7c00b179d3ff4c28d6600156c60e85faf575f60385bb26b3c733dcff0495d159d99f6194c601841e17a275c46a8a00d497075479cfa97203fe6485b18875ce860425642c0f9a5dfa6c06a267e6300256066600571e3d881ccdb0a20,
   0x41c7f7cc17b2edf6600392f11db8de473c4045ba9574fa6723f0c05afdea9e4acdac5ae04af66b0df5763eae601438e60797fb7bd360090f9755259c389f201853927de875e5eaa038e7329adb90a75fe04ca07f35a1ed77bce01894631c5a24bb09400ebc3fd02b3d8bf720415f1860383de4bae03f168edf0200e648606a82b6657f56304ba00571bb0464ee99e3f8,
   0x3f0817caf2482808c003b9200adab12f9d6047df878d774c0bcf2058f30b18ed7ce44ba04dc6682c4ba6249a6013e8876a25cf53a4c007427ff981c9bf19001b49be896078b5be60394f2a74e5683911e04fb0bdd4398464528018ec3dd933372ae820105f277b7eb6c4292042dbd11e69e4348bc03beeb703d2be8ef6e06a9cc8f89eea4e942005718ebe3da0d918bc,
   0x3c3ffe3fbf967de5000415dd9cf14664a34049f3e595a02d3bdae056c1c7b5501135c9a0507ca5e6086bf385a013ba8b04f9b079d44005a74b40f8135f43a01e5cb9d533d3b828e039b677f30ea72c892052a6d3c49854e846c019656728d261fb1e8012291d60f2e37dad4044490971c77bba90a038bf4ffa76cdf1aa006a7fe39d2a5fd01de005719fdf14a28614f4,
   0x39603292ccefec20f004bea576d5ab541ae04c297e087482d5f780543b10056fc3b85240532a4eb7050632ca6013950544174fbe3ae00431ab56a7b38718a021b32a8014d2e6e5403a444d9f9c909aea0055ac25326d5c352f001a255fb15657bb89801421ff6445478cc3c04599239b357ad8a8e03551aea0f63df15e006a2ec4601e67ee49c00571a4e0b74693a0cc,
   0x364e212637fa82e50805c13e339525b3e2804e844d08eff5147a4051498a736d1c60668055df3acce5c52134e01386486f9340f27ae002e290cfa8d36331e0256aaf52b50c3390c03af2dcc264ec3bf8d058ccf373866069f8201b31142ad2e9d7ac201664f5d37f9344b22046d9814db04c30cfa031910e1198ece6f7f069980dce9732d6676005718a0538548e0f48,
   0x51b9e64ad991f96800079a9a15889145a2c039495ed544e596f0b062e1476688fa6af7003833f37811e9436570178f9ffe614b3c4460177836edfd5141f2000998c3dfd49be7a8a0380e127cdc16338d403957d6c016beab16f01a8bcc157c58381f6007b20325ec8b417bc0364d32be29d89bc1904fe19d7bc35a64542065f4dc8e080161246005712c0cf761eee76c,
   0x4fdcfdf871603071a006d226ab9d258576a03c1e78bc0b8a135a406185862014199ceea03afa1242e353d6441015f5844f91ba82796014d81f92222a7d60a00b966f40ba9abccc20392c4b8030ccb686303ccedac14e812e9ba01ac0cea067d5f0bae007ef8b690cb58c160037532e6b356ea5b5004ce67c260672197640676e352e59c511cf8005716b2cefee883c08,
   0x4da81d0096129c3c2006158ceca8c17ddbc03ebf6296c14a3dd120601f17528864722ba03df14f52d670bf7ee014b546e94444366c801240874311e0e589e00dd11291b9539d5aa039f7f923ee129f64204043f91f77450d57601aca202c0d4c835b00088a4c92db24cebe6038aa8953f841f157d049e5ed8a6dde9b9f8068a8b03b83d00ffcc00571966728383b7f98,
   0x4b40be9968e4195e200580ed99ba77e93ba041540dc4941978ef005e8ed5db58c9d9fce040f99f6745400186c013a48ad84db8676d000fbfcbeedf1ae1da601044c35339d94ac2603aacdaaacfbc96e6c043bc13979aff5dae401ade1005ad55bac9600965ac8329156ece403a1a8897347c2607d046c9ad9c5f0623afe069ad19f22704b165400571d276e1559b2cdc,
   0x48b3d34107a10681a00520ade54adebc048043e8e9e7e770f9c1205cc8825b86fc22b74044062fd61fd3ac682012b69cd2c2773312c00d5dbc8dcd354e2c0012f1140da4d3c9f3403b5f4c838a7f1b25004736ecf58783a4e5001b10dcc7eec7a7ed200a798e2a4020a271e03b8ea9f2bb208534e0438a506b43008baac06a7ba295a88e7c78600571f55cb9622ecbbc,
   0x460638412a459b124004f4e7b8f74ef200a0466b661b31990cf5a05ad6d11fd01be4f800470d477b3e1fc24a6011f81b6241ce803bc00b25375a0349a4660015cc65866f90144b003c02c0284bac2d31a04aa30965e587c4b2001b5ad3c76f040fd5000bc7cbc135d3cc4fc03d08adb604637bd5c0403941c6a4780de0a06b0c6d8d3bd651eda00571f5a15101c0e2ec,
   0x4336994b7e92366cc004f7b0b3dc5b9a54a048c78e7150e53b9b6058c81c1e27a2263ac04a0cc467a5f057e4001178011c29d2370b20091b03f89a24c9ae8018ceab6dbc6d50b2003c849313bdf0b214004df2c2a1a9377288201bacc8bc252b6549e00d54add76c0907b1403e92c6d1558c0ee3403ce7cfe586802458c06b59e0e1b2a8c1d6200571ed682c44028270,
   0x40436a5f737928cf00052a5548b90d6353604b00616858ce5cbde056995cc3a104f7e7604d062d9d4a08342f4011350ea132d5ac8fc0073e35c040e7040b601bfab9383d36f782a03ce6d21c059adc40e05128e408ab4d0c27e01c08cd7ad3d6c0c9400f212e29aafc0bd7c0402ca28eb7cd488460399261f133bcec18f06b63f47e33f4b4a5400571f9608159b9eaf0,
   0x3d31f87dc4b01e5500059c156565d388cca04d2fe9a1c76cbf23e05432dabd6f26f3ffc04ff5a568c96a61f4e0111c426778b603c5e0058fc10ecad47f3a601f5bf120695f4ac1803d45eb8dcebfe02ec0545322241435bde5201c89e102cc629e5e40112896be13b50d582041c24b0673c0248b803621d69dbbcedf18706b2cfab170b5119d0005720289d58b1f8efc,
   0x39fffd36cbc536b6a00659196f855a0569604f61a5cc183d9e1f6051844cbd5b0de2818052da7c21654209dcc0112934c1798afb37200413088cd3c261cd2022fdcbe324bd6dbf803dadcaa7cb6b5eab2057782b110c4bae60601d3ee4ab26215fec80136f45a42b229ed360434bf5e26ba7396a003287fc3cc6387796506ab028dbad6ce0a0e00571fadc666c9c2fa4,
   0x36bb87d3b54f77b7880770fa7afb474a8460519dfab3c1bf0ea9604e813a22fe43ff730055a41d5ef0012d84001152e58e429cc2b44002d4d0896d4fc0862026df4e2c2569d98f003e31136682c393da805a92efa759afa49e201e3d018f69302f2f8015ef0f7fd0944b2be044b3deb29b2ba22e202ec03e1af86a834c8069e96b28fa246c95c00571e428717741fc28,
   0x4f2087060f5d2211400778113a820df95ba041bfcda9292c96aa005df463e5741ef34ca03cfcfaf579ef1e774011f8f54dfa91fa9ea01253729ee129761fc00e3f4282361e7959803d8f653a42066ed8e04187e0b547acc350201ddd769a44776e5060071d93e99b767c53e035db4c5cdf4724212047c6eb799335533860697e67e0d76ceb7d400571f7af6ddb913ab8,
   0x4c95d4dd8049e76c2006f24d1bef49654ce044805494adf245e2205c3745076ea5a3e8c04027ff8d109f6500a010dafef0066d247b800fbde39aad2505582010e482fb3a0a2a4d803e5aaf909a64b7a7004530893bcae4d418601e086e819538ab3a40080f687148918470403752e5031f26bfe6b04470eefaabc3cfc5206a81cfee56b94b51800572201ac539f8e098,
   0x49e7355838cdef226006a364d78964f38080472d08eebdc3feea605a4c9396e99d5e8a00434e86e95be57968800feffc73ddbe04f9a00d5385721fae03202013bc22131f6bcb62603f14ed9920898a956048ca2b3d3b0fea5d601e4ac4b31793620a80093fdbd94774f55a0038d240af83eea275c04108116cde23048d006b43d2d7e182befb0005722a9bbad70b7e24,
   0x4713d9f3d84cc9ffc00686a1330161288ca049b70b61cafb49bfe0583f50190395d1b700466efb3161e76671200f42e83f9911487e600b17b7547006a976e016bfd2b69d69f084603fb03ad2239a452e404c4a9ad5e03dcd81e01e98f908752354bd600ab1d21e2a6bc794203a60fa98eee93dcf003d9968cf7a9124d1806bc091cd08b27cfd80057223247b3ed4abd4,
   0x4419b066f5c181976006979c9d93f15938c04c14bb3b3d15e2c080561735a2ef02d456c0498a428e2af50a73e00edb39a1c27723a4c0090b1722cb81d5e0e019ec157df907c2260040226849d7b264aca04fac730099633ac3e01eea08b042b91a28000c67bf1c8ae6a6fca03c05ec2cbcd3edc3e03a2d11cae3edbc27706bf62730663a17174005721d04034510d3cc,
   0x40fcede1620a6f9c2006dcdd727b1d1575404e4f56d42c6a806ba053cbaa8dd812122cc04c9c8d999d160f4ce00eb15fc3247d9c16a0072f99e7ddfa61b2601d43a15e5254833b8040770f2db7e97f806052f30f64cb13d44d401f49270e4486421e000e5ea34dc1a04fd9803db78f890c61da644036bba8616fff8f60406be537b43e9df111c005722150f47f0801bc,
   0x3dc37f354f5ac68ea00763c2c91f7bce96e050780ef417dd5fd0a0514b19d863996a87a04f9fb190180dd540c00eb89db7a0dc8b418005894d4ff114fddd2020cdaaab71ab03d7a040c330001ebf197d205625401c61648fb6801fcb92964313bdadc010931330cf435a74a03f651a1575a62d6460333618e2f67a4cea706b8d5f1eb5982a584005722a9c103a4d631c,
   0x3a7cac66bc2c8c561008390d07e57dc659405297ef31cd47d203004e8b65a3c66287bb605283bce9bf20bbcf400ee5eee4aec255c7400422b5653636357f2024870043debfe3af204119b0de2d2f71a340593ec1bde6acfd6d802084dae93d9f67822012fc46875e09e8280040f9032d3e6ac048202f98c53654dbbb28006aed8b27cdcbb9be6005722d1e48ca631264,
   0x3739e1c4b57fc12d60096832d114098ba32054b65d4215262ad9c04b84f73a18a52ff3405537250e35732554a00f2e2bf2766ff1d5600306c7c8247d06848028698e31839e10f7c0418cced3d2fa3918c05c394f5225ac2bc4c021875b5c73c492e4e0158f96fb65fc787aa0425d2dd817d18b50e02be2dc9ea86427c6806a058ace67ecbacd0005721b034ee5eee64c,
   0x4ad0bf375044f0aae0085c4653dd5793a2a04a81cde48fbcb459405785addd1c46312c0042bcab8fba7f638b600d518d360f18f2a1e00d55fbe975d92d72a014e32835d1f8572e0042c3d78bbebe547b804a7f109bf23dfe39e021a200203fb741cbe00857d7a0769758d1e036315afa5f1e655f4c3e42b15957653c2f606bd1b213e62445854005723b572cb10979f4,
   0x47df5b2abce01ed760084e80dc8d48d0d1604d018433ccc6fca5005568275db6072f9c2045eabe6589db6b72400cc074144c65371d400b222d17233027b5401803759451459dca40434c6dd1e516d02a804e018dca48568a0b6021ede79d2a18845a4009ecc7d9b67de0396037d410aaef13af19e03ac8b7069da7ef22106c33e1e3bcef8c41200572310637a072e148,
   0x44c7bb49b213272280086e7b71a0ab7e8c404f53481467fabad9a05330c63b85560b38604912acefdd185c0ba00c75c817860ff9ba40091e8a20127c34ac001b4b5eb3b7e53a97e043aadd64b80692b3c05163d9a81978c0a9e0223c0886b4984f85a00bc5b969143f4213e0398d07a5397263aeb03752a792bfeb34e3f06c4e44a2277226120005722b840c167cb6d8,
   0x419307287504b5202008c78c6a118f6ae6605184454602025afcc050d29cc09c3fd1bf804c2b75f1dcf1b2d9200c65ce87a16fbedd8007507d63eee5ce58801ebd38ae28a27c38e043f1e2baf142b14e8054a887593b276c0260229ef8fc2b098adbe00ddcdd8dc4195b6b603b4b1ad17868920ba033d6ee1b49a0a30e506c211858d8638e42e00572349c2457d3e488,
   0x3e51dc3d0a84f938400968bdd283658be6c053a2a461d78d417ec04e3f8e43457b4011c04f248355f04b38b9800c816a0807f980970005c23fbbc2d134d8a02257777aadd224a0404439e6a74392c6c28057ce16c43f1d64aa20232f1a6fd47fd4d0c01027e81ec88dd92bc03cf4f3fa0b06ebbe60304dbf438cd0d275c06bac68f75729e009e00572400f3174c5616c,
   0x3b10be0f363ee654f00a58886a913cfadf2055b10fbc730446c6804b74e734cb11835b4051f14be06cb5d779e00cc230c730f03df3a0047b9645b9f757492026140a9d381430d260448d52e87e547b1b205ace6e32ea6cbaf42023f6dc54671cfe0fa0129f22ec0835e189a03e7c642f3cd786aa802cb934d47dc90bfd206af02d4378372a21c005723d5fa1c1a6d3f4,
   0x37d7cb6a61098ac6900b9bbc5859034e54e057b19e811fba5f5ca04870398d368abdd68054897b16e503b096600d23df2aade21a2c800381dca28455d6668029ef6dc178285eeb4044f3649b9881900ea05da5b27442b03a97c024fdb175de31943c80153dbee0828f93a1803fd7cc35ef6ae3c600291a307c8e6699a68069ec0e6090667bac80057222cdbde6c5bb90,
   0x455ee0dfbee11e15e00a7a48588853664760526e1b7d5f0e0b9b60502a4e1110b1f4e7a048881c13ad19ac34800a490b383f299071e0096798d51d7a1620801ccc9abe6f8e727be0471b543c96e70a7fa052f970f1539132fee0259feaa4b6a981bbe00b5bbabbaa02e098c037173c10e78e19b52034795650edd8b2fa006c629fe0a9e15efc6005723194c122f8cf20,
   0x422807d43d2f9e5d600aedb283382a9eef4054962544e1a527cdc04dbaa3b0f50e6ce0c04b92b07b70bdd176200a498649e66c1c8ec007b2ad28ba2faa5ea0204a9950e309d0656047622db3f82661ffe0562fceeb2e002513e0261308bfd5f6322c600d848ba46467111f6038cca2cef21b131a8030fba3ce0ae7dc36706c1aff4810d4f327e005723da469e614b0c8,
   0x3eee0bcbd9fa9e82600bab4bde5c60aaae4056a8d88a644cbab0e04b18a83cebe4890d004e741eea79ff1b2de00a73c2b6a2ac17e3a0064378cc2f0824836023e9a11b108125dc2047ad1f0395b2b8e480593f8e86d4f52b20a026b687a8cd7640bae00fdb95c8d0049e0e803a66139839829200b02d76b6760a26859de06b8bb7198a52a54480057243ce07eab9dff4,
   0x3bb599d8d43f4fe8a00cb210192eaeac9b2058a26c011e3fc76ee0484884df33f93a2d805127f58dfeddc0f0c00ac829b24f3300ef20051c7fb6b1006cf1c027a43bf967adcf128047fb1e1550c166c0a05c23997e2e298f28402789220a096195e740125dba14cce14098803be173a964113276c029f04571495c8928006ab527328c5a6015c00572377f30b374f4ac,
   0x3881e979997161d0500e02c2f21a5c99caa05a81d2313bbce14ba0454b2070c6933d47a053aae5092890673c200b4635fbc4893fa720043fe57995d98a15802b77de4d7d0e6106c0484d292441fc535c205ed93d93f3a13f9a00288bedfd0bb7cb612015091374490c4f5c403d3c1a2ff48e5591a0266a8a031d53aee960699728f43c717e9340057212579097c0cd40,
   0x355f209c01790b61e00fbc7d513ece0033205c64277a69e6c6c98041fc8544e6340ac4e055ec8bd49ddbc5f8c00bd9e39174fa1bab6003bc056ca604db1e202f733f7816cb27b28048ca7c4e5da4947ac0616858dbdb28b7ba4029ea63394a0d01e7a017da5b760dc340c0603e53a7d294d3e08d4022ca6dfb69b3181fa0682ae3118a3c318e600571ca5d0b498ca47c,
   0x3f8c0b51913ca16d000e292b432c4d558b0059881a8a51e7c67fe047d5cd7611c8f4af204d989184cea7fef840089709f8b3551067600708b784a8a03784a0258bf31a3516b483404b1411dc08d0be69c05a7e47bf0d0a2fb2402a5b086134a95e04800fb77db737022e6dc037c41c21d09378bbb02aadc3234e4a8303406b281e529dd21b2f0005723a833fbe75ae44,
   0x3c593df93addbffec00f409cb5ba75f8ab205b674e2091698b76e045071a9235e6b3d02050375a650420f7a56009031c4be272d1f06005fe2aa64d5b4d814029422d6cf8b85050804b54b41bcc27af15a05d4502c4344b4e10e02b2faf1918e638f82012458e5b4f8d7b93a0393abb535af623abd0273a538b3494af62806a389f0501719f47000572235aa6008caa14,
   0x3927ce31dfe1b3c5f010972a8279012ef4e05d218033febabf5fe0421845b1e6fdfe2c8052aa0ad031471631e0099ff0a8335508c3a00539995272d13d84c02d0b6ba4e469a6ad604b8b957f3118e79fc05fd99e2f3e652439c02c254fd8abad5ce4a014fd81d83984f8ad203a9c2103866269df5023d2026074a76b62e06903fc381fda1d8c600571f41c5aa282ced4,
   0x360a5d39487d2561a0124d22d6c4d142ea205ed23dfe9020ba62603ee727483889f3e56054d9ecdb0e5d9232600a57e7e0bee11584a004cd2169b0ce11842030f146040d50362df04be24c73462da222c0623f17ef4a3da364402d6995ba7b102be68017d7e94dd2e44871403bc09024d3f1a58720205dda73c82e21e72067839b9902cc0e47c00571b1048543364b34,
   0x39d9facbf855f425e0134bfa127247ac84405f8535ae16e1fab0203eecfb202285ac3480517c84f18e4c990ba0082e0f7470e5e1d6a0066f4c8d8784fe9a602e92b5563ab5a409404ea9a4efd36da71840609952c8e8600aede02fbeb88dd888594a80150abcf95ba88cb34037f48c94af3f81407021661f89eac6ec2340683c6720738906e4a00571bd1751fee9d8c4,
   0x36ddc8d54c6ad188a014fac8aa672c0f486061092a6c873f762d803be252ce425deb558053873f68e09124d52008f76bef457257ec80061db3b09fdb88ede0324c3e6581de94e0d04eea8952027b14dce062cc2844bfbeb5a08030f1146f613c5e310017d480e90cc2dfcda0390f81ec6b757037201e2909310fce5c0f8066b5b38d03bebffc60057185d8c42de05c88]).map icosaRowOf⟩

/-- `s2/ahrens_beylkin/ahrens_beylkin_3012.hpp:13-3026`, `3029-6041`, `points` and `weights`. -/
def abGrid3012 : IcosaGrid := ⟨221845035417548400, ([
   0x31f4d89c752e39e4c0034a21953fee367b804850510ac57819b4a0550a16f5ac49890e2058b4bc90e3617afcc019f49b4f98f831e04002a5f4469e582f88a025c914785d7111784032fe7d756ac41cbf3056b7e91d4375743b0014c07ba39df1a93d401a98c89e3a8e3a59c04d8470b6c07ea257a0352c24d4d048bd259067249e52abe3013c200571da496bb44fe1c8,
   0x34948db2d1e74467f0042777b9dfc65a0d404af54b8b3684118a6053d41abc02b4164b2056f7d7f157141fb02016c5766d613ddac88002d61952ef39384ba024e985fd70fbd9bd6036b66d78fd1ccdda88574758e91e76c00c4017959b305fdea84f601816d4d451cafb03804a2526c837e3427ce03413e9e79aa916a0f068939c997359864ee00571dc5d64060daf00,
   0x2944e34510123cc2c00343b2bc8770a212c04378224ed297d6ac4054cc24f9c466af77a05e3fef8aa2fd0d49002235ed3dd1b94dbda0025d99a35c7cde65002b4dd899648f0f5bc02ab931b890881f1d0057268c866fd053f9000f9ff24469361697e0231c0656fcad116b60560e1d483b1b0f58a034c17b3a4568bdccd0620e7d9ad11fe7aa800571b73dacdc0d8c1c,
   0x2bace40b11bfd65b8003853a617bf571404046483afb08ffc2a8e053ed6fd7441cc1d2005d0b55fc82c06e10601ecf9ad745a5875fa001e8ec10ecaad290002a5ac6b038d73dca002e48040a388ef81e205824de26fa3683cb8011fb5d5e2fcbf6bf80206be927d4f0260fe0531c78741ed954cfa0339aa9ae9f0f7cb6c063ffe124873de601800571c97c618ffc66bc,
   0x2e3031af9cda4ee5600401ad3ef47ebaedc049065214b5491d434052f08096fb7fd31a005b9da0454429a8a9c01b7c68331cec1b9f4001b5598aa70860f5a0296983d672c9c51e2031e8208aebb997008058f4c32697d57702001485e1f19672de38e01dc8bbe76a627597604ffcd8563bc25aa9a0327ddad276ff576fb065c108fdeaea505d400571d4b0d1c8aec39c,
   0x30c95777a4ae40210004bb49c9bfa5c81c604baf83bf758c90458051d348cb5b433a4f8059f93483e910c0e680184217c285032ac08001c475205ea298a060287eb49fe2d7e902e0359527d210524bc2205995edcf27ea751e80173e2f320e508a6c801b38ec6be6065a3c804cb36c4fec3f3220203169f9535a3a94d410674d02dd0af12c1ba00571d9bb996fe6e834,
   0x3371b6762547ccf31005b433e4d89933aec04e41b226c8df6520a05093105bf3fabedfa05821b490f68e47b1e0152658a3f1ee53d3200216fd397089e3294027a01ec80948db60a0394abd5e03a37d15e05a094def3a65c0e7801a22e5b2738aa849e018c38f4f59fda458a049452518474310a9e0305cc2c5e782f00440689ef8d4f6fb8400400571d92fa696a61334,
   0x3621b927847f142af806ee64dd0ad6d1a8e050bb84df752791e3a04f2c92bc907cb34ac0561bdc0f656cbee180122ea862a8d0d5baa002acdee1586d3782c026d4773eaa64f08a603d049bee65e4bb4de05a50fb7f244bf5b8c01d329a1307b629666016702e5e5b3a71676045b7932f16423e37e02f52e6e6e478f93ec069b24dee3fc5a6b5000571d38a074ddb5884,
   0x21686f81cdddbfba0004c9c7f3f4997e40603e2d7ad46f942a0ee053c80184fc7968854062366420df4ff848e02ae4a2229562f728a003d0a10640ae9d502030ca62670e0ad7258022fb92740bd49f61e056544b64ee5b291d600bc8522cea6425d8602bddc910494dd818e05d49caca1a92f9d88034a2a6bb87e7c0cd505bbfb2aba62ef10d8005714a958d54356a3c,
   0x237130df59ba181a60048827fdc4018daa004119622d477a5338a0532811655ceb28d0e0619904c253690f2d40276ee8e08dad908b8002c681fdec7da0ab602feb6312518bfcd7402648bcc38f7f381e6057c143496a3438e0c00daa1a7d6e19525d6029308ee065317f10c05ade3090670e9166c0335e3dc990197f86d05e0ba9e4de86dc098005717e692e26061adc,
   0x25a18d5aa9f1f136600478d2d9f66e1a5c0043fe6597513abadc20526f2072cbab0910c060c0542d1ee393d88023fa7fa6c70e5e2ee001f4c208dfbdcd1aa02f035d594f730cade029b3ac1ea83229f86059055007e09b909ac00fbd5df26b19e67020267e9077ddbeacf6e0583b874bad2f329ae03223aae9c79e6653a06037bc5c57072266400571a30eadb43e7684,
   0x27f671a81a11b85ac0049e6c3dc7b6fea86046d6437365d99f6b00519d398a74a9d7b6005fab8e887533159f80208ed0a671b87c3c60015fb155ca612bb2202e143118770b7447e02d3697f06de3b917605a1c1abac5d1a9e24012002b1b6a5c2ca3c023cd8b8e6f0e4f32a05564e8fe6d35f08a4030f5a365720c9f4360623db35014a4d721000571bc5fb6f471a6a4,
   0x2a6b3f9fb002f06dc004fb96a41cfae26f60499c462c2cd3594cc050b1287e23d29167e05e5baa6d96de52dcc01d32cab6eeb5af9180010a5f0b5ff65668c02d217763edfa954c2030cc323b820f145f905b0352b2b2e34187601470db89c6eb0fb5802124024fabba3a1180525e3559549df7a2202fd4d711f3d27be7206417a4fc8ac74ab4a00571cca7a3d31a5704,
   0x2cfa319d0fbf0c45800592cdd3454f9525e04c4cd29f8706de0a604fa8efe6d8f44b07c05cd2f825cffab853e019ecfff61e333d2ea000f6d2771a1a0e26602c2ffc4b4f6bad79c0346f71d02f3ed2c5f05bba2b7623a9968be0170ddb68db424c30c01e88fb524968c2a7804f2bf72cc9f7cd81a02ec0897aa65ed9f4c065bff8d89a1c8912200571d54242d6052308,
   0x2f9c96685d2d89436006664f2c745cfcc9804ee52efa78c37110804e820b647b264228e05b14eb629abded6fa016c3aebc430597c380012626f851f19a9fa02b4570e1493c48b280381b7ab47104a2ff605c4117e4b168bd728019d58c4504d66bb0201c03d6f06570f9ed604bd35171b6f29d23e02db6e561b20786e040673170b12e0b1339600571d6f91ffe85acb8,
   0x324af5eaf004ebed6007780fb5c09a1b446051636cf02ac939d2c04d398de915a56f77605925fbcb25d2f67dc013bcbdcd8c571a3ee001989a2d7d982719202a6841d3208e71c2203bcb9bca6c9d621e805c99a950d53fd7ff001cc63d6fe282bf6540199c3355cf590e6a204859ed4dd49d94ac602cb523ce49462a1d006867312b7a9007c3800571d2425441cd6e20,
   0x34fd1f0dbb031363d008c9c683110dc169e053c671c35426f3ca404bcc19914c72498780570b970b4dea930d4010ddb221e8a31b4880024d94a496b861d3c0299f93e09919b477203f7b5f77a2311d20805cc68bd9adf5b1c8e01fde3cba2500b59e001759e40062f879580044c5e72b17c957ee202bb78943deb09754c0695cc1a6daba9bcb200571c77ae38f4b8a80,
   0x18151a6539473502000930b70fdddd7559c038471d972d711e0be05049c0c267aa4b5bc065bb96a43e3621112035b0739fb8c18ae1480771cb2805b1dd504038b684065634f691f01ae83cbf59046fe8a054dbcf045f931fd28009831f116d4459d580376f5f8790ed23f8506474722578ee4ddb403362a753a621645610525b14abcf3cc967a00570008184d3cc87e8,
   0x1c5f25090c0c4b1c4006d984bb9ffea811a03b82d66ac3033158b051e3f738d76a23a760646ea1f322bc30c2c03034a0b73a03486ee005427c618052f7c18035125d00fcdc38fb701ef1bcbf2082c52040560d97490b8c4c74e00a8f891e7d7789414031cba91159aef7fbb06127ee037f8eef26c033a331f7b16825ade0573103f5d48eb527200570b1c93bc76b2c88,
   0x1e104b8cd742b65ec006605fe1b6fe70b2c03e6f04bea62b277b205155bbcca525a9c0006433faa9a55a864fc02cd9536f244b4163a003f03d1c623c39c060345e90dd967a5777b022022b083368bdea0057b7be0d560de83da00c29782d4288c13b802f497634790d7856005f1ee00087eda7a3403243ea3269b89826a0598ef6dd8572313b2005711b20dbc5a947ac,
   0x1ff53d7c22157c62c0060ee09432c4062360416389ce22e93a42c050b3433d41ccc3db0063be2d2c90149acf202969a1ca5993a48d0002c9e704892c491e8033974412fcf9ffba00253f7e720ca3ba932059427dc2d5f2bd89a00df7a724e636e361402cae9b5a032b6191e05cd584739645fb6e8030eb88b7db50626be05be1035d9ed75e1dc005715fa64485a86024,
   0x2209420cf2b773108005ea27f13b485057804453d229a385c42a404ffd3b6381d1ffafc0630a97fed5e85d0da025f3aa8879f7da29c001d8749e1c139310e032bef6424b520d3e10289ec3ca369d48dfe05aa47073e4ec913f200ff67d19f9bab73b202a055ddb992c9770605a50ff9823c2e718e02fa047f081f8ca30a05e1b43df5f792560a005718e841fde4d9450,
   0x24477d48a3cd5766e005f61a78adf2fc3e404737df2d21408b01e04f32fcfa2624bb0f806218bed1614cb02a8022818758a8c574986001218b02953a2c022031d90f9c49610c8fd02c18494069f8e01c005bd858680509127a201223a081f09c170400275616cec17e44d4805795c603d969e896402e64fdb5ffb3174ae0603512798186a611600571aebf05a375c9ec,
   0x26aa719958a22637800635ff20bc7be73cc04a0a01d194df1d16404e53066f2e66c9f94060e9adacc037c0fac01f1b936b0a9c08fae000a8f617e6783a05a030e9e31fb6d508d3c02fa5ba2642955e4e205cdb5804ee5daf4700147d2e3bb578b71be024a89c73e09fb7b8a054a86700ea02707be02d3a8120dbeb67e96062273e92fd67470f800571c3f6688c71c318,
   0x292bee2a7385cd8d2006aca9c6d7c5d5b1804cc5f47df7922dde804d5b47334d0e0cee405f7faad9264fd66c201bc93b96ecfc0a01e00071388bbb95beace02ff68af238370da44033416903fb61b20b405dac3347f11a0871001701635bed494c8b602204acd2092c210680518dccb8f744e9ce602c204ed43e02bb81e063eb72037ec19accc00571d025e8237e13a0,
   0x2bc51ba9979ca00840075c81aff4ec73d0404f687204113aef15404c4952ea056b45ab805dde08d97b01e866c018914ef185068d7960007bc98870a45311402f04c0dbaa0fbdbda036e6030642e1ed06805e4af26e34f8b27e6019ae71debc00a3ad201f720719094eacb1c04e4b4f16da40d8e1802b14e2511a99526580657bfb4050c79647600571d461d0b0da1ba4,
   0x2e6e8d7f6c8dde47400847800e5cc3fedbe051ef0422fe683a77c04b1a80acc0f17163e05c0909ee9870ecc1e0157a1dc6821b4a3f6000c931943ae2ac64602e1ac04f2f564b9dc03a8e701becadd197205eb8b1c362f2b779601c826c09736c46dc201cf86c40a3fc9cb6e04ae6b5e00d173ddb002a15e71145beac620066d3bb21f97b0bdba00571d131ecfd885540,
   0x31204b00157ef37520096f359a1ce302bf005457f4e95b0c87fa4049cbf0a9cedad5d3c05a05d1579997e210801289828dad568a3b800159193de598ca3c602d3f3d43f09c44cf803e35cd759e2045e7805ef78f7b8ec6629d801f7b44797ac6b0b0001a9f9ee9e4a0c444c0476632fd8d9c6185c0292047383d3d4ec62067ee1be56408bdce000571c6c6424297c470,
   0x33d1c540e58f7f66d00ad4e6aa5c98f2034056a262a47186be7f60485a684d1e46e4dba057da63a7754691ad400fc4df8e5bfb18ca60022a52bc9a6a3cb8202c7980a40c00e3b08041d78140152b2d0ee05f0ab83a1011470b802296ebb346125b3780186f737c1e29ce158043d0567f876f7d98e028300dae9642f194a068c70143c9ef035b000571b527a04b41875c,
   0x3679a66c9158526cf80c79d6b7dd77921da058ce83e971161f01a046c1e41aa3d7e5fe20558dbd6a26d5fefe000d31177ff8a3d75480033ae5f7afc31fe4402bd1ca743e6ef11ba0456f70ae876baeed605ef69f1cc79fb7a20025d3a0335afa9ee5e0167008402658498de0402bfb360ebf577040273fff6bcfcb421c20695a9e564f0f64ffc005719c92457f4e8ae4,
   0x1e8019659d45528f000794272093fca27ce0446d1efa2fecfd3a404d803bdd0ec592ecc06519b3cba737b3664028276ae98c0b8459a0020cbc169bf16f7fc03678113e7555b7331027724b38bebf9435e05bf9d8ba284b0790c01044116305ffce40a02daed5f38416b756c05c507880b5f8b353402d4397daa4645e59205bb7912978d3f0270005717f772d4f28b330,
   0x20a531ab06428132200789311fc5748c97c04764522d0aa21155804cb72e5a62a4297320644d8fbc7812b22a4024ab4703f227c3bca00131f25e916bf841e035a0f72e77a89fac602ae7a8e9c8c75cf3c05d50e45a59319b114012607addd62f6810c02b0285c5263058128059af1e53269a6b7ac02bf3526f0359c43e605de5b6d9a7679ac8a00571a40b057578035c,
   0x22f3a6f97c5c1bd0c007ae54f202dddcaaa04a48447d8791a4a8e04bdd9f622807941b006341f4f23658d2ed602138e5553e0bbd5a0000947b60b122995fe034ba803673580d27002e70fec099cd4cc6e05e74d0ba9734054ea014a6f63072d59e08c02852bee68fc6ff1e2056da33a252c7c273802ab871e6a86d6f09e05ff01a31e9ba98c3e00571bcc6ce5670c21c,
   0x2564e9b453e7661b200806d5afdf71470d804d14999e95068293a04af112783772b5dea061f937c187bf4896801dd816d61ba6935540003721d789095142e033ca43c3a151eff22032087fe2a81aa017205f645c7ee20de816401715f1c85831324fe025a7caae720e891fe053d6beac587be212602992337f71ab6519a061cfe269069a9872400571cbc8ced603ce8c,
   0x27f1fc40ea5641aae00895570e89462c01a04fc5d43337cc523e8049eefa9db7e188ddc060769a1148d8eb28201a8ffde0f7148c0f20001b9e15addd0118a032d627720c4078624035a8ab91c73c9fb4f0601f62e7703112460019aba89b1fcab1d0802309b6d9d27db87ec050aa29790f162af680287f1a5ce8f84180c0637f052329cf3995a00571d23e4899a76e30,
   0x2a937419b62c5ac8e0095be7f92c5504714052592f08d8193b626048d4c575cb005020205ebe39341e27b36a801767304cff7521d8e00042b250c1772eb34031e4577f849e173f80394c319e1c4898701060a6b8a29bfa635e401c6617abd3b1cb9c40208065f56a52f796e04d5a47aa03dc919f00277d0c295fc2627fe064f82ad0dd3aeb82800571d0b4e73b3bee98,
   0x2d417fa555f8f4fc400a5c04b4fab3620ca054cc87641b1b09e0a0479fe631c1f809d3005cd5016846206503401463c6ba2f57f0404000ac390463adb7f52030fb3c6f7af527d3303cede46cc9463ee28060fc16a9cc4afc4a201f42f6bab8ea235c601e13926ac65d98d12049ed57639188d6c480268964e652915619c06636a3e81734753a400571c7441a37f478a0,
   0x2ff3e48b7531d4ad200b969f5219be975020571e5bd4a8d07ac780464dcecf04f19741e05ac0aa9be555ac6c40118b60f5812f94068001572bd88da78156a0302180403935a543004088b9cb3f639ebe20612217885b3a78d300223fbdff70995da4c01bcad46f0d46aa00004669fecab966b2afe025a0f46dfbacd5ef00673660f5e7e37390000571b5a1f11cd30708,
   0x32a1e78b97578497d00d0c4270b223eaf5a0594debc980ea39c34044dbbcb476c3d221405887c458a07fdb6b000ee3233fc18e6a34800241a8812e56781bc02f5e3d1b8cc52660a04417e325957c30d060611c523df8b5f0be802559ca9ce96211df0019adbd2f455bdd0e6042d7446c59169218c024bfce13c7b9f43ca067f3ded031cf6be48005719b36f80d7c72cc,
   0x3541fcdc61bc67bb500ebd7915a592d03e405b5b9794d61e03674043461c150f687060205631dff06d9a2806800c6fb08648c7ed98200368fc2142d495f1002eb98f584d4e5844c04797137996ad47ba8060efafa6a7178c0c20288eca085313f9584017c42d7aab86296c003f3c7e12cbd1f7a72023e0b31090edc027e0686be9fc1fa7d3c76005717760b73acb8140,
   0x26c33b9ab62c7618600ab3b865a725e6bd80529ee28a0095c7ff80466e19b784cc6e4fc0613da264f077cba3001981276bd00b644520000854232bd354460035bb911cd1bf11cc103806b7a381717d3d90625cfa02cb640729201c716cff668a7abee0242c8bae4b5df3af604fae9cf66a16ae788024f24da4fa9998178062d73293bf8394c8a00571d1075bc9a6f92c,
   0x296a96ab33d71a90600b8f5ee4014ae6bc6055213afb5343549000454d28c7f7c5c7e4405f70b1cbd1ab7e41201669aef4516123fde0004aca0d2a94259be034ca47020d17c4af603ba5f07631be3176c062cd1769cc63a171c01f363b5ab7f8da2be021ae43cb2817e6a5004c54ae94ecab9fe8a023fa6fe2c7f78919a064389a15852a7aeda00571c8e31e4183cdb8,
   0x2c1a98cfd665cb72400ca2554b5a0aa3d640577f4eec3a46bb2dc0441446fc376c29e3e05d75e4234c1b7a87c0137c51ebb4f8ef978000cece5239a850538033e26fc0e0477fbd903f3d3d2844d4717b40630a724dc63d24f64022185390ae106b81401f4fd8e4d55b44a0e048e34d47412f3f440023132555576ff9f700655dcc3aabd44511a00571b8233346b90458,
   0x2ecaef54e97cbae3400deca4693c9cc7b74059b7b176a40010b02042c1913bd34bb16a805b5380083cf7a6232010be6399c8dad3a12001928c1838186305a0330a5ac3b3b5cd653042c74fe2b0f0f642c063180a1a9f44517ba0251473e11639d53c601d187beacd5f3852c04561a12f56a1109b802239691ffe6a66272066437904b16d2527e005719dc5f98d023a08,
   0x3172d5da9fff51cdb00f6da94b3861e269805bc987dca230d922c04153432cb530d118405910ab18315c9fbea00e34c4cb42184021800293375dadfe2419a032488ab5a3dfe2eb70463ee323cfef11fd0062f9c2636f844f70602826f58c8a505ec3001b0f36b8cc7bfceac041d7571b59f8ba81402169bc6495eedff7c066e7015b91830d48400571781d194ad0dd50,
   0x3408a882ffb37ea2f0112477835a066181a05db4f083f4cde545e03fc712459d9ea1f8c056b5b17ab6be5417000be3e5c80053045ec003cd070c5050f35e6031a45f504ae614fc60499ef484a9f4c9fea062b4cebe51955b50a02b4c2de27f40371da0193b563f0a087408a03e4ca86975e0b40da0209f7dac1b9d54cb606746391bcc8de5b800057144b76b463f56a0,
   0x368099c8db02dbc2381311450f96ce1849205f7c3f3dd4672cf6c03e18033c4224e38040544cbcc5039354204009cfdbfb1747667ec0053b57363a8019a22031283826d482cd2cb04ce38ff89be1975a006250e7455f519e67002e81ccc64908a698e017a5c9d473956525c03aca4e72a2a5ebcb301fd2d37e04ffe3c040675e78cc50ad71fda00571011972390bc570,
   0x304ef0ef3956bfd1c011f95b24f73ab585805e1879d1730e7c8ec03dc25b818f96f84fa0596d94982f1efe8ee00db2041340e1d73b800320c689c0166e1d203531260f607b146280485468d949fec90c8064a06806d7634a79602b0376ad6d464aabe01c8a98ae78061ea3e040c7073746aa091e601e3051c3b53696c54065a50ba53cc6d4de6005714b615d4246f6c8,
   0x32d90155aaa328b99013ada35e4e9d874ac05fdcfc7dae137438803c4805fe857d15122057115c2422f52b75e00b85b6be537159dba004685c5e67e45af1e0348935d4abb413ab004b8e594c91f44332c06442a4f553875d91e02e0f8f2e50192f2a601acafdbe3a2a8634803d53240db16b9ee9c01d8071b6de8d855fc065ef38ce6db1e7c4000571017e038533dd5c,
   0x35405f6670bf0d0e101589f6da75c42aca60617556815515d6e5c03ab8a6932ccd59a07054af8aaf78dcaa9c20099adc0dc1f4af764005dbb32e42cc5dc4c03403b7dc28c23391c04e9f96bc2fe20aa70063c621951ee8221c20311b4001d203940e4019491fb9f4ec7c7be039f4f28d4506f1d8901cd6925806bba2400065f83366bc048fc2e005709762aee7109f04]).map icosaRowOf⟩

/-- `s2/ahrens_beylkin/ahrens_beylkin_3312.hpp:13-3326`, `3329-6641`, `points` and `weights`. -/
def abGrid3312 : IcosaGrid := ⟨259766598440216000, ([
   0x1b57a41cdf269ed5c0072f0179b426ee23803886ee4ec5070768e052cb54d00a139ff8c0642d01fa6043801020333ccf62e08c0b46e006b42c3a8a536c2060352639c64e8bce5ab01c1e63973d28b09a60540ce98991e936cdc0090550db897bd33b2033b7a4a20a5f8e0d5062be6cd61c173fc2c0356f0a3367dc8d02e0551c7971093c071380057026d39cccba1d40,
   0x1d7d884e22d6a17c4006294cf6c726b6bd803a9138e3051901a1205343d5d6d68d6557a0639462be30a276ef8030327355acf188a58005853a9f6372776e803387e60731ea8fa8d01e8701856a68b12d4054f1616581d3b764e009e0a9d4a2acd73ae030d685ad10a5c890c060e302640f5db13700352c50767e4c8f8bb0579f450c15c7c8314005705c69fc052ab13c,
   0x1fe7c1d47c315076c0052ece6d487e68ab603c56acf39e94ed632053eace007abc734f8062a99a760a90c990c02d411466baa5de21200496e3de61f221a14031a29f358d30908e7020dd901335ad478540557886ce1ac4b168200ab7c7243aa86d7dc02dd8fef5a13223a4a05edffa361e925c7fe0353ffb6f0c62a8f1805a0bb1465372bf2c000570727f98f718cc14,
   0x227a552162150aa6600456605d6ca8d95b203e16f6d7c74664a1a054854450a0636db740618b8c6751ddcea1202a4a3d041af2397de003d3294a53d4e1e0202fac2316f8a80982e0234ea4a17d723fc94055dccae3d4949d62600bb45674553ca681c02acd741733c6327f805cacdd678cfbf9246035617a2daa816b2b405c66717aa1cb33df800570b87a24541d00a8,
   0x252b1fc3f97256b72003b09818399d93c16040024e3120e9758ca054ea90b407c85e4800604907403202239d6027311c111573de1580032c37e0f806bf94602dc3d5aaa5c118e5602601500cf2c8d0fc205645213442b5acba000cf8bc64531195210027b57c48570ab242805a3aaddde34bbcfa80355f9964cc882545d05eb7153762d333d4a00570f95ade9ebf5f44,
   0x27f7c778048b069340034084d735b4d759e04201d116dc05979ca05522f05e6791bb2c805edb5870ca0c14c4c0240a53dd5b547c0ba002af401ec6368333a02be6139a39e24a980028e2d4151f37562840569f41b3f1bc5d61200e7b4787dc5d7ad040249b9895cad2ceab405790dd6c5afc98d800354abd10ab3250921060eef7c77db8b14280057120506928335e3c,
   0x2adeb718726cf8c20003056d36631d5f40c043fcf381dbbdf72840553ac21ce8b31d30c05d3c8e90e4bd474f4020ea5194247f0ddba0026774d9063d3a9f802a0c321981fc0509602bde50fae78990526056d8545cbaafd96260102e9ead1c1c91c7c0218849f1815f327ce054b8a668e420733c2035362fcb50c2086fa06301ebf0fe9272d260057136fbae1d9013ec,
   0x2dde7fbc433980060002fec08ab567691ae045e689a1e06d3b5d8055389f7ffe9a06be405b6a08d99651f9f1201ddc47d0353d994ba0025a858c33e250c6a02832ffb685dac30c002ee83aba9c3f27a1e056e6957cd924c6ae60120b45804e70edaac01e8082ceb6c2b19fe051b78bf1c739e88500352c0eaf6cd8f94e8064e95f741928a21bc005714370e7cdc7bc8c,
   0x30f31c89fe13f3fd00032e860ea8b1ec0f2047bc800631b948c9a0551ab040e29a038e4059655fcf95937320001ae48763528b1f43800289e212a1a6eca540265e1c307866bf2f2031fd8169156bbd011056c9b91c00fccb87001410986b0d81956ee01b892b5f59961ead604e906efe76c2d424e0352b64ceae86d6fbf066a166994e74adde80057149154678ade6dc,
   0x3415f5a771e35d31800399baf326831af5a049854000085508216054d7acded2c2ab9d005733658ca397c7c0601802b70c8c21cd448002f455756c0d6eac40249756d2043c42b600352193a03841bb23405688b0555396b4edc01643cbc7ae83d6cda018a81c8a4697798de04b442b44e5f2fd11a0352a2bb4ff8042355068272331153915450005714b1b32e548d060,
   0x1ca53b0090b92feda006f7d703473f5e31c03d8421cf00536d280050e0721524017d5a4064c56355b5a0d0cd002e7bb0d4f149781800047006dfc5a64e4d20358770ab37018eb0a020bd69fbbab7dc2fc057807133cf993981000bbe5f01001b1cfbc0310380f872e2869d10604173a2f181c9cae0321d9ab29bdff36fc0582eca365e7648fba005708c0f331e2950b0,
   0x1f3c12f76b27dfae6005faf8a4081bed12803f6a9959b7961fd84051869dfbc470184d8063c1e5ac3ed2956dc02b589175751b242500037d0c5c5b2d9518e0338714a2810fe47c10234441506b224d1a80580cb89c7158daa6000cb1dc084ce51677c02dd67dbd22097c1ea05e114ec6dfcc2d8580322d9b54c5e433cc605abb6da7b627969f200570c2bca9e189f668,
   0x21f2136032fabba8a0052e5caabb26e87bc0415b448335b40bcf40520a46036054a68240629038c467349a9760282c86bcb7d8d2000002b5a3d000131335a03188cbc15c7ce201b025f1d76e7e5a93be405882c2ec66c85257600ddb1ea56fe87f04e02aa53f9772eca746205bacac9a7da45eca603236059f7a7ec79c405d2fc0d8d02a10cae00570ffd5b47a1b3148,
   0x24bdf9e5c365bf2300049d8c19504327206043666122c3c1e1a8e0525719beb25ffb732061371a98d3f139358024f29e99457bc1e480021826de7c80a9c7e02f9edd045e55c055e028d23f7685fda3c94058f0c48a48ba5d71e00f48be537a63ecf760277803d4193e40c3a0591041688ed9b81ca03221841d0346bb80d05f87b133b0433d1c000571252aded621cfac,
   0x27a1db1923607e8b00044562e6ef533a9a004573ade794f576d760527c68e2db29773c005faeef8a40a9e665a021bc75bddfbb32620001aed0486758e590602dbe88c36a1e8286402bd1ebca0ebce2df0059430c324e802f130010ecb482366fbc67c02453085c67b5876ba056436f233e40eb4b003205b8fcda823bd31061ba4d1caa404c8cc005713b0f2d1fe1ce38,
   0x2a9efcd4603d78252004227f8df8c2201d604770c9426c1568660052868521e5788989005df2b2a3d07ff8e2a01e973ca8282a3b65400180794e240fa6dde02bdf688403637900002ee194ff6f46a04ba0596b238cc9342dfc4012bb78e2ca4670ca80213942e7fcdcb62b60534c8d07c9f9360e0031f33182b6d5778b6063c184b68baf5375a00571475d224991eb60,
   0x2db2e44755dfb813c004340b16b085f111e04954c255f76a5dd8205279d0a912800a66c05c020da82acc6c85801b8b2a0d681b42160001902849bc4f78d9802a004f111573bc10c031f87f85e2ca1c5c5059634eb493a0e44fa014af20f1eddb3838401e2f0cda5c51b8c7c05030cb7171aa693c8031f02e6f38f43c2ca06598c951440bc83ee005714bb9169dd78424,
   0x30d7c8a2fd0570f730047cca08c660a9a3604b20f1c0fd99649d205251985a2d4166cf6059e0b6d1a720d58a60189ae67a0dd6035d2001dda489f361d6d3202827b72ca7a2df2dc03515b8b64385a17ca0592eadec46c06c20e016c8cc9d2b1c99e9a01b3a0bf8e0d4d7b4004cf30b9de052cc8a0031f7d99a7f5e6fa1a0673cc06d64fc2cf32005714a0f633c6e0928,
   0x3407ef26a3ade691800502bcf381fdc38fc04cde597b5ebb1f35a05202bade8ab2a0b4c05793190eb681d4b08015c3e08fdd9c7e84c0026782eccd8987dfe026600c5472a0f9c6e0383f879434d88341e058d58d52d05179b140191012ba6666089c20185f1a969210bbbb4049922750d5f196a4e031fe314034b403289068ab4aac238f2171000571479e6b357c40c8,
   0x1ed56840e4b553db8006e7ddb54304a24ea042a48cf031273490604f0a437e99122ff5a0649dbdf66eb765d0602938e5b7428cff7f80027fffa6e7b422bcc0354fd1fdebdd67a9d025f655c51aac30f9005a930f112a598ca5000eeec2e952fcb74d202da0c3c59ddd7f11605ceeafbe20b77cc2c02f14dc298fe7c2e2805b7906c1045ac486000570eb842c37c0dd68,
   0x219648a1c5ab16fa400636b9ad6f6589e2c044b19b7d76e8ca6f204f6cdd295a92e61f40635e4e8dd0af433b4025f8f08ecbfc2ce00001c3faaa08e84724c0335f3e8d7a362c33a028c8d04dc48f8a42c05b1223d8bff49c25c0103fcc79b9f2700d402a6baf9232796f9e005a6abf9288f285bb402f034201c6fa2cb7805de8aef90b9d0f07c0057119b61b896279e8,
   0x24703483e783f1ff6005c04e0a6c3bbc60e046c839ef99ba461ea04fa2eaaef801da414061f0345f718d8f7de022b6de864c2e6348a0013a6c7498853c5f20317ab8bc17eaab69902bc1b23e39b52274605b7a49ff1de98ab80011ccdcb66c60e27dc0273cc01c1fe4e1c3c057b23bbf7987c562e02ee44bf373ad6f8b0060355af0cbdd7ed940057134ac3bd41d8fa0,
   0x27651fc7682719e6c00580ebfa9641d2a3e048d606291fd59511c04fb932582b97820fe0604e0426bfc493b4001f7f71a8999d2a266000ea25cbfb62e2eca02f9926739027c4d1402ed1f2d9f1884599205bbccb994fd79bf2e0138a62475559d98500241637d7347c18570054cb158a6418e739c02ec8f69b3c7d744da062596ed3858e7721a005714407a714de61ec,
   0x2a735e0fe3817c93200575ec97a99efd29a04accc7e5c433f84b404fb87125eb318ba6805e7606fc7dda66e4201c5e2f62e8d75cf40000d79935a75efa29202db629e6619ac40dc031ec691e7b52f4da305bcfcf9685430678e0156e976da5b452746020fc82c4eb175e6de051bc5fdb075702cae02ebcbe9f2e0d282e20644f6f5de986e3f1c005714ace5c76c55488,
   0x2d95be6fab26040c00059ee62f5e05b98b204ca59e37c10bce48404fa2d2685fa59c32405c6a84b1d13fbdc8c0195b2021a81ad89f00010446fc8cd26589a02bd3a1336966d8da803508cb4c78a815cdb05bb07e77fe5b01ce6017741b8687ff93d1e01df5bf54794e2e27204e8ca2d2e127149c002ec2bcd0f85c8e65606612a6f25ad2ca7a80057149611234abe598,
   0x30c66df19a694bbfe005fef110a10c8761e04e6365b3f015edd8e04f729a1c3f04ed95c05a2f89b656f481ac801677d189e1b28fc320016f7518b7b8340d0029f8b1193222690e603827756b47900fee805b631d8dd5800603a0199d111ee1ef836c801b074d81cb06e191604b3e261eefd8fa2f802ed4c23418b7dae70067a03622693c3cf5400571426c11c0702b04,
   0x3400f5ea2327f3d180069de6132558c3ef405011f84ea9274946604f1a20fc8b3aa090a057c86f99ded3810ca013af553047819c714002182ea54e67e8b54028308bff3e4da4fbe03b522f6ea7eec68ba05af111eee6f251e0201bf45d4631b091fba018350c9e1e7277ab4047ccf038bef853bc002ee490294117ccf7c068f64f9d6e834b5da005713ed2ff24280338,
   0x214b1c9acdb56400e007764d841d59a853c047fb7c1071215a1a604cae26f9aa9dbaa50063ff7ce657af42f86023d8300344ba58e660010a5ad03dd47af380354000bcaf2a4d47f02baf135882be9d8dc05d7e106b3f2c21922012d00d32e917350de02a4422b7243f87cd4059039ee0ccc47df2e02bd1d2f010d56673205e73d95c55e074bf600571276e501f28be98,
   0x2433c875501ba8e0c007189ca93a3cf3c4c04a13ef3791096cad804cd3d745ccadaab8806279a7579489d2fb602094e71f269e3a7fc0009872ccd91a57eb00335c7a5308e8249d402eb874c7fd2d5eee005dd8ad74dae1fe262014769856a445261f20271510fb87c0d6598056323e0013628294c02bb11d5b18cce86c2060b1fccf97d877660005713bab82135e0d38,
   0x2738666b95a95e680006f0baccd6b188da404c1c32d90806a6d3804cdeb9de2ad826a54060bd4e12c4e778a6601d615e103f16929ea00062cd7e5148c2d10031783f31d5ba61f5d031d357cc62446101005e07988d7cdbf08000164936a99370c9a48023ef4b5ec47f57214053345a3fb3ac6fcda02b9ad84cf9439c2e8062c523096d002eff60057145e23b086c4030,
   0x2a541a74246720344006fcb6caabd4d77f804e08983c9a00bd37e04cd4b7e35ea6703de05ecbbbed9a441838201a48dcc64010842500006c2fa0da18f8ef602f92a90a803a4e310034f34135e1290da9405e0465ceed243a2020183efe2fae3b16274020d963f011cc62b520501276d32bd62cbc402b96a2ec091cb1a0a064a7867232c88bef20057147cb9f3ad370bc,
   0x2d81338b8ea6bb9ca0073b65adbcf3e650404fd2a4206aeb8b78004cb83e94e5bb6e18a05ca820651bf761ff6017531dbeeafec2832000b522baf7bbc113802dadbc65130ca84fa0380fbdc2bba98916105dcd0bbed7f66059a01a51fd2d9cc8ac8b801dd960b1b036e946804cd3c4b1b921a2f6402ba73f7698dbd17520665519078ac85990a005714157cd4517c664,
   0x30ba8754873fc0566007b030f63ce2c7b8e0517e70acb0c53e24804c82e58f44d6716b005a56390e1b0926d1001480727dce706009a0013cc3c3cb04ce1dc02bd0a056920d4e89e03b2a97c9cc7714f0405d666336fbebbe19601c856ac2b5eb6dc8e01af3dfb0404e59a4c049797867c94a31ebe02bc5b93880a74b662067cb8c8e2fbd1116200571362f778a8556dc,
   0x33f9932585f61934a008672b1ecb90e88360531d3eb00ea545ca004c20452441b1bed5c057da95e546b516a54011c9e214baa4a43b800202338d1e274a04202a0bf7564c675f28a03e523e3ea7dbdff6205cdde7cf11012241c01ee9a88f66edefce20182ed9a6680e42bac045fd7835625bfa37602bdd1e94a3f8d98ca06907ba268a78649fc00571312260c93bd780,
   0x24064d033f7e2c460008a35a68077cd32e204d421ac4ac55f788a049ef5946f62e28868062d4abdec599eef1801e92f2bcf41eb311e00032a933083ccfbd6035423c990738204ae031ae5fd0680effe57060081d491dfeff2180173efa49eeb42746002703a3f1f35eb8094054961337b1c084db20288db6e09d4dcb4f2060fbaa5ddca5800f2005713fe06b68088ee0,
   0x2718394f5f5f7ff6800892212fce701d9aa04f419ee65913c1732049f0636b8cd722c0a060ff86744b0f62a9201b66d6cd446ddb92000017d51337087f4600335bddf653a0e091e034cfd6b3e8ef42957060224cecadce8477801923aa4bca3d9f328023e122e9dbd579e6a05184cb67d343fc4c00287e2c493c4ede246062fc38a4200c4433c0057144d43d22e31040,
   0x2a3e2241fff7d4170008b3dc63c64634d6005120d001ae87179c0049de8b0c3ad38e36405ef6be3f2236285680185aa21fd168ea70e0003c90c131e80042603174d0f5229dbcde6037f0e43ab1013472f0600898a7803b2178201b2797151a9077de6020d1edc265c71d7de04e53db0c655f88a7e0288307b514d53fcb2064c99160237c05d240057141fca4c31b7de0,
   0x2d72c62e9ea51d79400905f7c67e27e16c8052d90d29abcaf910e049bd96eeae207058405cbdd1a94ee4a1ae001575865bdd9ab789c000a076b83739a11fe02f8dffc2072de4a1203b08beb07ef2781f805fb9107ed55c0c83a01d43ba341d25f8aa201ddb076a2488f7d6604b0ad9516c3fb669e0289fd12be59145a7e06660da6a940cc7e280057136bb7605a1b2f4,
   0x30af8564b56f1fd940098d474823f44555e05470b0162fba78e86049846652a4244bbd205a59a8f2149fed03c012b72e0ae155a7a1000142360242d8a8a9802db1268c72b59259a03e1ab765eb064e6ee05f3aa999bad71885c01f7d1c6aacb48191e01b023f50c271444d6047aac1b6645b9ef78028ca97ac90476fe3c067bf4cbb0e0024a5800571260a19442ae6b8,
   0x33ec1bc7be3475ebd00a5b51c5316c34f20055ff21f795dd59cb80491688c36bb4733d6057cf6ca2d8ec6b12e010163527d918dc91400221ba0f7f4fc9de002bf4f4ba447a0004e0413b07685ab226a4005e9f0c19ba4e8d0dc021eb12594f4e853020184fccdd8b35461ea0442a44c61fa7b2b34028e6de0d2960efbd0068dfe10d3bb32d08e005711b62d8af677f88,
   0x2705b143111ee57cc00a634c6197a14807c0524693d91791d53a0046efdaa05f7d3252606114ca365bb78839a0198e83be27b102b5800007f4f00338541be035424cea2d7a30b69037c7a7393604b7a880620d280818cbf7cdc01c18bf1b54eb87cf4023e9db2fbc19f6a1604fbc587bea574e99a02573d3b7a0f8ce70806300a4cbb1306605c0057142adcaab1fb2c4,
   0x2a328310e2bda633e00a994bbe6c2aafcfa05415a65881145791a046d7cedb215b6713405ef74db2a329f359801692285d0eb5b7fe20004747d66e91ae35c0335acfc349760413803ae561e923f1beb88061dcb19b602881ce001e27248129c765c76020e42c450c4ebb1ea04c80aa346602a9c8602582ead584aa86df2064b7ab85dc911ea4e005713af6c20118390c,
   0x2d69db98bdb0369e200afcecf8cd6fc5f7e055b9aa11894e03550046b3a05c95009892205cad2df2322422ad0013c17920c7a5034f4000c44dab4e75242da03174513d39b549b6503df3a43e75fba0cdc06176084fcc46a612a020482e0f11e48782a01dfa186e469fa6a0204932f5233f0e7f21a025ac01080d9335d060663780c0586ffbe720057129a9fa7dd6f8dc,
   0x30a475c130b8631ce00b93f95b6bd17287c0573a9aaa50cc3e6a40467863d145324ee4205a3bdf7e9bfab0ee80111b6cfbd4b4ac1e80017d77e2f6467f6d202f9a0f2c41ed83764040f70ac3c229f1e2c060e17a4c4c2ecf3e00228248df81341dd7601b31ee744a3f9f392045d3bec6a44cccb16025e334ab346d113a20677d34cdd01febc7c005710fad8fe82bf920,
   0x33dbe2536ca85254e00c756e747df7282f6058b4f7d43ae3f245c0460342d86a1db5ffe057a5e6aecc967bad400e9347ef4700230f800275232402a45c6d802de58b7584af03dca0440a86f1252b3cb560603232c69df36a9ba024f4514a77a9ad2ca01893933fc252eed1604253ee790a3a66a200260725100d5bb59f80688270fedf230845a00570f8dca7dd5e9eb4,
   0x2a331c71ce7e3512800cac95f41447caabe056e8d4da562158f5a043c0946d92bc72ec005ecca637504b93ab8014ecf82d8748623b20008bb28d36651364803543727d9eb4bfb6f03dd2ed0759b453918063814869fbd548b260213ebdb9c6a7cad380210ddb94652b1982804a970f4e16c1eed6a02295f9183aa87ffa6064739f9a22ff2a5b000571325384c4150b40,
   0x2d68bbc4042f8cf1600d1f4ee41385d357a05875d1041c7e222480439b2b90cdd7abc3005c7541ba403941d9c01234711b60f34ff5c0011fe9a0d860941cc0335ec6f08de075a69040d25b19e7aba50c6063043029ec790318e0235ff0f72f001641401e33d65e9c188f30a0474a51284e715bd90022cc2a57e26287e50065db32e724772c60e005711898f6cfe28720,
   0x309f89cff5c45f5b200dc074d0673a579cc059db320a5989c4fc8043645eaa24887ea7e059f974ab7ddde7be800fa9b6124a48dda54001eddafa23e68a060031841fce1f39a045a043c0ae769f76b7a2c062581d27118ea2ffa025934356b791af02801b7c4fe88d9cab3c0043f1a4c5ec40f39f402314a5071c2c47b8606709c706b833a21dc00570f121ca36348c74,
   0x33d4f7e7cfd51f6d400eacb668b4dfa807005b39581c8d83b2646042f3fef7a6c7d10d805756fa8963e27764600d3cba248654ffd86002fbc08e61a1c0cc402fcde74452e37de4c046bfae12d141296600618faafcfb71c156a027ff4efd2946d330a018edaffed992e58c804076c343ea91dd8580234b1382c472956b0067f78d666e6ce371e00570c612c08cd6f650,
   0x2d77d35c2bc3386e400f6a7c104973c4ef605b0d51119a09625b6040790c4eefe82683a05c107dd5a7354385e010c98f6ffcd9f3304001b3dcaa5ff8f4bc00354530382aca6a22f043a821e47b5ef30b80645ffa3d28feb46180268b640e3423b717601e802ed5e654c4ea40454b7c7362bf9e744020057b257642e3dc20655093b2c412ea65a0057103a56ecbdd819c,
   0x30ae793a29a1af05c0100c9451e494c267a05c50663c8bfc131460405294de2cec3e3b805989befdca1bb344000e5af26e11fd4878200293ab93fedfdb4ee0336089a1e8d1d70b30467aecff2cfd70ad006397f16115fce8822028ae4822c4fd4fe9e01bd3db2bf7b231178041fd1087d8fc0d2940206955e8c282dcd220666d316cf309b14fe00570cde5cc343be1a4,
   0x33e9f2a4e376d40c6010f69229e9d21712205d87ec4b0ab0536ce03ff9385b0fa9929e8056d7935ba5f9f620400c097d42159af9a04003b4ea49060763f6c031985bd7c9ed6c6f10495cff8b488c9f1f4062aded22588a133dc02b070ce64ad915dd00194b2522f965ae42403e8a5ca6d57237302020c2bcc760c8d58960674b5af8547b460b600570910e9832bd3c94,
   0x30db71819c79c318f0127150065b266238005e97c80c5dd909ee603d4d1348eaf643fcc058e745e741e147cbc00d29d74e20e7051f40036d9654412376e4803522cc3fd7290aa0004926b8c02bbbab9080649c1439943b17eee02bcf94b2d91ddf4c401c2d91003ae9f1f9603ff20aa7a5a22fc1601dea826f369cb7616065af11a782f0adeb200570af4a8540f68800,
   0x3418ecee82eb0853e01353854d93a73339605fa6c89b176a1cd6803d0ee461084b6f7ea0562ad91fa9517b65000af5c1bac39e7b8020049d6a9a8d3dbec280334894bf771a0fd6e04be69c3a7f487f03c06392ae600b125af3802e0e6987dec93a126019abdc6dca07f17da03c8e20cdfc3f5e44401e681a61c9812a88a0667fe34e59d6eace8005707e9608f74f6638,
   0x341b54f70e6aed68e015d07b9397356101e0619fee020193423fc03a0fbfe4754549f770558684e15e8910ea800a20b6c02835d49aa005a4e66afaf410cb20352136c72fdfd102004e45513c17df7025c0646551521afb1dae60310f0abf36a8b295b01a4c4be8c47724d1603ab19a02f32064e0f01c0bcd68bc6a1d91406579e438b0f9ed48a005706c49cec1edf290]).map icosaRowOf⟩

/-- `s2/ahrens_beylkin/ahrens_beylkin_3372.hpp:13-3386`, `3389-6761`, `points` and `weights`. -/
def abGrid3372 : IcosaGrid := ⟨220202426153664400, ([
   0x2a00948bec33e2f6c002d1bf592fc05f8e8042676f155b7ea6452055eaaec798c4f7a9405d8ccbb306bf262bc022917c9d8c40b7da0002c3c3251018c50c202a28c15e70a0e5ba402a1735700cee95fa60560f4bdfd927452f400ef5688ca5b8cb5140229f78d1abe8525c60560383264206914740361f28c9a523ee4480621c542f2e64fdee6005710b645de0374f78,
   0x2ca7d748ece1e217c002d639ecb488c3f14044a3f0e2b3f518fdc0559ab578e49d19ab405c15efefb4165b0e201f701291b5248ab940027b0909638d089f0028b6602ea2c07eff602d3b641b66de7ec2a05689732eaf95732f0010e9303e51a3819cc01fcb43750620479220532ad336177623a0e035a23cdb4be2032e106408dcadd2b3942fa0057113b8bbe0486bb8,
   0x2f5b0f907c1c37ee8003125c2407b169a5c046d789ef0cd6e113405525dc06f93b025fc05a76d2b90ae4f2ab601c6115af0e7349d40002677bf4e2484ec7802753652f4cb7baca80306f8b2424847a74a056e537c9c70c5e3d8013093c3629409161601d0bf5de33dc64b240502f6367f2099b0c8035214e1a1d765d04b065c79c4840334373000571164eeb4a6e8eec,
   0x321b67b4a1c657cd900385c8e4d1d08868e048fd63bd139a3f3120548f35328634722e4058ad328cb2626102401967bdfce36fcf15a0028b980375959912c025fd31c3be5447e48033b038f88bbcb27340571e3757cc65b943e015533212c35139ca801a61eede3faabce5204d11efa733b8d47c4034a0f869dbe84533406756cf41d3f0115f600571164cdb7a5a321c,
   0x34eb66660cfc7d0b9004309a153c86cb9b604b115ca7bb9b13904053d984b0bf945fc7e056b5b0741ed8729660168627cabfac91dfc002ea4ad2259536104024b080db95809e31c036fb614abb695809f0572fced884f2d0034017c5ddcc1b51a9a08017cc770dd69e28f18049d1a6a65ff5fbcf803425cec91771c501a068b517aab550d35820057115f448682459b0,
   0x1b52d74b6dca510040072f0f535a34fb9880384d9303ca0a21755052e67b87438090cb80641f23ccf7ad8280c0336da11bd6003e097006cf695abea3a99f60351869728c03de19401bed9a6d9c89bf590053e0e4a20dd1511d6008e732b0c2cf2a516033cd471471918f183062d4016edd3b32bc60359b068b971f31803054fe44dd47ac148ac0056fc1b13124127680,
   0x1d428e511c87cf55c0064688c67e093bb0003a82f8140e7febb7005321162d87dbe0860063b113d2959bce3660306480e6dcaf1ad5000591c805be977e454033c1d2eb4dc66998401e6705342d9f273a4054fa4dd15864f5d54009def66c0738c9ae20311941a79c20d7a3806108828ee3f63c8fc0351152cab4c7481b80576e4493d07d2d7580057045eecc72101614,
   0x1f6baf51c48f4297a005762d10eb2c063f803cc3bdb64bf132d000535431355e2dad8f60630bff8ab676f0ad402d3cef3992e6a61c400473c1972b124e8780324c62eddbc458c180210dd120a06dd49c6055f8be7dfa25f74c200b01b59fb124e157802e3f5ab353005dd4405efef7502db2f794c03493a7deea000ce9d059e2253de440405f6005709481366c31698c,
   0x21be8bfbc9389b6a4004cb1e70ef2f8a89003f08f97b24a86d40a05373c93ba40f7a7ea06233e264f37c61b5002a086a8a2e9b4f11e0037e92e53d3668476030c937281ccd4dc4a023d89db7ccf7f5b48056da668359c7f3fd400c51c2b29c003588002b54f615e0947153805cbfa152b7438543e0341bb7f1c21f46a0205c46f90902d94638a00570c86a9409218c34,
   0x243106b156ec2459a0044d3ab4ece97adb60414f7034d93899b3205377fe66da726c02a0612bfce8915282d06026d10d281a6496be4002b7167e9eab8802a02f436defb85d5dabc026c22d440e86ea6660579f492fe04b2361800dd0bd05b205833c602867315e68a28997005a4fc0574197aebba033a4a31b0e43da41605e91a4ededcc65b5c00570ebe301427e4838,
   0x26bbaedbd6f06e8a000401694eeee29127e04393f12cbed89cdc40535c24d8437f0e74405ff6e3d3cf113b88c0239ea80f0bfbdafb8002208fdf0d162df3202dc28374f8152cb0a029c5b6b2205494e2205847061e6eaf9801200f7eb75e06102acf60257f817eedc83ca9a057b3e1ddc4c44b81c0332bc1d77c7a79a7e060ba4c573c7909c9e0057102ffa8c36a7e28,
   0x2958ab98c3a23dca8003ea9227a1c58519c045d2ee964656b761c0531ddb10516312cda05e96c50efcb1317f002077ed9ca965047aa001bd513276953c95802c4b8d88d8981512202cde53672ba381ba2058d0c3d3e4949f4180115a761af70d5270a022a52e91d4954b784054f06617f8ae67e52032b021df5ddd5be95062bafff8d1db28a8c0057110381f81052508,
   0x2c044659870d559ba00409e39dd31f6a578048086e0ee3c03cff2052bd03e3e03c20b3e05d0ccfbc3c175be7a01d624e6c48f7467240018f268c8dd4958ee02ae0e9ac4958263f2030074da7e31da41140593ac843819743f2201361caedabb6328e001fdd0b7d8e421b3ae05208f18d81014f5cc03232c25f69ce518a60648fa844fe1dbdb3000571163dea666a9e7c,
   0x2ebe1759a47e4fe0e0045f0f61275746d9604a2fd0b7c5a4b7d380523c0e0cee5115f0c05b58116fed62cbeb001a61a3233609911d200197fff0647945ca60298157234edb72c460333c9c686a63387f605981a28c77140088a0159206fa643f5d9de01d28b293f8e793b2c04eff6ce0976eeb52c031b7449efff9b73a7066361516ee172c3da005711842f7bd5c06d0,
   0x31880596b3564c38d004e975f4618a2a5f004c4487a7de01b24680519e58849479adebe05975e75482cfb12a8017787706990c36f9e001da3a47fb263488002829939b1e7b3d1020367b51d1bdb204167859a0e06c05395bbbe017e8f842134946ce801a87b2b2ff702e57804bd4066c63c4a271e031427d72bb82e82e1067ad167eac9cc032600571188d2a4840e870,
   0x34628be24a62c88a5005a9fd6ddc852c97604e44139a5015adc8c050e48ebc3bd09304405764b576834fd2798014a8d8f56d19b59c000257f54ebe027f630026d8e93699f660978039c1ed388a2ee8f2e05995f8319a1f6164801a663f3b48398d2bc017fae1148b9c6457004886ad5474f5d7bfa030d6685786127f977068f2d8a8c607a0cd00057117afbdccb58174,
   0x1c56c16ef8f4f8dfa007250451548c46f2003d93680bfa84dbf2e0509c026ac98f6a7cc064f301d09e635fe5c02ea4880af33ed9d9000474b043dba190260035e23c742d1107e54820b07e861be2e664e057a6138f65680bc0c00bd24ea21047ca92403154dc186c29902fd06065a174dd7be9b30031dc0c96a2f0b3b34057f9a0c8fe35a4e90005708709adc423b75c,
   0x1e92ea64d16bb83f200667c34a91a24354e03ff1e996c757d1e90050b6ac5da098c8e660643e2ae7b9667a53802b614b871ed2b25660035d220ace2251284034702484852a1bac90237ec3e4ceb0741d4058ad271d615d76f1200d1941f3cf9b818aa02e6becc6e252a2fc605e39f32a168f012e203149f02dc899e385a05a72cc46a211f948c00570bdd822007295b0,
   0x20f3f327ec93fb13a005d353494b5027d6a04248e5059416aea04050bf78fe06088163806354c352f86fb47900281e524ad8c4b899000275c15e7f13cd2f6032f24cee7de13bb3602665ffd5a69249d5a0598f17968c432c53600e88dcb64d4bda49002b7be435a5011340405bde5a9a1f8f8cf04030c3bd000be0513e005cd29455d4409003c00570e4c3d163f11c6c,
   0x23715a2f99811bb1e0056e1ca3601154fde044994fa05201a6d8a050ae1db3b8aaf77e60623ac45caa2f126e6024e1118ef4c99d044001c0a1c50175e4d0a0317317524461c8cbd02964b2e8458bd9c9805a4ef14ac3512749e0102427b78d98ea22a0288e8c6d53650eb82059563977b9325833a0304270f519d3e1e8605f11a3a644cdfcd0600570ff6c4fd28c158c,
   0x260492f980b605ea40053bf8dcdc3a88aae046e180400dd9fc3620507e4bb3c496c05f2060f30a34bdf9b8048021af5813b5dcbcd120013faf0c7d485bd6c02ff93963d455a0af602c776f7178363782405aed71fc1b091d44a011eb659ec543b9938025aba1e414cee9a54056a572b4fe7300fa602fc2ed35ce5e6e6800612a02460c921c954005710fe1b0ff403284,
   0x28a8e4c4dec873bf00053ebca8c3c1159680491e79fff01242d860502e90ba9853df7ea05f7f900b08f963d8601e8e7ddf6f4eb07b2000f46d5072cc106c002e88830606dbd7e8402f99ff16f9044955205b69fa650384ba3f4013dd1da29cffb3446022d8cd37c043b72c4053cfda3cc2614195c02f44af5baba2ca69e06317410cc28782570005711868258c5575c8,
   0x2b5c753cc88eb3a52005766591e126b9a3004b4c53e06c14cf52a04fc050b16b250e39205de0a184e3273faa601b82992d3f213581c000e03c800467dda3202d213d68fe6f594d6032c84a18ca96bee5b05bc24e9f49ebf6d92015f6c6b2aa9e0b6f202018c23f1be013084050d8265b0097f7dea02ec9f4d1c3d694e68064d6dae4115b3c052005711bf4428dd66c34,
   0x2e2041d727072320e005e1de634e1b04af004d6697ca932eecb1204f36f53a5d081721205c149b421f33245ea0188e71911eab6e78a00104c5b5b3771990002bc0aff7a76f8a944035fedd903b446f76205bf2a9a10be94cdfe0183593d280c767c7c01d6b8a3eb94f5997a04dbf75893112f4e8a02e572df4b1a153d9a06667c3572a58624ba005711cfb1a240bcae4,
   0x30f56cfa8636deb7600680b790ea086ddbe04f69a7a142afdb78804e95015f8004dacd205a19abe9151e0b2d4015b4409d5b25b380800163d77ec92ac83b202a6499cc3947d78280393b3afa5593acade05bf7af71703f4c41801a97b57245fc022d001ad120af7c035921404a8632cc57d98ccc002deffbadf681d2a5c067c8df52fcd614bf0005711bff7b829e5130,
   0x33da32f3658dae92b00754c78ffd299113e05154bb6ba14a4eb8e04dd8d0ec1c0fc911c057f017e2c11629210012f61b54c2103cd5c001fec6de2b2afde6c0290f15c4f8611a34e03c7c7016a17d43de205bd10ec129fdf386201d1db89c0696ac9fa0184c1c06940ed31020472d1e245cc3e1fc402d938c8a89ef0a3f6068f7c2a9f77b795140057118951ed43d6154,
   0x202d8d739474a2ed400715b6cea5c6601a4045757ca0210f2502804de70ce7d64601dba0644f2e2061153d15802653be2810925904e001a6f816a3e72b8120352f1b4140fcfda4f028f7d34168e4520d005c20116dac94e40de010e6ab08ff17b083a02bc27ce012718d9e005ae28fbf3289cd83c02d6b83dff16ef266e05d26bfda31768557800570fdad576e4f7d74,
   0x22b5c5b65bba49f9c006c940542b800d77c047cd22ec064c55bc404dc16570973257586063224aedd0b8058ba02312e0bdadc6b5ee4001059873835dfa364033b5c19436597351802c096efa6480c0fe805cd8b695481ae01800129cf1b1c3cbaff28028d6889e55e8c7a920584311f7f0475a31602ce22069bd1828fb405f58beaed7a00d14a005711068e411c122f0,
   0x2551de46a3ad2f25a006b03c5602dfe7cea04a169ac3c9979bfb204d7f5a6d18440b112061c73817e7617367401fe3722d336d8e9840009b138f3e1e8353c03241aac02462bbab102f2967a84128e1dbc05d6c0c957a81224220147be4a541d780d58025f89af3f82ef31320557e284bbb2dab44802c5e404c2862ebc34061602b831bfd070c4005711ae58f1e2abf4c,
   0x27fe971eb78ca9bb2006cb4af9361b0790604c4f301e92e82776204d20c3368efe0f0740603f70d12d65b988801cc973d466441d2800006843e1a44854752030d4f21c9da2222a5032541ee6ca86fee0c05dd9521633cb1796401681aa527151dbeb40232c7aebf816d350805296f9a087da6a39802be041e5b2e44a8c40633a29a75c07967d6005711fa6bb7d9bdb04,
   0x2abbad43c82752e6a00719544e82e48521c04e73185c99039a74004ca852e3038ccc5be05e8a8b50d94c7d65a019c7c1efe24f00b4e0006e178f274d4852e02f6e15f19652640e0035860b771028d472b05e1dedd5a7258c648018ab663dfa724140402072feaf3de63f0a604f8f740e80e05862002b6b6b7a7ddd1e4ce064e5a191d6b1c856800571214363c0880e38,
   0x2d8a5101e1fc7164000798ea5b58d53d11c0507e58a3d3ee9d4c604c198cfd2c7d00b6005ca70d8e0f8ec6cf4016e08b86586bacb8a000adc1f7f959a9b0e02e0a2e3ba28563e10038bc1c226d37a090105e3680811733c1e3601af650ee0769a6fd401dcbb3e9b7e73e92e04c68933c24f0a181202b03fe8d3aa370ace066621bf33a8cfe0260057120a69947d139cc,
   0x306a2f1d36306c8f20084a0efc7f28961540526e617b204bee08a04b759e07692f3842405a946f63664644f0c014160d12fe1d53a6a0012872a1eb519fd6a02ca8b4b21f903b06003bf4159456785dd8805e2120d91d4e2150e01d610a6f45beeddf401b37a96d91f449e5404923641ed8aa53d0002aabe336a596ad300067ae35d4c39c84c44005711ce64b16e159a8,
   0x3357bbc8143d4eefc0092f7cf32f3ca5a5005443d9464eb7f379204ab8e4fb082be30dc058546548c393bfaca0116a5dcd454635d40001def3223246b4b5402b4e188e2cf1c551a03f2d90700733d62e805ddf4373f8185bd8801fed02babb2009b50018bae79e423c253d2045c13458d8de1f98202a5ff505d2e818250068c6f493910535004005711552969e0bf9b0,
   0x22085099e8a4223ac0085bfe06d42c126c404aee090034cf6890204ab58570d006d6282063dcbe592913eb4ee0215e1ea7b87d6151e000855e80e9d7b02e003602f2b237615d59782eb7196adec34647c05f3aedc7b07a5c7360153d9dd358c87737802934be2da2d1c39020570e89d4948452aa80298700dccfbf7bf3005f6dc4c33ef79eb84005711c032dd76803b8,
   0x24aca7f779a92dd780085bc80216aad359204d350d9f37dffb4e604a632f130c1111ca80626dd7075e2db2b0801e34365f70c5008ca00032b0bbc6b6ced8003493d55baef9e5465031e0e05084d1ca39305fc07eb2672db19be01731f4ad38b82a2660265d4da5c0b9050dc054374f516fecd1b4a029019154bab6032920616273047e126b9240057121e9f95e3e4fe8,
   0x2761e36a61e1cca960088de8b8b2dd18bec04f65dc1b0741ba686049f8726835c7b9aa4060d13cf92b08146f401b2362732667508f6000190fd51e0b36476033295c0418068e3f703510af4a609af041c0601c172bc952c140a0194922425f6e4f292023983b56bb3936140051401c4bce3abbcea02886fdcdc7257c67a0632884d5772ad412a0057124009330e3e794,
   0x2a2893e96f229e67c008f08396a348ef6e20517cda7f53164e20a04978cac5a73a6858605f064c4b0362b81fc0182db1029318c518000038f403a2a0c64c6031c10633e0cd05b920384351ae16a08994f0604b181d4f607c80401b8004d52fd8746d0020e5409593c0ee39c04e2a86acb6569ecba0281b0be91e60b4f9e064bfdb973472167900057123c51ee1810448,
   0x2d0145ee4cccb009c009822555242006f1405376a392739a2aad6048e7428f6b57facde05d0c405fb5fbcf3ea01555284d9d5d17586000930eee7a01361c6030589c07143d34a9403b75dbc59ec7fdef40604aeecd6772189de01dd3e8d327bcbf43201e443eb4477be6a6a04af7e30ce93a813c0027c133d673e35304e066281c741913857b400571208bb25b16f334,
   0x2fea1e62c178ab87200a434b6fcaeb1b5120555193709b48890e204843b3638cd0982a605ae3d9131f17942d00129c3058cfa3423ba00128053cbbe74175402ef15ad524240f7e203ea63319e6242a3780601b0e4dc07ff23d402043ceff91512a83601bb7768bdea71c178047a9f4c9d99aa0c6602779b4f6a1331fc900675f7d26623a82bf20057118a3caa0f3909c,
   0x32de1bd2817b0883a00b37810ee7d830f420570f74dc9241caee604788cdfb083e40e900588feb4cc934d430a01004ef0cd62fa595e001f843772b97ebb6402d91a2adeb2e66ab6041d46269b6edb443405fbe5229f9f13282c022d1eea5f7fb16a4a019442ca4926fe94d20444275437076585900273f8316906bf3a42068627929d4a16bd76005710b6f6d466e6438,
   0x35d591b6f24000c0180c6642d959694f65e058b694fd41175bd70046aafe156a9d96eee05614e08cc28a35a4600d9071e2e94f46df400304529289179bc6202c4559b85614e383a04503fcca2d5d4e92205f3b596f760c97d02025851de20450579d2016f26229b9a0fa7f0040c1e8fe26164b192027075e9a8ac152be80692bc964e5d652c5e00570fac7fdfdd28640,
   0x26d641a0674b231b800a841f3d35895d7b00525fe1f583c695a1e046b9fced28f04820206132930986b32b5880199be748d2f9364f0000073358deaa29f7403580e898f65de8fa9037ce8ceefed32e8250622f342017578695801c314ba09c921f99202418d32d29d869d2c04fca7d9dba2dadde60253d7e5f2e56950e6062e41534e6d83dc200057124dc0727022038,
   0x29a5dac30e112bf2a00af957c149fb1aa4c05466f8e756cb8199e04635fa47bb78d466a05f52344f7016838d6016b4600fc8d0a161600040db7feb499894c03415c262f432fe32203afe86706ea0e8eb50624722367aba1432a01e720ab97c3678a800216cdc5127822371604ca94e3da365a8cca024dd1e00654ee24400646729814c65b600800571224522d33bd8f4,
   0x2c871949fc3aa9c6600b9ab8370faea64520564cb5f030f25453a045a45f74fa7dd963005d432c9af9b6e906c013eca69172275abdc000b45da414db11d68032a81b244386eeafa03e29fc6fea231770a0622d9d2de339db7be020cb49e67feec62a201ed301246cfaef2c60496e129b232ae8e7402492e687d7f63255c065bb4bb765918c300005711b38d4709da1ac,
   0x2f76981b3dbd4654200c69306b39ac531c8058103766501beb56604503ceb81992c7c7e05b077d681b03717ee011476e05a71c006ba00161e0098f797173c0313ae4258ed123ff20414ecfe9e6ba3623c061e356e86cc2994040233c4dc219b6be50c01c4ebe67514ee21460461b57a9dd812ef7e0245d91df1ce1b0306066de3c70a3d014a4e005710dc98b2900bf98,
   0x326e0e8dd8486ae3e00d68f6b2104a73784059b428adbc144e9620444d98e1a60ff02dc058a2f42988f14834400ec6ff19cf8f5af9e002498446e24f619e802fd6212dd35d1bac80446d52a2ae0182fea0616c4f61a9c41a706025c7e346d8850eae0019e67184fd8a6e5a4042b34480b31e995b6024368598f02587972067cbf7e19c459d3d400570f9774cd35a3708,
   0x3564d2e377d9ea47900ea2eb62c761317ea05b402193407da9b2e04374165c7a7ed3ab80561a7b8faa2c296a600c6c484cfed3fbc360036bff8058f1d7f2602e879d44abaebae900478a127d69d9b57e4060d041d8daedf9ce0028765765d390e32be017a3342f6d43554fa03f36127a6bc0c3d10024108a13d3ded369c0687e6e41f51ddee5000570e020e6581e3d80,
   0x2c1c93468ac50cc7a00ddf1f090c6cde5a2058fd231731150701804255aff4de46439fc05d4be35feaa9d7e9e012a851571200b253200110ca319fa48cc0c034f538bb31381580b040d506e5f48c96ed2063dc786bb4d620e54023d8239b0adaf3c2401f76a62e7ec905732047cd50d3383ac59260217d560e5c171453e0651d095e497caaa14005710fce794e7212b4,
   0x2f0fda9402117cb9400eb7c40359dc880d605aa6dee97632d549a041baf202bd5be15b405b00177c2f381130e010193312e482f670e001d495febcb0a26020338211d1c335f8a20043ea09ef12912286a063784f626b076e5c802645ab3a6d04d49c801cfc611781aedc1e20447a66c1edb0f410c0215b9a52b55efa32a0662c073e6db01397a00570fb7b7c882e4f7c,
   0x320738fc2ae00346100fbf210f82c0aba0805c2e6508e220f0e7e0410cc69668541dbb60588f0e286462e4f9000db2263f46bf1c1da002d08c1e49368c0e403218658a2144f2202046f3db4268fe8694c062e7fdcddffcc0c36028c927796578dcf6201aa0bb3080493bafe0411763cec367300f602149276787c01c8a40670561f184967029e00570de6ad56900d464,
   0x34f90d70d88647fc1010ff2774c863b5b8a05d9c35e70e00172bc0403be88c35b123e9c055fe3995569a05fbe00b742d2468028112e004057dc567dccffe0030c7975c591f1d3b2049f79da9536153c22062342274111316ca002b6be9feaffe45a320186dd6d3c8896854203da4790cc6045114e0213739754b0392da6067a254c57dd2998ee00570b9a51204a49148,
   0x2eb6166bcbb4f54880112abafcf224d421a05d12a015d355cba4003e6e1a87d3da62afa05acebf19196def1f400f126ef324bfdaa9a0027e31c8a41bf8626035c3b06845b422ac7046744a5a0af8c6e78064d8d7aa6127119480295b0830b1932406601dbef82772c8b4e24042ca06d8468280c0a01e7795bf869accda60654af0efe1518e53a00570e107a688116e48,
   0x31a9021c5c550ce8b01234d1db3bb9ebca605e7b30c1647375f4603dcbd566de6a287b0058566100990e084e600cc77ef22f3d215280038a774c990a9014c03455692e0ee953f1b04963ae21a1453a7ce06430dbfac609b288202bcfde60379f6609201b71d980d1ec7d08203f72d1535c11313dc01e7b1da880ee71a88066113c7a7cfefe6f600570b911e7aecd70e0,
   0x34903ccb167238f2c01373d7a0a49ece86405fc74dafa522776d203d095a5792f284f30055c4360cb26c8362800aa9c792fda535b72004cc2cb47b82ba5180330243ff912cb348504c46903297e80e13e0636758ab3d847156202e5db0b65ac691bea01951727f26c14b72803c13648c48011b65a01e7f76464468cadee0669ade5972365de6c005708418366cf383b0,
   0x3429034a4ef61fb90015f94e33465e147f0061beed77137bdb65a039e373b5a47aba1b1055709e51ab5f8af6e00a0d6916aa8d6d4c4005baa7b310ddf05ec0353422d72bdefe64704e71d9bccd13945160646af0a858185210603143cb7c5e7b2ab2f01a4c0f96e00d916c803a888b115f8e1d14901becf33b47c12c5200656c977ef217f5a7c0057037e80c6364cecc]).map icosaRowOf⟩

/-- `s2/ahrens_beylkin/ahrens_beylkin_3432.hpp:13-3446`, `3449-6881`, `points` and `weights`. -/
def abGrid3432 : IcosaGrid := ⟨340614099131779800, ([
   0x3a0570fb97bd248eb0031d17276674fa058047e981026319e4eea057dfee02964c1bd9a0522531894c46246b60163191615f597cfb800532eab33a7e1c30201f0c7f02ecdc7e70e036a5b1312fff6a4b98526a5aac5a853f392016e6a207d7b95f9820141bbdd58b505ad0e04734705beaba00cb60399589782d9c5a4ed06993a55733875f41a005712ca894fbe538d8,
   0x37e999ccd54d85c0f0040ce79b1138a834004ab33dc87166987fc055123a30bc888f8420543e9562d0f5a052c015482b4ebdccc806c003e93df43f084265602215b3501c4faa0d6038234de3051621e330556f97edbe819211401866b20eea903ae520156bd4f58ffd2f5c004794b70844a325a16035fc1597961603e590698fae4b68108803e00571323e68524a5ce4,
   0x3f70a59cafd30b93a002f4b573e3f2b88de04542fdc3bbd2f3e0805b00868dd339ffb4604d0570821888bb266015946a2e67dc4d234008122c7df95bc8ce4019c45c48369cd3b4403729e3572beea3ddf04d9c4d3e39ec874920171f6093ef501e35601076f32452733ce2e043b8075e345f2455003e7c8bf349c306a4406a0dbaa3c92e5394e00570fac998b8d09dc4,
   0x3d8bfe0907477af5c003993ccfc61eed2280483163af0dfe38a160586e74176bb9afd8a04f232799be60b3c0c0145a7fd99db8bd33a0068a5095798e9c32801c869abbbea100e34038c97cddfb9921b5a050badf26ac9ba7d6a01885ea96c1ae334d4011696c13ea490faa404405f8f1ea08c287c03af84ad8d18cf8caf06a6a0e18b3d946f36005711d8575d8d40320,
   0x3b832c5278ab9b5210046ec13d7c6b967ea04b03b9aebdab5bd2c055b79abab12b5af660513cf631b91c03cba0135881e7862dd23b00052cf1a725b1255de01f75edc16fa8fa4a403a4f70d0c388409c7053c5aecf52c2729a0019fae1a81d7de2b740129a517ddce8435bc0446159ee265b4cdd203769852f7b01fab5a06a858abba8f8184fc00571268ca8a7cabd1c,
   0x396bcba6cb77d7d5c0057623c87b7d7241a04db469047db0c2c7a052e4bd00939031ef20533f36d33c4b491a0012886dcb0eb6399e8004043e5d38de89bf60227f90edf1ea19d5003bc24cd26cb68bf02056ad2397776dce8bc01b82ddb3f0b0ac870013fa533651552220c044b9f91b9bb64e588033df4882249feb22506a635c574b6253302005711dff16c2e89e20,
   0x375595aff1f2a749d006af1faba07531218050434df01924bf7fc04ffb006ba8aec7d860551d48000fa8d3636011e26e5b3f538d4e600314ecf4936abbf0c025969dfdea3f6484e03d29bb8b5c8f15a880596958fe2055abdd001d227136e6b0dcf720157ca1124c5e027f2045034b1471c7715da03061a3d25b42312c206a0884adfbf4e7582005710f1536c457f9dc,
   0x4410f7f01a84201580034351397a03edd0204280ec8a81ab0bf8805d8ff06b665ce685004845cfea12433976801597c4091464849fc00b20c74ded37cf426015535775c66888cd4037571ea94a0e55150048f8a11022b339c420176bea2aa9043b3ae00dba4df4a130a63ac040acc668ed0b555d6042efa2f496546b4ea069db1348222950f6e00570dc6e97ffa135a8,
   0x42b8e3c825b7b4f26003bcb072d5a85ab66045874f9f75c6b957605b403a3aa94f7bcb004a0eca5ce227ea644013f6d1a0a699925740099573691da540ae001795b121f1f1a394003943142449afb90de04bf1a7a0854a9a3d0018e6f95acd8d587ec00e1e0eaa5e9caad900409727e54ed2f1a9403fab9951a1e69b96606a91c02c5937939bc00570dda0bcd728a9a0,
   0x40f9cc1af032b306c0044f508d50bf553b604873ee754ff52d068058c922b77a2ff380404c16850712222f850012a6073685fe67b220080b9a96df307357401a300be69d02e647003aee7d24dfdea4e5504f0189b7db6ac6cdc01a49bf5e6947005dc00ee9bd2cf78d480fa040d0364d6cac92d4403c4118a3d632ae96a06b07477f04468086c0057100454686c4871c,
   0x3f0bbf070f47a08360050bb84918e3f73d804b4535bd714597e480562f6737a41ef841c04e26e66a02d7e18b20118fbf6362cfb68dc006a2b7ac95af1cf3201cfcd50555dd38c8a03c7935d1c77856e6205205de9edf848768401bb223bc41161351000ff8bfffe604925ec04122d16492ff3b214038c852e30dadea39806b3ed3474f85f026400571070c6b3c911a8c,
   0x3d0c8f1c91b64ddf4005f538498b6cef41004df3c4f5ef54b3a660537d40a1ba9e4b92c05023de219de1b525a010ac0ef33e3fd007a0056a60b0ec325d7ba01fe34cbd63700466a03ded35dbb9833426e054e8bef981a5c39fc01d285bf915a872a8a01136e68bdd7a61cd00417777f017ec110560355522ee9e11b91c206b3b3be9e4145db2800570f5d317bb9dd980,
   0x3b0dd92034dd941ac00706800d46c8831ae05074de88b505c0922050c1cbb60cfb3fa88051fe8317bc032f62000ff9338ea98d7a66400469190c238aebbd2022cf39773ced127ce03f48f6c377d591a0c0579a505a7330d2b7801ea82de712b20dd5e012969a8fcccb103d6041c5e4304be12d228031faac0a82e6a2c8206b00e090fc225eb4000570ce5e0bfcd8e384,
   0x391c2fd5d50ee90e100840baca52dccf876052d0b6b98a8ddbcbc04dfbdee8cd8c6ac82053ae9cacb43f2223800f6a9d236ef29f2860039f9b54a5b6905e4025b98dc9413d51aae04099c18767f6986d005a1a90100d9a583ec0203a88606a65cdb0a0140bbc991c18dccae04200cb7c8f1aad43802eb837fc32f6f02be06a96cbf4923ba693e00570be502881a51c9c,
   0x37255381e361f3e4b0099ebb0dfb5bc59960550684f96486117b404b2a6b2bce54a5e40055454722d90bb91ca00f08743ab89395df00030477dd8b4185920028ae38830e88deb60041d43a725a996435a05c73954cb5a656154021d5332929e8f586a015a2b76b28add5e6604239c60af330b04d002b86e2bd4ea72fd62069fb26776cfc175f400570c32bc3eea3070c,
   0x48b46952b03e12b9a004263ce041ecc46f603fba97645f389338605faa7682c16bdc2aa043382f812ff0fbbfc015cad67760777db4400eaa77a9863537c9001128a2b3abff202f2037b04ad87400f7f42044221d3f40e64f9220182f45601f8f297ac00b469bae1c2f0a5aa03d56287ba020e771e04739e828021bbac580692f44395ac5cddc6005713902678447bda8,
   0x473f6db9b2535ce3c00450456f901e452ba042cfad32fe843858405d8aa813be04b302204544c24e2613ef44c01413ef547e294351800cceac2e168cba8800135f3e0ff05392e9c039812c5f9bdc5e1e60474dfffb211f3fcac019688fb34f3252e0400b958895f7bacdf5203d7b0cd42d7b28c98043f40b07dc559ddb006a248b98f6aa4ce1000570fd416fd1cadac8,
   0x45e5827ff56211e88004b92f2b063426514045d277e6fc275dc5605b497d4b4a6805288047165830aeb30970201271bb04b25f1e75800b37421ee5ac7992001599bdadef088fc1603b6437ad344d11c5a04a4a1f84a9dab128a01ad3f0581bf535d0c00bf3a810d2e6c9ae203d704293929144e38040b7148086f39f38806ae62b8480b0c167400570c59b6b6689a2a8,
   0x444df5595c51897d60053be98a7eb8c01e8048b017843bffaf65c058f2f9e7e6f9cb4a404901660a4c79552be0111463b858baa6884009b444761a78648b00180785e7055373c3c03d125a54ada71420a04d3f03f79c8fae73c01c2e924c909973f0c00c9c08ccbcfb0095203d95e8f00420e1fd403d7164b2748916e3606b6d47be5d1adab0000570c06dd2ebc6089c,
   0x428fc649b23410482005dbb8ae6e999bd8e04b61f6b3cc8efdcb60568edfa35990f9f7c04aefa57d4b734b7a000ff6bf4610d6d0a1e00852bdcf2869e563601a95947df42e4752e03e92c340a1045ef0e0501ad7798e90ff16001d7eead52f1a432ec00d7fba2557068717603dd9cb24ae4b8b3e803a32ccb6d70e51a5606bbb0ca960415949c005709b15b4d0ef0ed8,
   0x40d240c0e1d4d119e00694ceaa08c817c2a04dd309774168c9cca05436ecf25438e279204cbcb24352f7ef35a00f1501fad0013a2180072644c6c0f7f1ffe01d1bb73f95e1687ee03fe6e438e5919a956052ba1a4d9fc5d33e001ec384903c821bcc800e838bde17d1616ae03e2486e1d4e7e9a84037212635c221d524f06bd42cbbcfc30c45c005703cd700d6851758,
   0x3f259570d6ef00ea200767864e7ce17c5640500ec32fe864f208c051ea1f732fb0b72ce04e5ecfab7e03c307e00e5dec04b94dd4fb80062e69ed3601feb4201f908c4c35069f5e204120353021bdd4aee0551ddb93c15f0a1a602007636f58885243800f970866002d529da03e654bc5492a764760343b29ee7b0fcb77f06bc318f552370abc4005703dac6e5b7ad02c,
   0x3d4f8259346bda97800867ab1a4c3e705b6052521b545e3dfc12a04f67f70c34b1d758c0500e109d761bc6b5400dc369a11981dc7320054ab48987234729c0223ff209fc7b9710a0425905cb3e4d030280578e710f03ae28f560216706301f82a1b5c010e06031de9d05a4c03eae7ec5583d354960312c463bbbfd76f8c06b8448b2cd11336b600570aa56c21049d6f0,
   0x3b5a2eb6bbbe01370009b2488f4e1a411bc054b833df58ce1332004c8e8681c7c23efae051bc1af186256caa000d336d79f2a9bdec00048836475b550b9680253899d30e610dc5c043b556c5a46aac0d405a13c0d8a3341ff2a0230aa078ee447ec880125d7fc1e56ef371403ee100e05d3353dc202ddaa19edd31f48d806b10f0b35ab1b22ce005710820b49e6bc230,
   0x393cbc17cf834c5ad00b31eb857000281900570ff926f5086f07004984f47e29110429c0536baaace1dc04b5800cd37a2363bed2466003eb60f03458c1bc002867cc848bfd8cce80450263d28924a025a05c9126ce1e59bfff4024c59069638290c300141a04b89f663a2a003f1de2e0f544b211002a7021f30c3d4c0e206a5f23f7583ad4b76005712c82ecf531cb64,
   0x3702b29521d1a237200cdafe039c1d1ae760594056761c132bd6404664bb212589ccb42055117664adaea3a6400cae817df5fd657860037aef985303319b402bb6aaba83ed201440462e11feecfac300c05ef028f639ccd89ea026857c60a937bd7180160e8fe93f17504b203f695b9368d8d563c0270a6a43fab57ee840696f47e97bbe5703c005713d09eccba5cbf0,
   0x4da29fb65d9255baa005cc579a7fc7a09c803d03785fe4b884bc4061369437dcc0cd38803d912d83118b865c60160888a6f2d8f157c012e1901044129934600d27bb6fcb7486f8e0387778a0464d1c78a03ef634ac013098eda019af3ec262ec7f774008f350312e8df73940395cc24474a4f6c3d04b60f0c3dd23d8a5c0680442e9fb9ab1f4c00570ffdefb21ae1f0c,
   0x4bf30ea2495121f0e00586e1d5d8e8409d4040031f0c45726647e05f69961a7764f148c03ffe45136b88a313a0145dcf60589e64544010a42e71849b10f8a00f4f5d3b7e9243b0e039f7442a2d4b5b339042507f06afac5b41801a7183d0042ed74080094082c4aceb93f8e039ef6a9c99e1f2985048319425e1e465abe06936eb78f6f8b790a0057121c5a00e91d118,
   0x4a6c94320172bc1a600596b164742cbb70404318eeed634c8821a05d593987682cfe360042265555f7267d416012a6f6b16af844dc600ead66f430ae7a4a4011873d0ca57498b1a03bb7e2603af85bc7a0458dd225e530df09401b908c33ce1c626be009904121ae768602603a2f596b002869f5e044ea7b7f8c5901d9606a3c5ec7059ae657a0057127e504dfa205c8,
   0x48f3ac89dfbd74d32005ec8d2366e171792046354985d2f70e2f805b111deae54775e4e0442269dc08ad58b6c010f9af189bacfce8a00cf03751836313878013d92d51a9b028a9403d9a3a33ed290f40e048b40166d6316e44401cefb729907b81b70009f604ea7f2b5ada403a3f4174de288a7290418f3c03b8730592406b109dc2f25fe59b00057110e965f66b3ec0,
   0x4750dd0a08ed12c120066e0467c4d44703a049445c7cadcab9ab20589f6b8ec92b0bf9a046267d15f72401a6600f79937f675c9d69800b4fffe426147082c0165eb7cff619a8aa003f6a597782545e95604bd6ec7fe1522fd5601e5e92b30e0088a7400a979803061c7571003a5f5d490726cdaa103e1c4d404c77542bc06badfe5db11725a4c0057114eb7d7b1fbb74,
   0x4579fa9b0a933c81400712e9699294583f204c34e901deb6699aa056103b5c6741783b0048398b99323ae39dc00e3726168ddd65cc4009cb9dc64a040192801916ab54fef09bdce04112aff313ecab4c204ef03c57b92b3c2be01fcabd1a62dbc9a6800b7e71b9d66dbdff803aa151fe09b804fd103a9d1455bc8531f8706c0f5ab0801941d5a00571201297784ea7d8,
   0x437c574723b1be0fe007e2950b3e553cfa004f0a0ce3e7d305ad2053602a844026f558204a4e18b5ea9619c3e00d2b7da22ea0b1b3a0086b917e350107c4c01bfae413630cb53740429eb155d98006cc4051f9881fff49703c80213fd4b456f56ef8800ca2812f37f4e3dba03af5b5d1bf7e488f5037136f9f1010576ab06c346dba621b5b054005712a9ec3564a84f0,
   0x4175099a1b79a265e008e69f98e3506dbe0051c4071b176d71c020509053767766b414404c47e359a8f51077400c4ad2f46ca47809e007407bdb66e757d4a01ef8b944c666dfbbe0442012e0f1279c71e054e1807ac97dc5904022ceb948b876280e200df0f6b1e90d8f79e03b4020c6cb9bc16dc0338ac066f030a6b7506c1e90e3c8f585d46005711134ff5e6b3018,
   0x3fda7e3b468f4ca96009a062b6b04e7a0f005380a3103b8ad003c04e9cdf1855e7d457404dc089451ee780a0600be9cdb2fbffd44c4006799948b625cc15e0212b224e09575aaf6044f3e6d0058b89636056dd111b0f0cbf0a6023c472ab2bd1fc19a00f109720f62883cc003ba5fe180bb8a9bd00311c611906e262f7e06be7b87acb9405e1a0056cd9f4f1c1de40b0,
   0x3f2694ab79fa38a8000a3dc8c2dee6610e2054a20921372b9bb5804d553cec5f81a041804e5cd1732ccdaac7800b8a452386dc3e04c00630a440370007fa602264d08845d56bd5a045b4b676c357a71f6057f0833a50c567cca0249ce3b3a84d03afe00f9769a62ec29718803b8f6a9115bad6f4c02fa7a7e27c813188a06bc17c5fd0ce9d7da00570a18895b302bd70,
   0x3d12d1ab210f22fc200ba7d71c6497c372e05715b5b5641be426c04a522b024d88feb6005017f4d58e1c4491c00b083bbdddcfb22280057764002798b0dba0258a02442cd5667e004716832ce9441c90405a864fa052bd0ae16026575007c5d5f689001138aeda1acec640603bc6a16b7c15a146e02c32182bfda9a66be06b321709ebc6446360057149013c6bb9cfa4,
   0x3ade2a2623ec167a500d47cb99ca6589f0a0597309058a9091c3a0472480b6e679183fa051cbd985b9516ce8000ab961108a8b07e68004eac13ada12375dc028dddb71bdd856d8a0486670e2f0446d47005d09d1d2a324c0dbe0282800929ec429216013166b6f7ade5a79603c04698376577088c028ad82f0f98649f6a06a61c00eab2b0b89e0057156b14648c29dec,
   0x389a039fcde5439c100f08f1724031ef37005b9ab087b030afdc0043f207f1ee375dd4a0536b1912fdbec5ce600aa7f373f8f9b8eaa0048f04fea229546de02c3e40d77812150560498d752fcc622e77a05f5f65f58abce2b60029f3ebd88c7b65d0801521dfe7970253b3c03c4eb8231caf047cc02542581dc761b461206956eecbd8896f374005714ed59ae9758a2c,
   0x3648d6a19068de655810e3ec822ad36aa0c05d87636ded6357c5e040c41cde3bf162d4a054f5bfc95ee647f6800ad4b6d95fc07399e00461a2dc76960b09e02fa3e29dc3db141de04a863fac01aca9faa06183cf8e61728eb8602bb33c9c9e1ac2cfc01757007f13fdd330c03ca8ddaaaf0907096021f860a3549ad3b3206815b69e63761a9a800571281333e7886fa4,
   0x5243979ca147eb8b8007f0e9def7351e10c039828e63607156c87062a9686508af02602037ab12260040b29a7017372fa8a159a9684017cbffa86c7a5faba0096632573197320ac0389bdac51cd87620a0392695c40efa4b81701b18c45e070d164d00075c19df2c1464c02035a0f9adfabde799c04fdd86854a4e173fa065f62d1aa341ba88200570fdd3e1c9d50d48,
   0x5100beb68c12809980078740e6eb53b52c603caacb6924e562b6206107010b6eef34404039ded9669c46272c80152a1499fbb6cb7b00157ea22824cc9858600b30509fc1bb3cf5203a67a8a5206ec322a03c7689b8c9d29264e01bf3a3e383d35b0e800732b358c23de9d5a035e13c1f9cc8d3d6504ccedfbf31825d28c0677c02c6cdf5f6f6600570e4590d229d39dc,
   0x4f767358da7648d900072b4467e408c946203f99b4fcf0bb1dff605f601f68fe052358203c33e0c0f24c494ee013734d2b03ac2647c01342ea4149cd8ce9000d295b7b1076710e603be5964eb5af5b89a03fb79c8573797265e01ca6d59074aa0961c0075ba7519de7611e4036662c977fbd3937b049c6a6b7eaa58bc8c068c40ab828e1a157800570cd6c5a41595b78,
   0x4df46649de919360e0070e042880119509c04282b9934cad8b61205d8bfb609e2ca3f5603e610c67750d374b6011d08e44e4ad30f380113f71fbb01cde7b200f3946e22f402c55203d764136fecd54888042dc687a8e5d1baba01d8c61e136ebc9dc40079f2071b4a1e7822036c6e5f6fa6ef22a4046b3eec0a5a2ded86069d8eb4624fb8dcfe00570f8938f31a26a30,
   0x4c789ffa5adc5aac800739577cce6581e6e0458e3d66f85b65cfe05b6dd10b3b68b15fa0406f8361ff2cd96640102530c74704f150400f6761cc24e915e3401173113107b3bb4d203f3c658625b1cfc5e046038c47afba9403401ebfd5855765dbb32007f72677f0815eda8036f398a8e7fa7ca58043720421fb092ae6a06ac644c46de578b62005711da231232b14b8,
   0x4adf28a5d870b7fac0079c1a0f42eddae42048a7e0e763e1d54e6059129112790c216620427ea56625256231000e8e5ffd85c5d5c2400dabede2fdfefd742013e4f5c7a2349d152041103fcd0ddb0cee404933d465f365524300201e051c9c0232c280087e8c29cab4b3324037183bc84da5784e204004b28690744b0c806b84a84c170f56b480057125c8814e47c4d8,
   0x49214b454e8e8474c0082f0d36459bb2e3e04bb662149cdac99ec0568aa6533039e7ef20448fb0c8d97dae17e00d21a866687b25f4600c11c834e84bb781a01688f451593ac0fbc042d7c94e5b96d3ad004c5e695d9a923410402192609bbf47e12060093eed67c5cb2463e03745a9df460e0fd2503c7f4ba4b8d650c7c06c0b3eba073613148005712d52ff244e87b0,
   0x4736c4bb204673bea008e2b3daac788a66204e9bd2e84da4e6aa4053ef0208956392da6046a7d38dabec35ce000bf698fe47841102000a98d256651113dc001954bdba928621bac04471e07e2d4cc412e04f73ff4fe9d159b8c022fedb90ecd758ffa00a407a828eeb8912c037939055a8519dc24038faadeab8d84ff9e06c550b431d29d984a0057114df72ab4a52f8,
   0x4544fcc6baf6e3fe0009bf2496b37db65e405151f2bbb69ec561005147c870946688af0048a2d0d547cb05aec00b020cb3a1f2d36ba0095646d380d7da5e401c2c2bbe356a1c0d0045eeaa21e89ca96c00525a538ef4b22a1d0024726fe17197ffbf400b6aea76d498ade50037e18f8de6f9987120358c1c529838db2e406c63f17e8526ae10000570d91e32b15e3160,
   0x438eb4d23950897dc00aa729f27873becda05397d6acbdfb26c0004ee1b14dbe346d48a04a453236bc8e7ba7800a4e211cb8b568048008679aa28c8a8f4e401eb6927b6f239a75204731fb4eeec8db338054c4871a5f95ee7dc025c9a7a184a71487a00c8db06ca49e9783e0381c5027f20979eec03292833110664f0d906c43be4cb650f408a0056f63955d7931227c,
   0x424aa0703ed2d2ea200b4ebe4f665513f060551128e6f4cdfb5da04d394fa9be21396ac04b6c30e2bcb9b2516009f2b1df8e66f3926007ce5f3d63ae56a8e0208525845d302641c047f4fc6e026cf7420056640ab984621b0a2026a9be76929db206800d7310f1910db0d9e0385a1c4ff0973b3bd0308b6db002447ba8206c14aee2ed1094c860056f43ec5f3d73d994,
   0x409d21a6a43c9b50600c7843d733bb28c1a05732db731c19b51f404ab30a84d607bfba204cdb8766bf55599400096be73619c92bfa0007298083419fb19940231e01902d31e255a04933a7fa6faf7d23805898542c9396172f002826924897dac6b8800ebaaa8a0be4a32260387830609e081a39b02d9f4359fa6bbe2ce06bb01c4a2c42d4d9600570e3a7cc765ce5b0,
   0x3e88bc01e517caad600df97f6bacdf54bd605992bf72fce9c5fee047a6ea8d05faa585004e857ab5b168ef65a0090159ef5cf345abc0068cb26086ade57de0264930739869a29c604a8c4b81c87c858fc05b1747180f90cfa6e029e9a825bdb90b7cc0106e26fa8324b364a038aa713c9c23ffdfc02a323a2de279e51da06b03e0523d05cb83e005713c5e309a2cc280,
   0x3c5bc7e032a01cfa800fabcfe64a04ef0a005bd5ecc34b2edf1e604479da13ca0f87e9405021e1f51d914abda008c9797ff3c300afa0061e5e2b61fb6d0f002997e82da1b799c7a04bd097baabbfd3e5805d7c1ba92b38c255e02bbe8140e74bac2d601256eb3adbcc84314038e0e50257a635003026c0f9d34cbeea9ba06a19fd294f5fc707a005714f4e62d1ac937c,
   0x3a1727b6129c3669501171ec2771f9f01e805ddbd011f1d027e24041541a09899ea8a26051b49982286eb506e008d522977ac412db4005d7623a7e8f5dfb602cf0bbfbd48a06ac004cdd967b59ce90d8a05fb512bbc43b9730a02d7d689eaa80e5dda0146fac846e2ea6850039338a0ac21354dfe0236f5ae87eac451b8068fa206db5903084a0057128ce47bcdd52b8,
   0x37c09d8acbb095b130133dc60472a5d865c05f9ae37c58079e36803e4793d9e919496d80533d0e958021c442000924d097a39ea58de005b2ea04bac9b2f18030450aec2ce8fca7c04daa1c980d07ca09c061bbeee6e24ca44bc02f1803d34cf2afa16016afac975b7acc88c039a7b040aeb393d4e0204c4aa084876c1ca067acada87b4247a4000570da0f1fbd8bfe70,
   0x3589d6c45be0c6665015334e50f4f5b40d806134baf7a508b9cbc03b35c3ceae73e01300548b7879ef70835f40098f9dbd0f7428754005cc9913fc2676e5c03388fd1d1e879830104e7546409ae49a50006387e887e646f14b8030cb8a5ddb5090b18018f652fa0843659d0039f8ce56d92c5057001d4a5a3186dacbef406634b5188d9df9dec00570dc0633a5d60304]).map icosaRowOf⟩

/-- `s2/ahrens_beylkin/ahrens_beylkin_3492.hpp:13-3506`, `3509-7001`, `points` and `weights`. -/
def abGrid3492 : IcosaGrid := ⟨328775481462010300, ([
   0x326c2cf1992966f3d0031b95c87c738087e047e6744162c7d128c055898d64390184a200584ac1bdf718eca5e01a0033f4fab897252002da1a89dc23c3912025308dd8adadcba72032d620717d9205bb805634fc22bdb9dfeb40148ac51d790cf333401a41af339b085729204d5be318e473751aa035cbd62de1760120e0673a37f7d5eab44420057123c2c42dd87234,
   0x3481ed99c89e20ec80040c4ff7ca46ca48c04ab1c985074734960054061269e9a67cfa4056ffa0dad3ae5aaba016fcffb74bb6c840c002dc20d2833cc0b0c024d62724d81684f460366e1bc2d534904a7057226fb83d46f80b40175820a9c4a55546c0182d2edc92c0d1d8c04a56a8928e58a7900034499b84b94830a9e0688212412b0f11904005712bca4add92626c,
   0x2b1970f2b6a3f4a40002a567d6d59f60a76042b7c1672ec4e3de40563d2fa1329d3e81c05cd890e9d3c773226021b65f56e1cad3aba002ce84ddf9b06d1a4029482f12e38833c9c02ad6eb186144d8bee055d18cbfb92d1629c00f507c976296b0f880218d424fbdb9c738c0551da426adf906916036784f881b3dbbfc9062bf275a9b838260000570abb46f858905ec,
   0x2cfc89e920055a4c600304ba5e01d1b002a0457a199c3d4147d1c055242e836afd64d8c05bfc57dfbc7fd3d9e01ea6d5cc1ca2352ca0024fbfded9a85bbf4028cb488ff872e3dc802e215e3aa1d2f030a056fdfd5414f44f006011940fcd510b0391001f5bd04b44cb8af6a0528cdf9b08d87af4003510f55c44110a90f064687e71e2600caa800570d6ccef028c5bbc,
   0x2ef2a5280bf0ccd4a0039c8f9b0bea39358048427297f9ff878fa053e054f567e8ac9d005af65776a37a0465401b9a664b85fa82eaa0020192108ed2ec7820285d1d63e9859d9ac0318ba43de6a164574058145195bfb09040c0140e3afac2f3d407c01d3563d60311cfa8004fce9de8bd06367280339cca97eb2e08565065ecfddf9c09942ca00570fd35bea0731b8c,
   0x30f366dd000687bb30046f3fd369a36c76c04b07b2e9f1016eeb005271b4d061663100e059c956dcbf73f49b40189d54cb27b2380a4001e7d88eb9f2d2c6002802cd026338bf8b60350aec2918d2de2e805910a16129e31f774016b9c1cae515a337a01b24bc0fd762d1bb004ceb45ea339e054440321e4461ad1249b3c067439e0c8c88ffebe005711675bcdb84db3c,
   0x3300455c1721af7dc00578ca75d355cb50c04db9f98db2c17102c050e3ef278eaae39b6058713f5b52b04f404015ba823024a3a1a1400207baa399faaf586027b4402360277a91003891dbdf64f23e07b059e6957d15d68f2f20198bea8386dd7ed480192b92025dfebd99a049e8913a50879248e030a4332a780e11eb4068681f077b8db49e2005711edf9ad81577a4,
   0x351eaf9ea2ba00222006b07198f0629f2360504614cf8b0cc2e1804f495d2c99b408c4e056e81c29de87c7912012fc0ab50cd28bfc6002656c7c865c2891402762c415090bc6b4803c10f00b410ed326005a86a2b5a20f525ae01c75b79e4b8a4b72c017470fd176d9028e8046cc67e64c55036b202f4389412789ccfc206959a84e5ee22ba66005710f6411d044b1c0,
   0x262abed6093eb10e40038c5b795992b7b9c040ebe150ff90d61de054e215de9f280a40e05fd485f356a32b3ca025e922a04b0a4a160002e91b286009d008202d2b17beea5742f6602732e4396de0a270e0568d7b92fd52e4dbc00d9f32cb99bc062600268c62f1449331c7a05935d125b0df188740352da44a613caec4705f982d81d8da41e5600570af33fb241f6738,
   0x2821f6fbb5f172e8c0039af8fdf2ff619d60439dba856950fdd9205418d72a986240b2805f0b470a6bad7b884022c3f15e8ce632eca00237825b93e97983a02c70765a98ce3b9f002a611dddcd3d85cdc057bb74af0ec43bb1400f9f7333375bd75cc024276800ebfc197fc056c238b0bedb59690033f6a2cbae928d1b006180c8023bd49e8ba005709db9b6726668f4,
   0x29eb5a27b7e5f6dea003e99ccfd3a6f74bc0464463c2c2dc90f88053133ab9652f16ece05e43a424767de260e01fd2807a7921478f6001b123e2608649f1c02bf77746844639aca02d8328e8002ad429c058e382672094a00b6011bfbdf75d843aea40220af967ec41f4e96054572645de799d9da0329dfaed7d99c32a106321d4ce622d07e5600570860f2dc8975e18,
   0x2bb716995ed4c4a980046767bb912160694048dcf8d19b49bd8c4051ef3c7343b9bbe9805d5e2d803eda6fe6401cf9d8f89563b191400158af07e43235cf602b8fcb8e0a1d304f8030a98ee9cb8f49720059f06d775d6369c54013ffde2bb99d535ba0200891ac4252daa48051d6f39e77101bc1e03143515d59241bacb064966b971924d975c005709b4e65b9565030,
   0x2d8f9d898e35c5b0000519ba5820dc4bee604b7979f0f0056a232050a2bc9bb0b32739e05c55502a6384ba33801a27db79efe862d120012cb76e0b812aeb002b3940d4be8267a88033e9c2099ba5347c705ae9e405d37db77ee0167067b135a7f50e201e14de64054383d4804f30edb9aa45d7e6202fdba52db86f30be6065e66cdedad9f15d000570ca9d54b5ab46d0,
   0x2f7cf6674c49952d2006032a77eee7e669604e18899a8ff8fd31404f2ecdb2e1d87b6b605b20d655eb25c03380175a6b900b0f0a12c001327e6ec1d7a8d2c02aee3720142f082380374777bd37a41c27f05bc9fb11fa433f398019153e5b8bf2078aa01c2b1799381f4930004c5db6cf0f160140002e6b4857da8419c88067118d9fabf2d716000570f3ac38bb118938,
   0x3183938444e01e7430071eefb919e432c68050a77190c518dea4404da209260b7266520059b9c3045471fe6000149cf91a1f762b48000170e05f9dd045b1c02aa2e90fa8779126803ab44b6faa9f62d7e05c80d06aed4597a3601be288429d0a85dca01a4b08739b8a16d6204961e2684784840fa02d0511c2601f5bc3606813b1090aaca67ce00571013632078732dc,
   0x33a6bd135ebf488be00860955ccc6c0da5a0530bea8f896ce010404c14a9f9be136263a0581b8a01f346aeab8011ff49173d45794b6001ebf0c591af5224e02a4655b0f9d41aca803e18c5611b8648d0405cfb56deb5971d3e601ec211a7553d9235201873edae780234cc20464921ff7174c726802bc3c1600917a0a60068eacadb81a1a273e00570eb2ae98e4fac78,
   0x1f5291dbfadbb4c4800568dbe074befa4d003bfd6946b61452e0a053ba5eb4c020ce66a062e9b0222a719984402de5d43892f656230004c462e76711711e80321cc254d951f44670205cb122f0d733ce805568f6f4c3c9d69f200a8c028057472585c02e8a4d31a0a3ddcae05f573afef1c3837de0352baa66cfe3211d105981fe4db0568147400570dc68eedd0574cc,
   0x211f47890c5aa372e00504dc32d03de63ea03ed3fa58cf48126ba0532e5aba4d30e5254062877ca4e7590bd7802a94c49ec2cd32e620039691c6a97be0e7c031568f29f1b8523d30236ff3441adbc29dc056ed50e1827409a7000c34c271b2e554da002c030f0ae98f383d005d33fc85df2ff3850033e51df2b75d8011d05bcc8b65569a5790e00570d9f04f1152c59c,
   0x231d865bde82933f4004c42deeed24f299404196514cd80568a6c0529f2fd76391ac56a061e54d0ee5fa5811e027463794b5fed02580029ebf0dc4c85335e03073b1500d40a92480269686bc0faec5a720583d9f18bd1a7c9b400dff46acd6ef1bdca0296ba675de5b6e02405add4234b7151cefa032bcc94d94b26d4a005dffb77675b87376c00570cf83579138aed0,
   0x251de4398c9ef96a6004c07141ee9ba862c0445dfe0c49827b9e4051dcb3ea82861f98e061249366951603ffe024051f39c6de7efbe001d63731d00d18be602faf3afabdd30c62a029d54fd4e9a8b34d80597e5995fe1e6799c00ffe6b9053b0f45ca026ef5949e56d0d19a05864b1b5bcb0063d80317e5e1268d4e5cec06004e8490629fcbdc00570d79de85935eb98,
   0x26ffd10573379fa72005045c32df137e72c04729c88c5cd4ee2cc050d4c8a033096568806059ec49add5bd9e8020e60f641338923900013c3090ea784564e02f287ecec70a9c11402d1e596316beaf50a05abb7c9fcb2bae1fe012302f6f816e920b0024ae3b0607d3cb46e055dfa880ee9eeb4d8030174150225790568061c8c77ec9ffb20ea00570cf1327dc392734,
   0x28da23828c5dbe1bc0057ef7d341383f084049e36944b7c8f917c04fa759fdb3d042bf805f74769137c0b4ba801dea64e93247d24a4000d5242d85d1e240402ebda4b6b31a53c2c03065ca7cb01d6e2e405bdcd49d92f64e13601482c3c477bc39d1602294388eedae2f1240534b0a6972549190a02eaa22b3a21eefed806354f994a5ba9a50a00570b6e5d38ba7a668,
   0x2aa7b7f72d873a09e0062711b0c64b943e404c796e5c1a36d4dc404e62fb2452c27b09e05e778fe21eff2967e01b1ff708236c79f08000a0c395de98f1a7e02e68d7e51f6c1c1f8033981cc1f3ba490b805cd9ae0a00a82c05a016e4684432f126842020a645230b1f1b004050b4fd200ab22848a02d4564e2ffab90140064a69fd2a71aafe62005708c2d9af8a18390,
   0x2c6ae56bf3b29c868006f61e7e9439623a604eea9a61104124b5e04d0e4f42037b0d1f405d64372989e85198e01884955b7da740de60009b1b4695a3ccd7c02e248bfa5843124ca036b37533d1e3ff05085db1e241e042029b20194febf9e006518da01edf98937c3cd4ba604e1f43c2ade21406a02bed39e5e7ad3e602065c31ff54ddd91d52005707b437df2338728,
   0x2e3e86bfaa0b4ee68007ed0196baf96f57c05148eeff45ed6d06804ba7ea0620e99b01c05c29d14ed4c6c8c1c015fc87680295327e6000c42ecbf0288d3ce02de10937c9e198198039d418d0634c3128505e664ee1a4fb5d14801bd7541d70375a43601d255a32cd661499404b6e2249d84b46c8202aa0379d0c9dbcfae066bb0f57a0f86681a005709ea892edad635c,
   0x30389db4652acba260090efd48985ec43f20539b83a33050965fa04a3069af2ddd7faaa05ab7205b222f270220137811682550f312200121e255967308e5802d9053f5f4af49baa03d0bc6fefc81b1e9a05ef0adecc720214b801e879c4b00e4ff45201b652c5b273cae6bc0488bf8c054bc8bb3402962a0632e87b9b8c0679623a4984f7790e00570c045fb779f99c8,
   0x326070136f43baf6800a4e995274a540d90055c748afcc572efc0048c27b1145f9d136805904a177c0f523a00011054b73ec08a00fe001b917521f3f0327802d1d711c6fbbc4790040441483ca333108205f3ba181f64f84ab80214a965425b7922380199acd74416eddc1604581fdcf92a83ce8602852253d6aef2a3c806853fa134c725eabe00570b684b5e8025dc4,
   0x34bf22e54f448becc00b8ba65cd38ce6a380579f1f57c58d9838a047918ac2d64dfb7120570d14fbfce42dbd000eba31b9e7a68d4180028926cf032e2714802c62f1ab0a9272d9e0435320fec3489945005f28086a1ab0c683a023f27c7902dd20d3c017bcb147b8054b49e04266d498aa5704a66027a1cb9451da92f5e068fae06cd5fcf3a9c005708e8056538d4c5c,
   0x1ab8b6733e753fbe60079624db05ae5a2ca03944b6f23c45ac4b0051e7e326224aa7af8064b4a928ceef6468c033129b8331946ca05006779c21a8c0ced840361504560ebf1e95601c8855a6a0cf416d4054d60b12e192332c20098689661f27dbbf803431243c8e81f6e34062d0c90f4eb23cb6a034662a7a63849f629054f6d06a98b1b496c00570b8c1fce61078f8,
   0x1c32475f82ef7f8e8007086b4d4b56d4d6403c3cde8a5d1fd54180515324608a04488ca064b4f76cb78df9dea02fc30d0e363f53ee8004fd8c929c48543de03587990c3d062fc6501f804cdfe249bfdf4056ac089b986d0c83000b04a16f338987f8c031cdebc8e54dd6f7e060fb4a295fd5a1374032e7c42d66845e28a0575a393d21457dce200570d820a47823b438,
   0x1de6acff4bf5bba34006959b874b42d24fa03f21c72a78c1aee16050c46d272d8df63240647245eb646460bd202c6df74f014b2dc30003b51075d0c1ca74e034d217c4e9c891d440228e6d81a841b5b6a0584cb8bb045af513200ca10df283a4dadce02f4e82607bcc359dc05eeeb086f668034e20318e092b6992a6d70059b06aa3e0710513a00570dcce8ab296ba64,
   0x1fd37ee51791f81380063c45f9fc279d0da041e09df92f9d898420504591c6a3064d4c6063e96e047c01ca92602923576f40d887f56002a5a95ee4c51bc74033efea50b24ac8ff9025a1d738565a87f14059aa86b4f9315ff7200e507daa4e8403c4c02cb9f40a583b093bc05cb377be21f20c2e203067715a87160e9ba05bf066120cc536d0800570b7a3512824c5d0,
   0x21c6f7645a18562640061575f8da558ce8804487fda7e9ab5b8ea04faba0a238d1dab7c0633ab19b2c74440ee025f7fcd01fd8629c0001cceb6f813088f100331a5de640eb30f76028b5350d9fcc9d2e205ae268d4d7ab28c460101f1f69a4fd447fa02a40875978fd6693805a60db0e648679ab002f478c04802a5771805dfdd49c5c9e97cd000570a6777321aca3a0,
   0x239f77ea3a4c10f9400638d8ca20c16d362047404fd77d60710d404ec4d9a923ffa708006281e9e33367aa5b8022e355fa73627dd940011f65efea8fd858c03284f8ff8e4a79b4802bdfba8b84082641605c1e8f24a3ed52b4201229ec19a211a9660027fcc8d4a994143d4057f9b9b84eb14580802df5870c7c228ab7e05fcf5fd2db817815400570bf5fa26dbc678c,
   0x257787d3068005c8e0069a4a32d0409393004a01e990a1db0989204da71798d9d058f1c061ad540f945b7e11e01fda92d3bc70461760009f4e649ee3c19ce03211d4949ebd71a4e02f24b6ce89fe6d7a205d4f42628eab929920146b6e477ae02b260025d58ea1edcd19942055710e1ce36b247a802c889ab24260384ec06173377bb5ccc0f4400570ceef17bb552024,
   0x274f61d19499c5ddc00732388db09c6e75204cb6ba64d6b2b256004c639462b101b777e060b9b7ffd7ec5331801ced18ebfe60d0346000519f91e02f9bd24031b626dfc2aa21a6a0327016bed1cc8710705e64e24bbea14b748016d29048f103afaee023cdb1e7cecda150a052d14307e40fd2db802b1514c088abdd1fa062e48519c1d5c9cde00570c3ec21df11a590,
   0x29214abf7eb38a5a8007f7d9e0de0d0581604f4bec5dd2071946a04b0911e6d6155537e05faa4b927cac25a4c01a2a4b9b21ae9c00e00036e2ce2a123c3240316c5bc594da8b262035ad0874a5dd258ba85f55c6aeb139b9a4a0194d057e363ab578e021eb42add5a96550005029327abd7affcea029aa0bf89eb504e260641f3496e23dd005200570a381d10c0d8fe0,
   0x2af1c83a329e090a2008e1ec8a9756c4186051ba597c83d58a5c6049a405f05f0d09ace05e7dd190abe3c029c01792d4504a7c9d23e0004c93bf7b941b76a03129f46d7d5be4693038d529fd8c4f8f2df0601cc07ed48139d2001bd1238e398b05d30020282d1b663f474c404d7c0a3e94c721ad40285267ea6c2d1a0340652895bf1d03f4094005708cec6b0e8a62a0,
   0x2cd573288196199c8009ecccaae290ccc14054097f72c8dd010e00483a00f7fdae32fba05d27c2a6189873aa201515372e5fed33752000925f10601d33584030dec5a3354a9f81003bf7b748718ce1ace060b6b2b2701892ee601e6614d5631b95ece01e6fa4c8e260cb57804ab8a1cbc5ae9e96402713858dd5e7d66900660db6bd00ac9409a0057098ed30a0872a54,
   0x2edec014a4066200200b1964b3657a4765a0563f0521923a54578046cd25d87cef0ec0805b9a7a7a73c726414012a3efd616c68d4100010be2f23a931f63a0307e15801362cda6e03f22c59992ff1d8320611ead1e96cef0bee021151e6606eed541c01cb1719741adb3bc6047cdd691a2120c56c025f1c428d6e5e603a066d6614c494ac318000570ab5984ee569648,
   0x311adea17df762ea800c5623c25bc647c6a0584219ad572149d840457c262e7132313bc059cc6b6813853d7e2010470c6aeda15c208001bb64e6092db87a202fecc57ca96ce3be2042436b93a02fc35740613f71fce6032058c023c7b4e59a7063d9001ae1cb474039eb6d0044c17132aa5243a660250d3cbba3a6402f806788762e0274dc9aa005709ddb2a22393fc4,
   0x338a69142ae2de7c200d8dd2e7c63ae6e8c059f80970fa881f37a04465b530f4e3d1ef8057bf73c3c5cad3bec00e0d4bb0fce3378a00029d44b1e3b30d4e402f177cfdc6271920e0453dcdf17d4cfcec006109a84429d5cbcea0265f8475185c8aff4018fdd9e6df6b0f9de041a5d0acdf0eca3bc0248264d073748142006827f4f4298d512720057096c35779e158fc,
   0x360b53cf1c8444fe580eeee0e1311b4656c05b92d3e75d77f454604340bd496d51d2e9e055875a854223bde1200bed99ac48aaae6e6003b38de596fb67d9202e4071b8ad606437e04837b318017f81b0c060a86f8dec6cecfcc02910981f2e94bdb4201728eca7e2ca8b65603e6fd574778de6954024096a64e0e3646ac0689dc78304eb28c4e00570c5a0c4abbbc1cc,
   0x21a00b5824c883380007d165ad1683fda4a04941a9526649ab75804bdb9cd11259e5cb2063f205e1ae4576daa022c1fd08410235818000cb357769bdc1c560358da1e0feead590b02cfd92fa517988d4205e3f54a8ebd127468013d7151c0a28cd3ae029c82d3dedc87160c0582c913e9d2313bc202ad8420b992d9a63e05ee77c75b2c4f140a00570e03ee1a9a21c80,
   0x2379379cc75cf8b12008432922e8fe2647004c09db307abb4df6604aadb27025cf11cb4063166aa4bb48dae9e01fb8610d9709665c6000555dd61db636b5c03523ca19de68624250304d7e3ec97b7847205f6fc45ef33580f28016296f58d292e4ac2027a62c5a625155eda05598cce53f31ce20002961830bc3c0206a006081c3f2daabbfc1a00570d0a08c7620f488,
   0x254b64fc3a6ffe256008e93926b747868bc04eb792a46d98ca9d4049608c480e197239e0621e2358f4e9af17401cd7d9aa40e44f60800014e990945282b98034d192d1e6529554e03394a780dfa91b56b0607e1e62d647927a201896b2873c0cad56c025ac294063d951ac2052f8b9c772706b206027ec872920a5820b6061e2553eb5d39e5dc00570bd784af11b65c4,
   0x271f45ac12133455a009bc8a6afcb2cbf1a051499b5b9d306217e047fd2758ec9e03714061054d53acab46ef601a1ad9f35df811b9a000076fd8cb4d8b16a0348c0e10e37f73cb6036d4412ad5a088738061673d69e19099f0c01b1b4186a29f4d2e8023cff4858f5d541b40504933c858892829a02680ce2f02514be2206310f906c3efc402800570ba437b3b3040d8,
   0x29069734bbc3df1a400ab910dcbaa5b6c04053c50e373e2b5c35604689b8cef2ec9e35e05fc127abdf1df409c01773234f1c983bb080002c9973b7c149acc034446edad3e50c50a03a1809823f329869e06227a285793fc535401dbbddfd300e045b8021ff9ab81f7caa4aa04d7c53892ab59203c025245760426fe79ac06418fd586b3958e4a00570c996a749ca2a08,
   0x2b108ca01b15fcaba00bdaf5bcb8d2fd79a056281e9180769fc660450ef471c8a0430f805e46c37d7c385e34a014d9613509ff84d0400086e40acdde2ae6e033ebef8c6f2cbbd5503d64f5b09407458d8062b76f342c86600ac0207938ee88762aad40202d72e6f4f455dc604a8846d801fff862c023e1609d4ced571e2065014955833842d5e00570d9a105329cb800,
   0x2d42bf27243ab8d7600d1a8eb151dc1bfea05866423a05395f7660439b0dd096bdce1ba05c918e743e2ffe458012528dbb52f9bf528001181c06fee56546c033765377ca2d7b2e8040b14ed314ed9a5360630c1026da6767d620234894933e402336801e550065a5f0760a6047703b6219f2fb926022c73a01d52bbcfd6065cb865cd6188c0b600570d83a6c84a79b70,
   0x2fa6ea3ee61bc740600e60823134681421c05a6411fdf418074f6042519e599099e15fe05a9cdde268afd1d9200fe8bf689b522b9c2001de12fb15dffb044032c79665d73945379043e490110727b9e6806311b361d02ded2380260c5b4b44196253a01c6b2e9eb9da44b9a04440761b4b50d097e021f823dba4d2ad59e0667fe6a9bed348af400570c7cc4f19f9677c,
   0x3238f925565737d2f00fa838dd08f3a640405c1c7fc0f3f36bd3204137a1274046400ca0586cbacac9e265c9200da0ac5d45d0ce964002d65636b8fde7b0a031df29fa0cf76be25046f72cde7b8f1146e062c7b786b573d96fc028bd0c49e712b383c01a728f0395c690332041001fd452b1886c40217795f4a0a6c6b320671e573a6e5b0d66600570cb6e924f5872e4,
   0x34c9574aadb42111d01126a6c98a8293c4c05dbfc3c8c43e162d603ffb6efd0ff3d38ba0561c100213fef9a7400b7b793682d02928c00404ecb07710d4a080310ced1dd8a2eca8b04a08babcab6625ae00625c8c8821179725002b8ee6cb75704acde0189d334f9641e84d003dac5633d19df4884020f6663bc82c9b8ae0678569180e5349b9000570da4b20c7530e98,
   0x2c163a3700284769000f737c116f9bac23605abbe7eb44affe19a0402d34550c17f33d005d10e6b52be1c36ba011bf00d4b6ca17b160017694a59fa27fe920364e9918d59ed0237042b84073bec0a750c064cc21fd9aa9826c4025fcb2e31e73dc7c201fbbe84086c343eba0467e35dcdd0637c8401f93c371074640184064b352928ae95156a00570db2b8d41657d2c,
   0x2e91945c3605f90f6010b4bc2759ee6497405c999b5ddf203356003efecaa3fba01ca8c05b01e2119a9ff061a00f62217b9de321f900024ff63584e32c06603580d48b2eafb4aac045dbaaf7e30d6a540064ada7317db2c4f7a028b3c7e59e24c0e3001dc6e76d72ee5903404347f4f3dede946c001eebb31218d72ebb6065629c5414e1affec00570ae188ed4d4f52c,
   0x31155ffc547d45ffa011fe5441712c58df205e38605ad387961ac03debb40a0df0d0cce058d46a577c37fbbc400d3687187fddbd44e003522b022e1c352560349cf4eb2785b4c27048d2f8a780bd2cade0645575f47d40dd09a02b54c1af3bc52b40201be2b057c2ede28540401a25c417a0281f801e783102999eb903a065ee4ab71b99c86e4005709c3d28a8556c50,
   0x338060202da137b150138500f3f9723b6e805fc765a6d1f94d2fc03ca7698801a6eee4e0569799adf05b3bf5200b36f021b828d6d24004860071b7440b606033e6d0f423eed6ee704bc402dd559ded480063ea0cc76bd1d1f1a02e179c6ac35eb890201a35f0a3fa570559c03ce6b95dc6c369eb401df226f09de1eb7ac0663905810dc19a8e000570afa0fe9c705984,
   0x35dab0af911e09da10154a45756035604be0614749cf58a86793603b32e41196c4f61580544450073a4a44ac40095f4605882cb0316005eee1fdce2fcc1a603358cbced4a10657b04eb3cf7aa0a4a401006367665438512427a03100621f60f995346018baa97d1a3245e98039a62db57fdb843e101d5caae2b658061f6066446433298ebf2f800570ba1a94cb95b71c]).map icosaRowOf⟩

/-- `s2/ahrens_beylkin/ahrens_beylkin_3612.hpp:13-3626`, `3629-7241`, `points` and `weights`. -/
def abGrid3612 : IcosaGrid := ⟨239667126793284000, ([
   0x3248bf0423c5527750034fc163abc11a44804872f5047ca06bffe0550e255617e85824e05878c09f8df57c272019b05eb0b1331198c002b31c4ede4b0ab0002592b85573d7f66ba0334633edbb0a66fc0056a83f547ca37a906014f047a5950cd836801a4d03c57ea9212d404d330c0f98c6a6e8c0353854c42e998b7b50674b50acceaa25ab600570eaca09eef583cc,
   0x34ba39753fda9ded80041c239775093815e04adcb88078d8c2c48053f53299591644adc056d770017994365d0016c301eaa2d0ab912002e4dcac269eea31e024bdc9eb28bece72e036b1e19a074aa144c8572421a96ef0976bc0178bcb7ed9990cf66017fa48d5f13afafbc04a13eeec421062e5e0343e2188fe6e9caca0689c216c0c106772400570ecc713e92887c4,
   0x27f4a7d0c32a4d06200327b0c5e32097ff0041909204797db80740556eaef707d3aee2605ec74aac7676dfda40245fd5d4052494370002d2d26204fa355d002bb931c493b8d7d940287df9da667d38be00564cdf64894cfec2e00e2d9ab8b8994d644024b4b437e34af6d90057c2cd1fc608feda0035ac77a4228bb3a02860c9774dbb72c6e9a00570a9da1dd0151638,
   0x2a2cbf5f2bb8b479000337420d40dbae5ce0441e9b884aa918504054ca9edf2542ffb2205dbe053c3b4917e080213779028b6e2bc0a00247f29b2945ab8b002abf7d9bb64627c4002baff5b58954b1bb60573d24a79a74ffc6601030c475ae1023db402226c874a3042d0be05525501528071eaf0034b293576842a2bda062b370b9aa0d7802600570c68db458aa2a7c,
   0x2c78dc9e442dcf68e0037afc2a8d7d686fa046a7739097bc44f0c0540524c62466dc60805c88ddc6a0bcc077401e196b2c74aca65f0001f00e2abaad8eb56029ce1043685b88e6e02ef7df16e5b8838640580f153e98c168b1801261b80d8c8b33a6201fa4592c477c801940525f26af7fddb7a9a033b6c7352453ebe2a06476cea8f6448151400570d9f7a332561aa4,
   0x2ed6af26651d8c3e0003f3c3832cc42ffc4049252f553d7a002bc0531fc6392f6204fc005b276d4511cbd766a01b0be49592ae25b0c001ce1c2b59046ada0028e5671a78b16762e032500ae2bbcbedc00058bec94d59d02e114014bd81d2d09fcb05c01d318bed666dec59a04f739217ff885ad6c032bc6df16f303e7e00660f2be0a6fd66ae600570e589bc7132306c,
   0x31431d8877f536e07004a249574680ac1b204b932febb58f8effa0521b4e18349b97c9a0599a6f73baffd5ed00181465bb3f96deeea001e406491c250ff6602806ef1d3ba1e38ec035b36627b30dcce0985949d9c59a0fca580017416c870bd5fef6001ad2a8c969f27b13604c66291fe9506ef84031c5810e8ac60a0b906778b456244c86c9400570ea87260b03e990,
   0x33ba3962c8a8c3c7600587160b6e152ad2e04deddd677c93af600050f7e3042a0f6ba9e057e3b208b4d49b1e801537f83011021d12200232cfd52eda63eec02734fe665d0b246ac0391d3b9ed74f9038d059af2b7677f100fb4019eae38ee58f71c820188c3e66503ce3f640493af208a80659236030d2c771b737d38e9068aff6bde0c47b09e00570e9d5241dffac78,
   0x36374532a72f0b5a4806a2851b6b62cb64e050327d0f38df8553004fb52157ec0844a3005606051b5c0a576240127b4c420fb3c8d0a002baa9306dc4f10ae02672c089018e82c7203c8913845841f8326059eecb949ab90b36801cb75c91e0c5d4d7401663282d0d51a4b14045f66cbf67cd77c5c02fe3fb5c14cbb23fe069b1d4b95f09286f600570e4185e5b693094,
   0x20c7ca884881c72b8004e6da00f4776b5da03d26f3f469ab1f53e054021be538b1f175206258b1d703543906c02c1253d8c08d43a7200439c4e43613aa92603109c22a31ed05eb0021dfd82e99f8e891e055c73ea8488cd6b4000b2aef2ad9e029e6402cbf68f57ef10472605e0e58a25058378e20351dbc0774677d3a105af3462bdc7e70c900057017ad79fb99c230,
   0x22aed14dc913d2f2e00485cbb756d23f01203f9f29fcb71f3963a053ab05ceaad4287d8061c292e9c70984212029015a585a54c683200345a4aa635f827760301294f357fd23224024b4d5d559003475a056f131632e33468a000caf04f954a01d61a02a4181654dc7830ce05bf17f5bbcd3e40bc0342fc52635f23ea4505d14661d9c14c367c005705129c0c38a9bec,
   0x24b5e5329866c29200044f19f711d70df2804224728b1bd059056053350890b08f103d60610161c48058bb5ba025e2de08ac41c956800277281d4797d731e02f1ab20dcc512ad4c027b184962a8bd13220580899ce0cf35417800e65d0fa9d8990374027bacfe27680fe908059a17f992a88909e00333a2a4a33b99271505f23b16e0680c942c0057087007503689e9c,
   0x26d8df455614b9d9600447e74c9cdb1ef62044b1b2da27aab63960529d4198566ee0162060145540c7b3de9ce022bea9cd6a7a72442001d3bba5f57f56bc002e2672df9eb05d93002ad145fce956c56ba05909d3f6910cb3e280104fa4d2574b6e7c002532d57411d63a7e405720b7d53ad9bb8820323d62f6329c93f89061192ac4b83af64f800570b050a0354285dc,
   0x291520d557665ebe00047272fde8f7c181e0473da0f7cb0e5be90051e5b535916b9899e05ef98d81d05c53ffe01f9e42903603573d60016106642784a170202d3636d1f3757581c02e0bf8a9c8b9ce906059edf9a3c4322a04a01268ddae2cb45bd28022afaf29f77678d5c0547305d9d45d5753e0313ef1d9548b2f6a5062ed8c7f969b5482e00570cc93f69369da24,
   0x2b6779a3cd22d3910004d011c8bf641e14a049c06b33ee09cc786051103c5a39a4960ca05db089f5b661e928201c89fd2238a08433e00123089e77f9195b402c4ad210afe7673cc0315a1a6297ebc1a2605aafe6434bd889c1c014adaa24a02445d3a02037064c800b88ed40519cbe3186860ad8a0304328eefb15b10440649adde061cfc0fe600570de0f490d6c76cc,
   0x2dcc354855097d19c00561a7e4ac8c1a77604c3438d79f621530a0501de5ad29efe4e7005c3a09453dc4275b001988b51b9a8c06fc40011c423f0b3c1905602b65e77c2471a1d26034b55c9aebcff1c0605b4c72a562065d70a0171ab168e4bf8caf601dce1ac13bdc086e404ea23c8a552e8df6e02f4ca25b2f182a6f00661c54d703735a17a00570e6dae0fd30fb68,
   0x303f0e1dbf490af2a00627d26bee310163604e94ace555c6f4b4604f0f0e9f70592200805a97d87f146270d26016a045851b3b2da960014e0ee96a8e4d0fe02a89e13d3cb4d0af20381845624264dd62305bc209667717a7640019acf220fa76a1c4401b7a09079edde1fce04b880049768b8099802e5c926942c2cd6960676df1d7004176b4e00570e8527933879fa8,
   0x32bb28ea493a47fe800722eb11c85925dbc050de78eaf374b3c2204de395aae85442c44058ccb30313368fbc2013d5e47da2a4caf8e001b8de3ac99045f9c029b9d46715b11411403b7dd609c7d9f2af005c104fa165bccc1e401c618d77f7265b4280193ff154a16da954404852cff09ef324ff202d731c8e473ef50160688c44e815ea580d000570e33009c48f5ed8,
   0x353b1e866a3904ba1008530acbce18a66e00530f2ff76e5e0ede804c9af1abbfea7c220056dc2b739c29beb6c0112e43a9a073caab80025c4f71e2c680e9e028f96c91a463c524c03ee16c5a05eb73ae605c37fad946ef1025401f35b5bb8b45efc8601724ff038bc5f02fa04507bde5838be9c1a02c8f7bda2a2c3180e0697457f56869eb00800570d7d0f728d037dc,
   0x1af797c82f6f1c60400767e0a31bd0768b6038a438f3ef81ba1ce05270feab30b0a744c0646753fbc2ee0d4e003366b60c74d7be8bd006b5db4da329ff396035996af118dfe427801c17a2fc336d03a0c054430f34ad550450a009244a93cccd19f2803418bb61ed7e36530062e6a46c978c5e8f203515be79c1e0b95bc054df6df15a53c07740056f9c691f964495f0,
   0x1c500f297c34e2c3e006d82a3c7c1b2349203b2a3ccaefaf9b19d0520cb2f8ad17ecf3a0646022830659c3004030836e6607c66dd3e00569077ca3e4f152a035028311bc964670701ea218eac48753420055cddf79cda08de1a00a5d7a99cdb5ebf74031f29125dffca08db06150309729c01c814033e3bfec7d8c306c4057012615d6e8e611a0056fbd38b86605e7ac,
   0x1ddc1d5f05b8ffd140065942cabd6863cd003da1c2debf97eb17c051b1fe1ffbc4245540642252a2142df287a02d974648108c5bf3c00440fcd9ef62ff76803445cbbf0bb7b6a2c0213fd2b07745fce720572df9623b5685c1a00bacf60ae91c4a8e402faf8c38de91c04a405f8c131be707fc7d4032d2145c5451a226d0591df750f57d6f6d00056fde4351081104a0,
   0x1f9b57aeec8db93f8005ef4924a3c4eabd00401327447c6e21eb8051593bb9ae715c052063aec097cb76ee49c02a9cf5a91c8eafc920033cc1c1fe20bb7e203368400ea95d38919023f8a443e0f7a4f2e058690fb1487f7570c00d1a1f58b4b03d69a02d4f7d0bc232df08005d95fd94e44c944b0031d87d18d174b4e8e05b3699506500ddf0a005701b7083bce51988,
   0x218394b8a0fe4123a005a7f50b4a9278a66042936eda45630a3f8050e9ac6667913b04c0630d47da1fcca77e60278ccd33eae61973600259c8f8bd1fa47640327f7337a48081363026dcb75c71b1b5d1205990fb1cc5b783e2600eb76e253ca40d2f202adaf9467858ef2a205b68cde8f3a514fd2030dca709f52b2add505d475192e715a3bda0057061f1a547c0e2c4,
   0x238f16dc4fa8611e60058bede8b7d8f412604522642a14af3251e0505aa46ed645005ee0623e29224f7b95c160246c83926146a0d680019d6764666f702f2031944d5d4175eb0c4029ebae83c8a6bae7605aa5c29aa0acdf91c0108a01e0b540028100285b0a16b2b02333205904e5dbc0b5d0a7602fd932064ce04637005f473eeb2515943760057099ac35cf3a8da4,
   0x25b977388a92083620059f00fa689afe4dc047b476730d1f96db804fad7c9b93847b41c0613f7a8fac2eb30da02148d4416337f5d7e0010f1c89ea2b51c22030a8b1dc4eeb115b602d1b27bbdc6fc25ac05b9f118f63d1e378a0128dc94f316c489da025d8b8b1e1a7a26380566f81653eeb4415c02ed4192a7400e5db60612c2960dac5721d400570bf3efedc25eaf0,
   0x27fe597be93b216d6005e30ba9e20732f5a04a3f54e5d8d21590e04ee4822229d5e5ee406010a47e1d56628c001e2cd966b7f70f188000b43a16ece74ca7a02fbde67a397ef7084030612fed7aaf0631e05c762a26b069b100c014bdc54effdac23880235baaf9ad16f5668053ae68fd90ee60ea402dd2f33c346ab9b4e062ee0d5a3cc959f8800570d69ae2d5ed3a74,
   0x2a59605faffd3b13c00659252331d17ba0204cbbb7b52c404eee404e011dcc7dabe73e405eb2634a909616c4801b20fbc386e6bad480008fec8b10740daac02ed5bebffc88f3eb4033b60ae12babcf0d805d2700e61ab7ea17c01715da9276d5bc990020ea345ba84428c9e050c6d8e63c514d29c02cd91f2c4a300ca28064870bd3e40d962c800570e3380b05c969a8,
   0x2cc5f2c7d88c814a400701fc8f9c5cb350004f2474e821957a3b404d03eb2278c3bc9b805d267f2a8bbc5ac060182beb860838f9cea000a3ead8f04dca47c02df2b20c623a6e1060371374aa24903f7c305daf7ebb70d664e720199296134c04a483001e89fd3cb447e2d6e04dbdca5addc9d10d802be847cb79dae2434065f2965cd47a96d6c00570e722f35ba34980,
   0x2f3f1ad779e9314d4007dde8a5e28fe2ba405175b44a69917d58a04bed07ae547a915f605b6f9ff71dce0468e015535aa56ae497510000f0ded91c45fb9ea02d17beef3a7f48a9c03a73f0e8cbf2cdc3005e0ee78c6cce18e8601c30c975bff8d8f7401c406472312e7ff3404a98457a147d3bb2602b00f39c73d5042680672cf24af82d703ea00570e3544aaabd7ed0,
   0x31bf874c36ceb8401008ecdc7a6d74af004053ac7c58236ec64e204abc55feed9aee73a059912e1c04dfef8d00129c55d8e90ab66cc001769632a6429271a02c4840e8ac75fd06a03dd26ae9b3c41e91005e457fe431c271c8601eed48dd03d2b8bfc01a129c20b03cd2fb60475b895408a6c3fb202a22e61048e93939e0683308a94b2b14c1c00570d802f775c49ab0,
   0x34418d5f63e09b08600a2e7145f12c334de055c699b7ef96cf8c0049718296bcfec436c0578f449b1e2a58d900100b5a83836b05f8600234171b74bb1b84402b87ec334977ec26e0412a25c494c0fe07405e5475266a503fe9a021c4e7259e734b10401805b4adffdc1dc200440d0d15d48e88ed80294d314894fe3c16c0690252a0e6b6f3c2c00570c4f232ff3ca654,
   0x1e52f1da98e31203400731397d5f11fd0fc042c2b45eb3799af6604e9785f16ed4105b8064ebed6156110e8ce02978670932e3f70e400283f46cf45b046e6035e75d30ef446ad18025e42afe452cdff4e05ad6042585d4d6ee800f10df1de1f5ff64c02e25ac199d9aee29005d2a3c4a04679119402ea4908a1994d20e605b2470a25c6f0b51e0057056ef2f63eb555c,
   0x204c9b6ad536098b6007010b78d6145ed460456240def374d4bf004e0afc3cd0cf133f80643a729cde8b292940264d6376551e46788001a975dc35291774a03505b467eec0e7616028f167b98ac3406ee05c075e2827478e758010d5ed0d62bf4dba402ba4f912f6098c51a05ad9b747e5d3cf03e02d90fd5f10516aa3205d37736dfe6547fe80057090b9d38ba16778,
   0x226713403d10625fa006fe3382cabebb4ec048035272473136e6a04d6325b4b8fbe056c063583ab45013cbe7c0231ec0744b27bf2c8000fd05767702316b203420a48954f3e75d902c1e48d3f9bbb699205d1b8954c963bced4012ca8e3af854c851c0291fee809ee4491020585784ab9a042dc1602c7e941a09334bc6805f30ae793a4e773d600570b8e97eff525878,
   0x249e7c2f1213b46660072a82acbb22b3f2204a9c1e21cf2df9f4c04ca23de9611b21d4e0624476aea76d4ab7401ff6e87cfe4af2ad400083cf4b056bd4e72033392fad9cb15dbf002f6183413c7eedf9805e0bf85d413d38ec6014ea23bf0ebb306280269d9bdeb401d031a055a8e2dfbebdbc3f802b72c29b9b73666ce06108925d6a6a7bc9a00570d2b48f017b405c,
   0x26eecd5d880fc68ae00786fd76cac879d6604d2561d45df1eb04e04bc9d3fc6a85d9a14060ffa9b4bf64b646201cde0fb8c88301a540004107fb2e9a3ac2a03250dd7dc44e9106e032b383d88264c41f205ed47ff301091649401730a021c6ad874e202424053464b140b90052d2d16b5fc766e2a02a711332cb89a26bc062b96c230299262cc00570e175c5b1cd1114,
   0x295397a33ccc9499c00814505dbce05ab5604f99e1db5477e3c0c04ada9b711d7b7952005f8b75e8d1af43d30019dadedc65e82e448000367a215f46d236c03169fc98c8b1000f00360e0c7f709eade3585f72e689aee71d21c0199a924eede015f78021b8b518c381b9d0604fda2e68cc7ffd9460297b54d1920c863580643eb39eac14bd12c00570e72d6754bb6638,
   0x2bc805785bbb8d0bc008d2ce501302ed954051f5a1c5d16545066049d4d0fd12a24b76605dea5fad2268acd48016f313da2e09080dc00064e8a2de5955cb203087644f6f8cfa69c0396b9284dc46f3c7605fe643b6c7d74ae6801c24c0bae9dffad1801f60f98762b2a15e804cc3f4e5158e5242a028923ca1455339e0a06594a9151e28f203600570e4c732097acbc0,
   0x2e46f04e34340b29a009c253a6e80382dd205435678dfff6404d2048b897061e4061c3605c1fa45016239f3040142bd33952a5f23f2000cc3c35dfaa9c7de02fac2e4938488394003cc6db58d85ca724e0602e9981cac1e297401ecbda1619c23ccb001d21eaaa5afed717c0499560b138d9f43aa027b5dea321b6027e2066b834e658580089e00570da5b0ddaf3111c,
   0x30cafa43b864ab5c600ae225c841a5c3674056567653a534b8466047863a65c77ce4e8805a2f20075d8fd2a8a01189c945deebdf9020016b93c677e58343602edb7c21d956f79680401ac75be172d9dce0604c997fba4b54c560218c406c573b9b89c01b005b47a8ac1fb4004653ff2d2ce4fc4cc026e5fc959cd070470067a6e70ba6d2fd2ee00570c746471105a18c,
   0x334e9307e891d1a2e00c31022b2f42df57605856a008dec244cb60463e1eef5a4479e880581d47f083169bcc000f111df6cf45b1c6c0024149489900bd50602e18806dec7adcaa004362674091cf9249c06041ac0a99c45b5de024621fa3b1e463a2601900d6d96587d3cdc043059e5bfc239476602621f5751ca0df0b00685ef54a7328203a800570aa6bfedd0a6b40,
   0x35cbce4a91105768980dad849bc9b0fccd805a34b5b4f09daf780044e027bab9b78a66a055ef3b3f096c0adea00cc54e7d94b529c7e0034aff7b05c1bd49002d66f62d0d3e662580469961b03f3fedd3a0601040412bd66004202749eb823080cb3a601727d39e58a467c5c03fb018b054d20c7ee02568364817af09e70068df13c1e47699dea0057082f529383aca9c,
   0x2393b4aa595d87718008e9319a6f14f211604d7012e90261559480497c7333c5baf8d120631caa6e5c3574d7201ebca342b67384c7000030c445cc77f32d6035d0125b056bc6773831afd93e32d064bc606051051c41cad3c780176b0d8108faa73b4027751097591083ab0054c1a8aaafda3013002819a519ec6bc2670060b6bc6f023dacdf000570e01b7b5b6c5d84,
   0x25ee9b9293284887a0095d1a6579c442cce04ff34927ddae397200489760dde7e6af752061c1b76e90f897eaa01baaa2a63fbdb5606000073d866a8f5037e034e9082644de3a907035097ca61ac2890ab061081ed07eb5e2180019c4bd00825ee9a9e025007f854ef2a7f56051d92ecd9b0d06af20271ae89a3e445ff2206254e057ffb64760800570e761a434e91e24,
   0x285c1c87a258efdee00a003b72b90eea57c0525c51f862e5d21680479ef131d5f0438a80603804de2b371a698018b31a0fe3c2b5bee00016c0a76f9f7ae3a0340276a31e6763fdf03865d6fc4e7976f46061922671cb8038dba01c3d48f20ca6acfa20229c94db2d322533004ed223163a01dc61e0262c0f3919be1a230063c5797c72f775a1000570e686a935c0279c,
   0x2ad7373c6dc3a607600ad26b9d7c05db814054a7e2998fd9ad5de046935f36adca8221605e82aeabb3a938b7e015db26bcc820d64040005f461db9067e5e00331f509b69d074ae503bbfb19618b12a7b2061eeff101bb76231c01ed15f0983018a3540204e4c3c8b203363804bb1aa4cd4f8f7e240254d4f541af11d12e06505782277c58df8a00570dd8e139b3d91c8,
   0x2d5abf562ed4073a000bd2c9cae9cfa27f2056d2ffcbc0b94837c045754569d8b8cc14605ca568f62590c4b640132782c5cb913bbde000dffc2c7d8ab273a0324269134981c894f03f11c73b410ce69ba0621f1aed57369b8180217d324a78655924c01e1a506437d62d5000487d504713e5294a40247ec1c8b3a5c2250066127b87d393744c200570cbb75e47d1ef90,
   0x2fe17d27ad39fdbfa00cff8185052f3d60c058dac9ed941b261f204445f1db0437eaea605aa4733bc6f33a4cc0109c8c61918839896001973ae71707911260316e2b130643d7fba04256982ecdb40db7406223538012d9a8b700243c3b26e54415aae01c04d2ff7fafe8e500453b1b28405f49fda023c0aea6a56490086066eaf21ad2747109800570af6ad008f29230,
   0x32661358f0a67cba000e55ef905e796917a05abcc35533ec8e09e043071d4260f2f68a405884b11cbe7a39fb000e3e257500be1bed600282767944bbe55be030a4d6ff57150312a04588a13ad62d48460061fd243b603746202027097020b2c9d1df201a119e8c1a7ba12fc041f178a981e0d8182023133bcbe057d425e0678e16e9cf00e30d80057086d1c25c615a48,
   0x34e255e9c2410817e00fd3abf16eaea905405c77ede7dad2ec804041b950c52f21bc50a0564c065062766566800c0f733a05dd01e400039e535a06a016b7002fe9e8940b466e6bc048a34072b48e8f7d2061af93e5897dd5b60029e077941b9461b0a01844cbd16deb9432403ea6e98dc51b8b2d002274df24d39118e8e067fb74ff4416074a40057052773f434e598c,
   0x29f520861f55438ca00cfdcd92011ec6334057383ad6b34f9aad0043440534e1bdda56a05eeeb8e66e8d28972014e4d3087f291a2c0000928cdf7b7b3df54035b6bccaa9cd4f33d83e0d44196b1164c60063c7697ab31d83ce002194fe0868ec371ba0215013bb04cca26a004a880fd6c98c7c36c0221da61a7a227ec6a06446765dcf2ed37d000570cfead5fbf0ca60,
   0x2c7b761a8ce9f29f000e0b1ad4969eac93a0594ac03dc4a82e54a042289e4b57db518b005d011db08804ae26401247ace9db26f140e0012ae3434552e09c2034d66ed758c4bae0f04150da42cd4dcfb60063de3a04e98afc2020243fd9d3441c6ef0c01f27e47b2c72bebf00475293545bb2b22b6021606585857ac16260653d94db56a4e166400570b511f9eb34bcc4,
   0x2f02bacee737699f400f3ecdcf968ea039c05b3493727f82d498a04102c9f68fb8f6efe05af2fac3591e98b5600fd6d947bd1751e92001f6ed0e299187e66033fbfee529ce98ef20447fd90997ce7d4d0063c7c8f2ad4d2477a026f5b6d2e335baf8601d1eba092a146a3c804415b5e759646a02c020b8ab7315478c5240660193bb495d2b888005708cd98a3ece5334,
   0x3184cd37c1b935fc6010944e2357553bc9605cf2c6770957055f803fd5d1f0140c17604058caaa3c060c0940400d965c1466ba28d68002f2849012bf62bac033292eb19782a3aa1047936571923fc6baa0638633bd29288042c029af81595637c81a401b3825a7ab50005e8040d9a13219d9661bc020273173f558102c206692ceb957847cbfc005705605a8b7fbaf64,
   0x33f8cd51bebcd55a401209a1533e4f776a805e865b90920992b6e03ea010bfb84a14b8405690a74117038767400b8937dc44d44416c00418d0cd90a50ef92032647ee68f745e5c904a8743e7a6d31ebfa0631f57db4e0ac640e02c6962b05cd001b000197a0861f27eac88203da630bc7a0dd51da01fa75317ddc855622066f0a2a28475076f2005701932d70f2ab4d8,
   0x3652d4adc17559311013a27c773f866c09c05ff6688e89032983603d574e42319cafae40544ee86409e13f6b2009b0c9b8ddbadf42400565994dc0807ac8c031bb9b2d83890c5f404d5c61e4c33e5e47e0629dbea2b26ba62d202f26382e83a5044c2017edace25cc0d083403a80fa18e3190515c01f2c3c76c4159ac2206717ed22f4c13ab840056fe7bbdc4278c0e4,
   0x3098fe2e7b82a2e88012de55e053969e49c05eee627cda302fd1e03cb509bb89ad6154c05901487891678a58e00d26b152ded964d4e00385f3dd7837eaaba035a9d4ab1f1f879130496d3ff80db666384064e1ad87f73fd9c9402c3e8cac8c897a7d801c7f1355ba381873003fd687232c801a29401d6187e433aadb29a0656da28a9dfef126a0057012832ae85369d4,
   0x32f429d37b6f71ef301443afd97b4ccee0c06059c0fbdf9c955ae03b98a3d5f1e7270fc056d6eb5f38d748c8200b419034a2207b0ec004abc2e90da85462a034e4d18aee457697704c2f3c0e4fefc44dc0646ba301340bf329202ecfba37276649bd801ad97d250fc4f406403ccb96f95a56c6ac201cfab772f15e4f010065bc9b240ba51b8040056fdf8931dc37bd24,
   0x3531981b905ce227d015d2878e34b64f8f6061ab72dc010c76f8403a5e526dac6324c49054a7efb1f4eea86de0098ce56d3bc64933c005f6c8c508c5636fc03444ad9263c657af204eda66653d818524c063e2df808578b2f6c0316c71f343f33b04401968a43667b735536039cbe655f8df8660401c8cfb6418b9fd2a2065d3fb9be790faf980056fc8c1224c79a870]).map icosaRowOf⟩

/-- `s2/ahrens_beylkin/ahrens_beylkin_3792.hpp:13-3806`, `3809-7601`, `points` and `weights`. -/
def abGrid3792 : IcosaGrid := ⟨213447480094988800, ([
   0x2fe6ebf7a479928ca00300e77b3fde139dc046d92c9e8eb0c095c0555e621323343aa7c05a0ee8101e4ada6a001c146fddeeb0442e200283c38fbc0d14526026da05dd984a4c812030b1672cbbe660582056a60133be720acbe01327268084df34e8201c9193c972814379804fc675fbf881cfdbc0356b4e78ae71d14a206601c503ec065cc42005706b1d7a10954628,
   0x3263f9de50406b8ce0037cb610dd7a60330048f430a64b2ae2aa2054b192eacc26cc7e2058742e26cf73c5c6a01948186b8eb77e66e0029f47519a61d8992025bb1a89e70f85f9a033ca42f3b3a50bfa8056f54abf72a3f6a880155dae4a1fae1b43401a25872ad1d00787604cde9ac7ba3445cdc034cf80986279ffb970676ff9e351730f284005706df71e05c6cd90,
   0x34f8eb791ddf3fd01004243db29aee4d19204af471ffe0e9f8e46053f627972f1a98074056a7ff082124c8bd601692f847b940d9e30002f2eda359f69277602496730cf63475d68036e6ed1b2848b3e930571579487a7bc53b8017b195f57501ece26017c44856fa389484c049d5d4522528e5e5003447c80bbb752be6e068b4cfe94a25f2724005706f50b5e50079b0,
   0x23b222e30ab984aea003f7fae737366ab7603eae55f1c3f51b718054e64d500d13ea4a4060ed44b9d2ea7afd002916b44cbd544fe140039b75bfe755aec7a02eaf75f34442473b002447d6453752eb6b6055d885d9898e0cf6c00c140203e56c2d4660297339740d350a4a605bb1083a9bdd3f930035a0164b994538ce105d5ed9940b2a65bbc005705bd8a38c3f0a3c,
   0x25e24dc709715569e003a8e1d5d375b297e0410512c7015a51ede054a806aaa1ab6b85a06008a707d0a78289002601c9fc52a37801c002dd336c5db57013802d7bbf2fde3e9520e0272bddf8e78cb86da056bd4545f5871294600dac7c85993122016026cd7865c863ba8620595a603dbacca7ee4034ec397be7c33c38f05f774fc3dd271d738005706766a1c83d7dd8,
   0x28220a2fe1e290ab80038866d4778ada4c604356ecf219a9dfdb80544b4a1616fdf1e6e05efe9f798510729d2022f7728c941210a8a0024be8e1c16aba42a02c513ca036bcace9802a222273f06bbeed605787e04cdba73eabe00f6d0c261535fa1e202433f07f4a3230b26056e153589885f666003435b169b75571be20616c6d5a6ac931c26005706bbb8e8c49d3a8,
   0x2a6d5775a3d110d40003978531a4c8d832e045a09a5ba51531f7e053cfb4ab92eae472c05dd0e92609a1a993201ffca53e18fc16fb6001e8c9d8a2d528d8402b32a4a9e88be03f602d2647c6a3c133b0a05837605594ceb830a011539a86820bbad02021ab60971aefc656005449a5133c058fa9c0337cd95cc5ee7c8720633a8559722177f14005706b22b9b0014844,
   0x2cc87da6eb31231b4003d38eaea83e7ed24047daf00dd835c03c20533c59c84cffecfe205c7b2d697a26fff6e01d14367d706b72680001b693501e5afd67e02a18f26a5c86dd42803033d1650a4d00b62058c4a8e4f5ff4c0360135bb9b030b21da4001f3131dbfa4ef24bc051936cdb17ef15002032ca75efa6c2c28c3064e180285f570ec0e005706aba5b812482f0,
   0x2f3a7d9da3af9536c004392e7249083d408049fdeb5d2a9d7d8ae0529a16bf97ec32fae05af6f28cdbcc0b10201a401959182a33798001b8beab6c7b84448028fa57515ef5a6ca003346bd29c4f8bff3605926c61295c2174fc01580e05ad13a61cf601cc0891ff4b6ec75804ebd245b718d50bba032298a21a49574f5406662386efcab0eff2005706ce4bda75367f0,
   0x31c3ca5203b868939004c7a882b399fe69804c04e24255be52e5c051ebfc2f84d660fc605942c89050e917bfe01783a03bc0678cebc001f12c61de331fa94027d4a7653ea4762960365b447d36f71298385959f27b8d7bea0b8017c044f66e12d108601a5a1c5c95ce6bac004bc83d87a8130ec920319e4f82929ff5ff4067bb14c414b61568c005706e984aa30fb42c,
   0x345e0d8aae867733500580fb6c67830ff1804df0455cc28ea4f340512e3f71fa2eeec5605762f36325d9f883a014e238e9aa96abdba0025f4be3332dc3cbc026ae2521c77e66ee80396f35247880f8c41059611694f87ebc2dc01a19c7922fddc8bf001803e872deebf9880048b8b6b43d478996803124a213fbe41e965068e8bb20f6def53f4005706d65e0fbf9f8ec,
   0x1b26c947761e3500200749554bc121073c2038631537a039332c7052b8dbe785d1ec5740643c4a6e8ce8e49e80337a5ff1b90480b30006cc4c943de0e776c0354fd60c882b4b65701bf118788f85524600540033d0227929628008f9981e183b7a2e0033f768a93c44a1b0e062e3dd0b41023a26a0356b7a7cac77826c0054e62771602c7d87e0056f8a7b73d2113030,
   0x1cd0379aaf9df9f3600687d24fbc4aab39003aba0ee9412283d47052ad64143e4d84aea063fdf592cf71adf54030854797e86d651ea00587b8fe3f43cd1a60344ffe34c5ddb8e0201e6e980badda199ac0554bddd6b99080ee000a0bfe39ba87b1b220318560e9657442a100613358476f08367da03497693cc7a2816a105731a94fb99167bfc0056ff42677338374dc,
   0x1ea9cbfa95be95eb0005def003cafd7508a03d1bf85b6ba2573cc0529768bca673f52de0638fbd8f05172926402d76df6d2b4e3f7b8004607b16eb892185203338e3e50a35fe55f021149ff2a06557d3205680b1a1908f0a99800b46a9c4914cda48802ef5545a0ac29485a05f4c2e0405a3bf7d0033caf5b5bb37ddf0d0597d976a4c37ac6aa005702c643afbecec1c,
   0x20ab2b4fe3364a5aa00555d7acd34b5719a03f7b3961995ffcf820527555cdb4b9b28aa062f09ce17fc3bc02402a608b051ed8b48d6003609515eab5be42a03210aae08d30720a7023d6399f9573e011005795a6b44f8ce118000ca604c9be371b3ac02c55cd9c076e4d64605d35bf9cfa01964ac0330abb5e13a10a49a05bbac581883b0f82c005704bc3f3037ac79c,
   0x22cb1ba91650b4942004f2b535b61d97bfc041d402a3a7791e65e052413ae3ed594c66e06223c7092141101360274be4a320b5f74560028c12f3f76e9a8c6030e0b2911180090ba026ad9b4084dd9c1320588a5cbd1a953426800e2a4be9d909176ba029b286e4df64f5ff605af59b5cef25fe3fa032534a165751b748805ddf73d9cef3caccc005705d67df7b67de24,
   0x250048c68ed6825b6004bb0923284451c5404426cf85ed20c98ba051f384c6d254cf9ce0612e2e071bd9e29aa0243ee5d510cd6e95a001e448806a5c7442602fb36d7c7e3f945fe0299831cab091c5d14059622e6db1f7ed88600fd54e58919ea0db402715a677ceb54c1880589067026c4f98cca0319de0a9a4235d9b905fe48a9ef996f92880057066c14f7f60f9c0,
   0x2744ae6a87006dec8004b1e82813b9d72e2046732472880f6b052051881739420a8f18006012ff662b7ef3a980213de86e12e48a1180016a15a261b4ce8f402e8f1de0795a2ad7a02c938adc4aa7bcb1005a1ec630b7b6e8020011a7706723e59b1b002485baf3c4e994370056099c79770e5b824030e6ed3c023752740061c571fe043b5ba3c005706ab89b769a2eb4,
   0x2998e3c164d0a2c50004d67d192064ce342048b4454dbde283664051022b75536ea46d605ed0b4ded0e0d993a01e4c33963bd04d9fa0011f5aa9aa46d86d402d71684a2b6707c7c02f9bdb8e4c3ef6a5805abc45b1b0faef9b60139dd649a24aba4ce022035605b1ee44ed205362a29a576816b9003032d1e0de704a98e06380a7154b72895a4005706c947b2c3eea90,
   0x2c016ef22d2fd96e400525a584fe45195e404ae25f4f4b9ccbf840506999f340af09bb405d62cbcddd294ed5801b6ce08b0e4da8aa800106ddad5afb3090602c52a7a5158fc9ba6032ac1ab35f554409105b330d8c161e5de74015b3734ee0b95c88a01f8ba862b19792ff00509bcc8b7931181a202f8b1dec93b934a1e065162f94c66d342ce005706ed5b890f0735c,
   0x2e7ff4c272541efec0059d0158bb459e85204cf6362ac9b86832804fc46ed101488e8ee05bc6e36f2a604520e018a43b8c803cc513400122d2e9029cefb2202b2e1b1a1fc743a60035be843c176ddd34f05b7d2cba5f0afa676017e33f660676b7e4a01d1e69fc38e573e6404db73251437e76e7c02ef73a3420c4e2fa806684db4e052256c1600570708117c39251c0,
   0x3110f8b634249afad0063c410e99bec141e04eec27a3994bf97d204f13a7b7af47de518059fed6190f38dbc24015f6dad97d87b1e0200173b75a36f8219ac02a054d79e318fb7d8038ce50c3c205b09c705b9989799fef934c201a2a15500a657991401abf648de04e5187404ab8ed2d0c6e3045602e7871a037fd8aac8067ca05ad82b537cea005706fa275b9a08348,
   0x33ae1209cf2d1339a00705979b533649b10050c5f58ebdd9fad1604e52a145c13e399c20580f44baa09cd93480136734de611f56fa0001f8768130e5d08b0028df12a82df482e5803bda65cb0cedd7ca805b8c1621214f7753001c88a26228e12b5c60187455f8836fce996047a4880af61824e8602e0975ec881ddb6f2068e2cd26b939946d8005706d0098d1682c8c,
   0x364fcecb14580ade0807fec8461c582d9860528bb9fbde5654da804d7657f4b80bb6ff2055fdd48d2938cabae010f43c83b2ecb0aae002af5fe44a3a1e954027c6d3257fb25853403ee7602f148567cc405b5d51ba8a5722a6401f05503262b1d1e9201643a4e5850ac134a0447aa64d2e913522e02d9e3849c5b1435c0069cc4842d0836a530005706b63c69df4c0d8,
   0x1d94109f4f51897ea006ec8afc5f7c94eac040028d663cf50cf5e04ff42dc92cc68f560064cf191d1502afb8c02bfc4a2a75ab540b6003717b2def03c073203585da6baea0a4a3802335d5473eb129ada05911023f8c9f00ef600d3e3ee6661a2eefa02f7759f8e62426fc605ec098aa4c8633984030940505d67f0157a059c0f181a3dcfc4be0057046d76e64eca32c,
   0x1fa348cce35633d1c00675193de8e40feac04269b4cbac441ca7604fc4277685fe6182e0641e623edd5d21454028de1986c75ddb4d60028031070935d5b800345db1cf0062915710260a33d5249168fd005a1ffab5a6e7d0e0e00eb41c24ef9b525f602cd301bda70c1580205c93b22d8406a40ec02fcedea584a36ad4c05bf812946c63de2a4005705a16b3e731dff4,
   0x21cd05511c796b690006251c386fee8d3aa044c4adad6059e6ea604f827e73fea0a4e3006340b97606dc7c8a6025c8b2f1b0f8c08b4001bd1b804380dc3ac033300c00b0ec6928c028ee2aeb7594cb18805b0ba4c68429b40bc0104bff7fddfc2325202a30b3a9dd667004805a41611f33568450802f14a4136cc34050805e116273991bebcd600570656a954e06a92c,
   0x240a163ba6c11412600601717cea79fa9ac04716bbbc99c9cf5ba04f2768a744b8a34d40623a82c3055f085ba022be8b332e1b34c7c001284fdda3f1ea902032062a9229fa6344802be2478f983ff967005bd8bb9a7cbf9725e0120941ec77dd1cf9002797acd274a344d26057cc05035007e8b1002e5d9859d45fbaab6060085ab618a3d2a8e005706c59df495212f0,
   0x26584976c2426bed40060bc08e109bc89e00495fa4e73e1aab6c004eb0fec7323daba240610c9f2f19153acfe01fc16d3046ebf996a000c2941730a8303f8030e2960f63d26394f02ee5c49af87ea268a05c87a662486d7c02c013ec6f50a8e43bab80250a99a726df91f5205534a2c6dc226957202da84e898fa26984a061dada00aa79b894e0057070e1804539537c,
   0x28b98a248735b5dfe006426f6a8c186e8c204b9a29f90c294324004e23c3e625809357805fb4af527b0ce228c01cd42351e332e16920008dd3d84542f84fa02fc1550f4146b23b8031f4da3f0212f59f205d13af92e7334a3da015f234238b8d9b73a02288bee42a0857a5a0527c192763ce8792e02cfa79934b0160dd00638824316bcb38022005707448319c840df0,
   0x2b2f5d9fd0b2b5db2006a2bdd99c360879c04dbe8cd7dc047927e04d86491c9d4560a2e05e3073ca0f492ca0e019fb54daadbbf83240008c2cc4fdcf2bbce02e9d67f5e5a096a14035092dfd6833a7aee05d76aa8ed32d306c001814efef13f504e4c02011e5ef4c22d7fc604fa4f1c375cb6dfc002c5bf9502e5dae7a60650f0c46b36b39cac005707659fe84cbff20,
   0x2db82c8f5ad24508c0072a868f0488d0f7e04fc61dbcbabff289004cdd24d18d421d71405c8037d1670a22cca0173c8c9494d077388000bebc7bfbbc7c94802d74f4b2a5b453c480381be19026bcf768105daca3e561f92238201a4f108af09dcf1d801da856a79d9ccb9be04cb399c65ef29c2aa02bd214acf9f3ee15e0666d78e082236ffa4005707604e44de7c88c,
   0x304fdaf2d9288c0ec007d960405bd88f06a051ae226975f8b1dc404c28c43c8e8a8f52805aa6ab5f179edee7e0149becda5214865aa0012545d7b0e8bc70002c4a41f1ad98cc67e03b289189c60cf7e3505db5953c265ecf1d401c9d9e936102ccc5a01b500742fd0458f14049ac70b0670a69eaa02b5d1316d8fa34528067a11cf83ea4a12ec00570737c596ffc34dc,
   0x32f0e8f71c3819886008b210a19f9fd0f6a05379c85380d1a3fc604b639f6ec27c8171c058a7d9ecd19e34cba0121a7ecad27379c0a001bebd3c1dbda811c02b2420e0ab5f65c2403e2feb6a3ac9ba62205d95f54762f04b30601f02bbe1d8b0ac0e20190dd2305455a5b2c046918b3c7a947335802af6c73aa74cff264068a79e147d6f856e20057070c06e99deb74c,
   0x3595070fea653ca5b009bb76664312a08e205531ebee198176ccc04a81c6219002e1e88056882c1fa38c5024e00fb65e6d28af3a1920028a5005fa3f4414402a0dd8d820c050b3004138121a5016690b205d55f78c3e87696840218672464de21c67a016e784cd71829693004361d814f44e9604e02a92bea3602d737380697de861e3a5b8b54005706ed5d822e73614,
   0x20cd69d66a3788ff2007885fe65b0a3300a0479422e7580edd8b404cac5cf250bcf6bb20643c352a4701b0a16024703b51ee288225c00125ce6e4e9b2b6fe0358ecb62dc2d42b7a02b22334d06476115005d63b7e0f93bd661c0128427a7e0cb68fb202ad2ccc9fa97882fe059803691656bf52f402be1003729cec7ea205e0ab62be2ed32bfc005706fa032adea17e8,
   0x23155c561f4328dd200776b3b0f1f6d7a62049e64f095bd2f9df604c4606257c1e1976e063243ae9d69329d860216619f2e379824e2000a2df4eb361f412e0346524ed02ab62b7002e21688eb36f60a7c05e25e6c04edf365b60145364aa49564df2402839ee55220e65e16056f90451f5f62cb4a02b29bd7531b26835605ff68b811212735640057075dcb4a5d484ac,
   0x257078387bbe9fe4a007928aa564bdeaba004c2c7e311a2e9dd1204bc6c7b17a6faa95e061e24a2c70933fcc801e6a2725bd89ad2de00050ac826e9bd66440333f0b240f728a1150312e900f238073bf705ec6bdab185392ed8016476105c2ebd4356025ac0548b3abc183a0544f445114cc76c9a02a77b1d71e1ccbfe2061bd7c34cebfa8670005707a8143a5a110bc,
   0x27df12bb8d36e69ae007da53624a6e3e14804e610c5bb15b7b25e04b32d2a860708e33606075287306cdbc08001b804c7db2f8d5ef600030dda9128a43cac03219b2278b5d5a43903444c82a064e816c705f41fdd0116c2375c0185c2056fe071ef0a02329c236eadcd1bfc051853882664d33ab4029d0143f4cc7050760635e15564bed69594005707d46cde3fef430,
   0x2a6049626177eb80c0084b523ff9ca21c7e0507c6c8959dd13c8204a8fdd95598e80c0c05edc9578a0660fd66018ae3ed8f4240e58200044bd3d0936a1ff8030f21e0ad4518fc980375cab981355d082805f92d4cdfbffe4a0801a8b60189d3515c7a020b4d3dbe4b78e20804e9f4b49b0cc0ddf40293967781400bbe8a064d68070ed8cf488e005707d9052216dceb8,
   0x2cf19b65b9788b370008e30908f758e383a052788e9eaa1eebd96049e22ed595b1a203605d19f71de348006d8015f96111cf4dc2fb20008c88f6b7e8a166a02fc7367914c243f1203a6f4d0fad2c390b905fb66091c8d591cde01ccf4de79c28ed40001e4fe1240ebe0518204ba2a1c8dd43c1948028b81803d22af252806624f3c679f1eddcc005707b51433041b544,
   0x2f8f490f7aeed2872009a1050c7b090a5ba05453bad026d64f6ac04929d68703305f57405b30073ffd016e63801364d35f8637c47120010797614ee6c883002e9b429eb22bda45c03d7945779c117a5f005fad409a50754907c01f258883afde7974601bfe410ab25a0649c0489305abfd2f9bee20284bcd45a4bbf828206747c7a964281048a0057077ab33f2c0cc7c,
   0x3234826c61fd3587700a88adc35bca5b99e056120c95da61fdc5a048608932ecee1ce5e059223bb9aa12e5c7c010f0b860740d2fcb0001b51f185e01fd2c602d751fcf3ffe9fdb00407c8ccaf2d83668405f7c223c7b917c0d202191620072855af20019c4470b71d58cb1e0457162f5dbe9d29ea027edbf4f35039f4640683ccc1b01717c3220057073e67e9f2b544c,
   0x34dbc7671569787a400ba152e26d51b57b6057bbedf3961b220b40477a747a3e8eaa5e6056f3f97ae5f41cac200e9b43e065dea76e0002952238d90ec247802c5f82af8d6733ae20437f740518eb9979205f2a51c1d653c19e60241b467ea94b42cc2017a77489fa219c2880423beb5552ae85268027921d0fc25c7f0120690098c00ecb2c69a005706f3c6cc5b0b064,
   0x249b9a9e46059cf1000945477536b0dce8c04ee51712e0064c33a048c8fe06e92a1cfe60628c64ac57692b1b801d275e3905e7b0522000124e6539c41e5f00359be273c83b687970337e07b9659d52c63060de643205ae91364018c19bca53ebca92a0265a574902d4706280534ad98192023379c027535c92a646ea51e061784b6c0351c7ab600570814b7279806578,
   0x2714c15baf33afec00099e4ee797045707a05111cadc4d171bd1e0482e4505e34ab18660610badd2a1c8947e401a43ec1a8ad55735e00007a2ba1a461948c03474330c72ee4b85e036987fbb66bd9a5bb86148af931792d8de201ae3a3e8a17e951aa023da9848079394f4c05072130e366ddc668026b20b4e0e54b4e080630a46346a832d58400570824d55f06406dc,
   0x299e13796d4075f1000a1fe48c5a77e121e05322772441bdfab3a04785bf892be91b60405f60f1b1e883e7f7a0177b99ad85546deee00030c9529affcc40c0334b0c907d1d276bd039b0e898e0e643cb906187afe25f06fc20201d1d76c916df26f460216ab4e744cc8149604d809a08b03341ae202622f48e5238d29aa064726cffa7c8748d4005708092d68262f4d0,
   0x2c3508fcf9079ca6a00ac70ebccbeb963f805511bf9979e3caaa4046d3bbad32d6c7f9205d8e114589e8186fa014d315cca7a1def9a0008d3fea85e07c4200321f56548ff5105cd03cc0bcbd31181f0fc061993e3fb0f2645fc01f6935d639e5a872e01f0ce49eedacf8f7204a7b9f8fe7a002b7a025aa15ed8dce1d96e065afb198e6dbf42a0005707ca4bd7f808d00,
   0x2ed66642def236f3600b935c0e93e3ed0f0056dec5045fd0da1f404618050dec112335c05b959ddb323f1ac800124c8fd3b240856740011c1a9b41a584472030f3303c004465db303fc586b4610bd021c0617e66f2c069252c0021c515f1db97bfed001cc3d147047eeca88047663ee63679a120202546a93c43c506d1a066c1006486035edba0057077897772a10d28,
   0x317e2129e8e28884f00c888ed1d91d4c9b40588df2ce30fb929680454c1bdf5905db16a0597a588bc61b7cf8000fe7a2dd911b00fe0001dceea6f72acacb602fcd1dafd95a29934042c1fe21858883a220613b9901d79e55b9c0243517c76247bd61e01a934308730d81474044407de45fced632a024f1ecb62938a41f8067a444ffc422cdad2005707187c2207af214,
   0x34274b33538f66e4c00dadf9e4f32e27bf805a26c8b410d6b990804464cd541181c2ea40573ee684c387fd7f400da2f86d7699b84c2002d062da1920ddc2c02eb716bbf0d7853ec045bc003cef731c538060d719688772c1b98026c161e06418f8d9e018808f7850a700c24041085f4123577902c024a114a429faeb2d806855cc5a5c79dc7ac0057069039474c318fc,
   0x28e7cdc267de590ba00c1ede8101ec8df5e055ad6e75db2d9639e0446a8d22e979ad52c05fbe13b0e7b8a579401665fe858d0cee720000505de0a954618d2035a7288423c6940b603c0250c0827d17d280635390c15cb09a09001fc802a8bea357c70022347f25e5a51adac04c4b6a52a9972ce4e0231b46afab3fe1392063e231eafec8a5134005707dc5ff05a55a4c,
   0x2b80ee31a8a7558d600cd469d6def4cfbee0578da8f856117e854043b5199f0f7662e6c05ddd9ad19f7b9235c013cd04a11698258b6000c0a908ec9e7a8c00347c3afab891c2b7f03f0b7dfb3937025b0063536a36925c64e740221888537cd15a97e01fe0c56f08ee7c44e049422545efd84aff6022ab39e4354ef33260650cf8e99fa942f2a005707867c398634ab4,
   0x2e2375fa22d3e793400dad49c5fc7c72a360594a68803e6cbb210042f7b645f5ef19dd605bd8e544429ef5a3401156f6480cec9b27c001622ed3c0359024403350655c793cc8e2e04207958912794a02606326f0c721db5ecba02476cda638c3ab45401da2113a49337c2040462a91221295a97ce02251aa1ed6393d90e0660c55186e7d3377c0057071b2b79d1b0d34,
   0x30cbefc7703ed582e00ead872603f467e1005ae814d249c8d22300422bda09fed332dce059b2175c0dd422eb400f033cecd89459c6a00234ed601b7d6907403229d4d44be9ea571044f9ac4c91bd56096062d2305508c8b152c026e738849f679cb0e01b7bd6b2c10b5719c04304193a82f590bf6022080d28a4602063e066de252e82bd66868005706901f3aa20a55c,
   0x3374bd5a95ebca7d300fdc7569d0332762205c6d3d9bc8b92640604146935e290829bc60576c19fcd0a573c9400cd19c577ab20acfe00339cdab24af9854c03112c5b8daf9fc8af047e68595025e1c6660625b035740fe0b282029714199278a1d0e8019744416263599dd403fcd985a1be1127b2021c40173596c4f2840677e074c2be2affcc005705be337d1f91c54,
   0x361563903ea44164b01142dbb3f8693691205de09e7416d8fcf2c0403acb932e4723e3e0550b7ab085a6d65d000ac39616a1635013400471ecf67aefce5d6030188cb6b8316cee204ad20ca2047803d52061c8636271944f4b602c1cc1bccbea2b5020179484d41edcb847003c8772cdec5221b5e02179209c000adccc4067e5a0597f41825d40057047543ace9217dc,
   0x2d75340e9584f4d8600feaf8e4aa7958f4205b922ddfd7c9e8dfe03fcddb9a73ead115a05bfb6d0ce3251c6d6010871698345f9bd0a001d891ad429df5a84035b09c43c7bfd6a1d0443a039f41760fcde064a5126287b750dda02734f5df5489400ec01e997dcf9c3aff1c8044e44e98b7a044a1c01f70fa1d19ed850a80652a3fcc85d619f58005706752dfa3f4b4d0,
   0x301cc0ee8b359dbae010f391327c04556c005d1ca0f9317f956b803f049055e44812e3e059cb409da8acf2b2c00e45f604dd8931d70002bb660d1448699460348908225ed2a8e210471eab89280eade6e0643ea615e8dd106e2029a23d587fe95d79401c7e212a454520bbe041c059a58f1f69c9401f33df1329058fd40065eb67a14fe9084f6005705b082f76c0f8b8,
   0x32c1b4cdff0b5f9ac012288a8c8d63fe3ac05e8c159bb2834e08a03e240f85a9d2eed360577ea6345764030cc00c29af62630e21a58003ced370fe03188220337167131ee96231e049f9e705b559e9ce8063b5f8d8ef825e23802c251f5eeaa7c68ac01a83667df26f075e203e90a59f2ae9a923601efd97760f90166880667a5b7396779b5560057046ce107d3264b0,
   0x3559705d9a0a8cecd0139107c2ba460bf3a05fe5b1a8a9cbf8b3203d20b7fcfb6d70ea60551c3ba01eb1a45c000a359cac8afc172a400512c4843b3b288e40327779b51319109dc04cccc5214c277178c063124fff2c953b73c02ec2ac7f1f287fbac018b3dfeb0a06fc16403b58a1d6159f90e5f01ec274ea13c1ba62a066d09ff7df5ac99d800570257ec7fe9cff4c,
   0x3213a9e1125fadf79014919a1d2430348300608477b0421498d0603afedfceee3623f4305772c907f7e153cfe00ba7558d447bcc06a00490109dd5cf5be22035ce99775632e85e984bf99e2dd08917d98064e65d9afac064a2402edebea0520554b2801ba8df0c92dca4a7803d4d0e9d348b1024801c4fd56107b5377da0654d8dd16a6c1dd600057025aaaa33ba04f0,
   0x349c2155ca2825bbd015f331299f7a8a08e061bf399c1eab1238e03a0bd286230130ee005516a299cc320cb56009d1b8d72bb6c20cc005d9223ace45fc022034d40a15a5cdf697304ea9c2bd31af5efe80643382dc5bbcf85e803162922927126c3f3019ebc7c5fceb5013803a2e604a234f66cdf01c2828465e57669640659542747bcda1a040056fed0d8f96ead428]).map icosaRowOf⟩

/-- `s2/ahrens_beylkin/ahrens_beylkin_4212.hpp:13-4226`, `4229-8441`, `points` and `weights`. -/
def abGrid4212 : IcosaGrid := ⟨234500199449492100, ([
   0x348ce82ce3458bb790034c17b22ee3d5c34048c0eb61d4ada7caa0559d6853763c1a89a056bd50cd4deaa30740184e15b0f839fb73a0033c721401b2cdcb6023d39ed1b6efd743e034a63966b5f4c454d055c65f2b761c59982015c793c81081d71ca0185dbb4f256b005e404b476d4abc65cc21a0361c7873f32f67476868288a07850b23dae005701447886f4d7894,
   0x2fb31ba73ea24ed32002dd7b37920934dcc04656078fe29aab792055ac9a15be6df86be05a22029af9be2beae01c8d7ef337c56af9a00298aacfc9c7619bc026c9b424c5e8c24e40302273989326a959805660c26edb3426334012b8e8b1e6836d14e01cd24f5b00073e3aa0502a9dd133dca95de035c671bc715a466fb865ccd7f7db2a03e500057006448702dd5bf0,
   0x31666aae26ab4256d00391a517523bfa99a048f26c862a4258ec2054532ac6f638bbfae059364d2dc97a82ed0019cec5d2405aebfee00262be4383cd250dc02692289755d7dd86a03350859c4c9962a170576c2c88ea95b26da0151f611be830ddf9e01afdaca60ec9c311604da1d13c826c66f120344baebf9ff0800380670fcd9f5a9c73606005700a01d14eec22f0,
   0x3314a04d80fcd4c0300473547884d04345604b7dfb8a34d745186052dbbf2a9167dac1c05832c13f4f8f6dce40172e4958879c1b156002587d2e4c16d4554026704c0a0e811113a0367c7d3bffde7c6d58585e73634902f0edc017a0af0abb0f796da0194920a2c055887ee04b0b95d80163e6c02032cdecbf46fcf84ef06823f10700607fda2005700ea7170bbcf58c,
   0x34cf1db364402abce0057a7ff8d412684c804deaafef3b4a70ed80515938ebad35644fe05708ff14392134530014ac3477494423b460027fc85062e34d66c0264db55f4754fc9f8039a137fde9f33d642059260adea41791dce01a34ae91d84f1e544017a6ec1fba733e9a20486235d4ac3f764da03163af63402b8d7fd0690e1f2d22a1353d6005700e46de94e43710,
   0x2af302c277b5aeb4a00300dcbcfe081afa6043fca2f46fa8dc95205544e140cdf14fd9605d2e5287ca5041eb2020df03d6258f87f760026a315b645644e72029f965970279bce5802be6cc90c469321c0056cf5670b456a9540010310aa20e20817c402175af37bf415e0aa054aa9c288717e310403541ffdf792b1c2370630bba8777bb8ae7e005700794d8f0903514,
   0x2ca84c5a118ed8f020036f88d0a3fd4e03a0469feda336296189c05420d3dee2354d1f405c65e3d204aa8f28801e043f93d0a25b3ac001f9363cd6bc1bf5c0299fa2f4e2c93d2c202f05f702d183071ec057f4d11b6f6aaa4e8012635a324706df06201f7a92279de38bc2005240d304bfc4df450033d81f0505ea71d160648af7d45280102fa005700589a5eccdcb84,
   0x2e53b598ff01f779e0040e22c1fda9928b804936525755a0ad510052d965a54374d3cb805b897f48ec307f2be01b47aa72214635b24001b267560389af9d002961d85d23fb733e0032249185f2c0f345a05905fcfe3153b2d3e014b2efff934bbb67601da365de1b661a27604fcb0cc9e39b2615403264edc0d21fa4826065d9ee4ed336de0f40056fff60cda12bba80,
   0x2ff32fe0d9be924fc004dabc08e3e8db89c04bbd9a0ebecd7eb38051709f6eb55f2992a05a9b1704a62b350d8018ab7da6cb3874d2e00194ad5654bcd755a02940095fc435721de0353f314141d83d8d705a02af81aca4da6400171c7db74dabb609201bf18c595a647907004d4c99fe3c5a3d7d4030e9c84d5dc4f44d2066f86fcfae4e084620056ffe369187ef9f6c,
   0x319778d945b8da6ec005cf2f2ca2d15b7e404e2f383269bbf6bbe04ff3ecd4e7f1fe7520598e2c7e60517aeba0162ac08708ae1a448001a381e94e4656e2e0292791fd3d443669e03857026a0c70c235d05adf23a90334eb9ae0199cf06df223ad9ec01a566dca5d392066804abd084b80466361a02f76401cff26b8fc4067ed5b598bcf553100057003c903c8380154,
   0x335687a033204bd39006e30cbe880d1fda20507f3d2bbbf74685c04e76e24b261530f060585182006d3b00490013c1843c98c2ddf2c001e4d3794316abd88028fec5112f697d15e03b6abd3c4dcd5d90705b89512c85b8b48c001c2e46f7392f525e4018bfbd81ddb951f46048127a711b8ad3a0e02e219411ab318edf6068c055c91c2dd77620057004817f18c3fdc4,
   0x35369aa02a4fe3b9600810e115bd6ac5aee052a4bc1078b0a2da404d044d535c5d20480056e0022608236a97a0117232d2de4be88fc0025a9d4ea47a45fa8028bb198dffaf9046803e74991bfe025773e05bf88f96490014ef601ec98fb1574c48d4c017287699f73c684420454d5f31ffb04295402cf7cb31f22c2b0d0069733fb60f2f24a8e00570013b4488614b98,
   0x264439fac29a8e87c003a4ff6cab6f93858041823ca8400e0afae0548ad8b8e5e2f633605fe20d1eae619d5800256a5e2b60db00f32002b9bc7d15c73996802d5142dd93f28f56e027c0e33575358eea8056f2c4e32e265085200e062f778ff6a491602655a11af683595b8058e66b5c10f265d60034b9207313439f9d405fd74bb3601262b4e0057004beee31e2ec8c,
   0x27eb4d36abbfea284003d37c1fe2b610e0804435659d100924a1e0538e6526c4d860df005f4a1ce73f07239ee02276091100d91bd780020880a7ad41710f402ce7cf595bde947f602ad1f3595675c4fee0584006c1a502d879a010081c96f76bf5b12024410489364dbba8c056a3521719764ac840334f238b1b28c613c0618e01160f02e3fa4005700f90e729994438,
   0x299cee60d4980e07e0042f15c14f5cf54be046ddc88057e30b592052761846bc8df4a0805e8fc0060e6a98cba01f9315235c6723e70001846a14425823b1a02c890c1997e8ee17802ded83f22ba1f2d10059715985209cae1120122c68e6d45c8d8420223dc0d0696bf707e0544474bcdfeda1bc0031e5341c6ed4ba2570631e17194e9261804005700ed9a20568de68,
   0x2b482b6e351c3beb2004ba85a304bdf0ee804977f887846eca0060513c37d1bbda5906005dbe406d82420092c01ccd983aa6d27113e0012c26c59b603255e02c42fc62c1214ffaa031092e1f8591574d805a8b996075ad330100146e559f59f05c5640205bf71810302fac8051d73b22d150debe003074c6fc7569849da0647e66ab7a6a848d0005700435cfc023a3cc,
   0x2ce394f81cc9ccbae00574a0b529c33635a04c00499f878bc2c7004fe0a15d1b64bda0205cdcb33f88b18cd1401a2ce6293108acc9e000fdb06ca154bdc2a02c1b8a46ec96248d80341ce53a7cbffd23005b90e1e803c964f4a016c8305e6301e210401ea3d671b977253ce04f64ff6a55928f07402efc796b65e86f97e065ab214edd11e1edc0056ff634513b4e0490,
   0x2e77fb04c34a7fd9c006577c8b33075586c04e726d07a7791dc8004e6cfea16fac1133805be597c3fa31613d2017ae3f159b8f5759a000f91e5e31de11e9602c074aa1675a184a803727c125453731b2a05c7b22eef2c208cca01935c1b813788fb1601d0c9d429cb89c7da04ceaea652f8fe570402d86038d43f1ef118066a9a1fb5146908220056ff2182e07505938,
   0x301f0b3ea0ec89bcc0075a7a20cfb87d15c050c86c08d2de86d5004cf333ddbe2971bfe05ac69f7ffb3eccd0601546f54ca64bf3c840012261d2146c57b0202beb4ff30518ab6cc03a2f1b9031da5560605d3b5c7e0a63627b001bb5042d216c3e85201b7f0d9b6198192de04a5a5d2857be3a91802c25b95c34f0d323e06785d638cb295894e0056ff63ded2dd35748,
   0x31e8877583eb467e000877011fe3d3a08e6052fa6af7e5b73018604b81635059a3cd92e05973e98eba00fe0ce012f379a6421cdb66c0017cf13d7d318093402bb52100d7f60021e03d3270304f39170b405dc55bed8b93bdcd201e4192879d0a10aba019ed8988a8befce88047ac52168ac9fc5a202aebe0f2fa90d147806846049a797c5dab40056ff6807b4ac9e738,
   0x33cfac82a71d2102e009ad15df9be6ac55c0550702d73cf8b7aa004a16c4380ed9bc0bc057f0df25e737f2bea010b7517b2d298c330002080ae523c49442602b682b57bd40009b00402e3c5b9d767fade05e1a5f0b7d5532ca2020d9440e9adeaa65c0185c5c75a54ba4466044e51043cf4397f0a029d739d4cf8541550068e7fd6185f3d3b5c0056ff87e1c051fd1ac,
   0x35c26ba557cf3f20700b0906554f58b6424056fd3800713e4c5d60489c4b870b34f476c0564a9925b8190e14c00e932b6ac783797a2002c08c7892612f31c02b1dd5cd419325dda043296c3ac1ebe978005e4bc5f9324926b1c02387facb3dc0da088016dba547847b0211404208689ffb00ebcf0028cec9185bc1f4d5806963b9d9b694a0d420057001f4ce34e51b7c,
   0x21e4e316170e2ed22004b28bb67e06fae2403ed748325f783e3ba053ac5c36f994b33aa06211cc149dc23b63202a15dac81753697240038f6343da85586940308e8e1d55ea96456023bbfd979d322260c056a69f2b233a47bba00c30e1c8741ef6a4e02b39033abad50a64a05cbc413202acb10900345eaf2c3fbaad0da05c4ddabb932e517640056fe3dc98476575b0,
   0x234883d8d59ebaf4a004b482f9515f5392c0419a0487219557594052b74c0b725e7d456061cb7f9ed34e4ba7402728e30f14f79132c0029d816373beaa8960304a38ea5eceff3a0026aa2c58eca52a0520582ff621670593d8a00e01bc3ccf7561e2a0293fe4a4f29838b5805ac12b5967178522c032d4212daed831d9e05e1b86e4ce15349ea0056fff8e2b7a6f3c10,
   0x24e00088e59320bb4004d1e77070cd98d520444fabc1a60a087f8051c29ca3b07971420061497d2d902b4ec08024350c8666283deda001d860d2e60e3b7f202fe59af03b1a4795a029b02d41b03ad1f3c0598c4ffa05e08157200ff242e6c639a27800272e9323f0e79cca405892756145f8a26e8031659cf4fb36ef15a05fdc7eb790a4d83ae005700e036f597bf7ec,
   0x268a25f8362f66cea00519209481da475f2046fa910e26c46d846050b73acb63b6f267a060a024eac7cfb8e140214d82c198e2f9050001403cd2113ba7ab602f837bd183cb61c7002cc3bbb9e46354dfa05ac9b44f828981b300120504327221752fc025266684098198b8c056430f9d4d85f159a02ffc33ec17aab06860617c022bc49cbfec00057011364ed02e34f8,
   0x283452f375093e6b80058fa4e232f2c465804998d37306b28940404f8be9d56d6afd99a05fdb39543ce27f66a01e7ecba04a3bb567e000d4af80866f9fbdc02f351488a9f6a552c02fdbb231ed720549805bee3e759256ec2ca01437b945c7438777602339c101f6bedd1ce053dfe5cd89aab730c02e8e6a6f4d75d9220062eef39aae3ee6d9e005700a26c20383baec,
   0x29d1772bdb6491504006363ac6565e899bc04c264e6252ebf41da04e3e120e9e442755805f03a112dd257ca1001bd3069ca31f0cffe00094623a1222a8f7e02f04122b6da567c36032ee6bd1cbfcc9f5505cfcdf40d3184336801684e6ee9f2ffb8ee02174df28e75aef2a6051746e1056db0408002d18d507d546664980642e96c32b5179ec80056ffa1b9f212c914c,
   0x2b601e53f432f0f9a0070867e1be804f51404e9db715bc115e75004cd3853d0ba3c277c05e1b23e33b00a0e860194dd3a6edcebc5960007de7e672694d7e202eedc21733a25039a035f5842a0c125fbd685df36b0e6f9a32ad0018e5d54e689c0d79c01fd853a239e5be2c804f05b56e41440d54a02ba063d7adff319de0653b72a501d680ecc0056fea739bb53b625c,
   0x2cf46d82666f10dc4007fbf9607726ca666050f9104e2a151d71c04b5dbbd54a04cb72205d14b536a05073796016e6d1d5b13789e6c000923891b1e36289402edae4e951989ddfc038f30e8f911c2318205ec61db139f546c3a01b557f321619dffb001e5092a4767af1c3e04c8a62f1c532c75d802a3728a09b318e124066210275ae3b48e3e0056fe60ad2b9761bcc,
   0x2ea5cceb9a91d4f04009083b99485555d420533392820f9379868049ed5f84c1225ee4e05be044fe01912c47c014937a88ee0990888000d3e97ad32d471a602eb2b6e98407e3a2803bec30dd2d47e052405f681594c9007a87401dd1b24f1ce21f1a401cc7cca76331a0c8e049f55abbe0baeaf4c028ef65bc3328949e0066eb28590ad736e4c0056fe7073baa42fbf0,
   0x3078a65808ef34db000a2aa2e52cf6aa66a0554a44c2ec4592d3c048875914a05e45ed405a7a9be55242bd8180125337188e6b4c02800143c505b4b41d65002e6f751cb95ac7e8203edfeefcaa8fc10ea05fd57f98ba415f22802058401adb1b1038c01b3a14f806add9042047453bc09f95ce9d8027ce8109243e13cc60679bd429c6c538c100056fe7c953da1a6b1c,
   0x3262851d545e9865e00b68a44091b469f8405741fcc2769cf62be047219859fbfc90878058eaf35e14323a31401029083a3658fee02001e08f665cf13464002e1dcdf0e00802a2e041cea79aea831b04206015cfb1c6e449564022ecc27b0daf8a8fe019b11d146b1c347460447e42819f466a7c2026c9a7302fba1cc580682dcb6eacbae6b360056fece18ef95daa7c,
   0x3451008f3fb3df63000ccef734615bb707a0592757a437811b0aa045a5d4aed6b3c9a100573dba218e9dda9fc00e17dbda65556a982002a89387b4b3f36a002dd6e7a82a1af1a76044bd48d368eae829406038809fac92965300259a217e26566e74a0183e3f8711fd2caf2041a512007680172e2025c981699ca796eba0689762a5485644aba0056ff0711c78364bf4,
   0x36386e2cfc6a0071c80e6008fee70d7ebd405afa7b9c1b8a0566e0440e697f34fe423a60557b3580837a543ba00c26284aebbda84a00039a1a071dbca7e5c02da574d1a4a931724047a6dc47678f1ea4206042c6916974378ce0285ecbf573680bc60016ec1742b50e7f21803ec1d7f193dfa0644024c75b935ab981850068d31b6d8aa9a7a140056fe80a28c6025264,
   0x1e219b5e7a5e19eb2005fa50f163d79c5e003beb3ad625b8e6dd2052ef8b65f8ead9618063920fa71cd0104ac02eb9f7df898e37a6e004e4ea6f52e39d2f00335696eabac90d45001fe27341be2ed14f4055c5c9cb4daf8e6e000a9a5b97b2bde592c02fcf5e619a82354f40600ad71dfc893a77e03474f1ca820de9fb7058a4fc8e58c5203ea0056ff11358b7580e38,
   0x1f139cd859dd7f754005f0b2bf6fc8dd97803ec9f5d312cf3a42c051d2be89fc0b01bfc063b620a5aa3847faa02beb9578207edef62003b88da8fddac78a60337109b7542286075022aae3f0c323e93d0057a22ab8d73f8194a00c4cb9ce4acb6353c02e23ba8e926cf503405e68d17ce882b76bc0329e82955c98354de05a66eaaf48fb9c0280056fea90056fa95420,
   0x205a66783925e0a08005ecdc1008883bd2a04197e808ee67b06e2050d3dc120bd34f5500638d871591fc95bb6029022c59d5520f950002b3752c71b86b0ae033449977d4a63007602591edb9d9a6b04e405944ca374323f151200e1593879a417b79002c3b933d6c21ded6205c8480db29784610c030fe426c255dcf40d05c35fa6d345c5fc320056ffa207156fc54c0,
   0x21dc4cf556ece2378005fc8ac7a3a4212220445225e48f0e28b5204fe14d1b634bd5d16063254149046434924026112e0cb1e8898da001da4628b46c3aba4032ec0262e229b69ec0288c9d424d2f98b2805ab3e20748c6743ae00ff6a25f7d9bc1e8c02a3372aba120717c205a6cb191c35aeed3602f857960cf9be985005dfda9522c7b5e8680057005270a2d5c7a78,
   0x23795a8babd9207f80062f9ac2f08a0fe20046fc0067a2004779604ee2b457d896634be0629042dd2d5e2a9420232acd275edfba4520012e4c4e469ddc8a40328a13f258099a76202b928d1570398f17405bfd355646e306c20011f4830822bf8403a0282c1b9c08cbed9ce058324a86de207dbae02e1c9724017e3168405fa8eb11b4b80c4be00570080c82fc684378,
   0x251ce393a56bab8280068f1d8073bf2ceb404998765cb29c161a804dc8d90b3f15e7500061dba9103abbb256002059c0865d9f37d1c000aefb22a80501f5203234fce2e89c3ea5002e9ea119e92c9461805d2ab8ef4e90fb25201411a7d194c2780fa02639e2e4295962c7e055e08f117b78d5dca02cb40c27821db72100612b85ba2bd35d6a800570035412ec80dba0,
   0x26b881443c73a9a340071e700d187f1ee4404c25a9dca6c99abb004c8d7e46e5b5c758a06110d859a1cb0403601da7c8441ffa92e820005b86eca32914712031f97eb8f46b81fd4031a92d5dd6957b73305e411380f52da374a0164b671b84140f2c20246ab16495509bd4a053820b0542b01e77002b451d942bbcce5720627d5e75c6a0c213a0056ff6543fc05098fc,
   0x2844f03a913eba7e0007dbe9fae341b58f004e9f6022c8c8fe3f604b31da37183bbdcb806035369ec4bb7e33e01b1b6ee488f715b4400032771aad9902642031db56ebe21e9374c034aaa10d7ac059a3805f40fdea37660fcdc0189c0d8fb08360a38022c4e1c4be9fc75880511ec177a13cb3502029d018dadc5d0128a0639b70ac1b261d9180056fe4fc76a9aebf70,
   0x29cc474517f75cf30008bf42aafe8b6ddc805100709e00703feaa049c252e425a79146405f4326926923ba184018b1460dfd7969e7600032ca78aea349936031cc9f8fa1d087317037a14be4de92c0d7606023cfb63c2b1aac401afd7168e934eb04a0213dbe404d618ca9e04eb4454314b4c054002860c50dff433c69c0648cf9d4603932b780056fda11aeb6b311d4,
   0x2b674e3e314bf8200009bc3ad63f4f308c605342c405f5b2b8d320485384cc3b5934a2205e2ad9b6ee0b7ab3a0165e0e7513852f2ac0005d4c8850f5ff050031b14adf677c0bdc403a90db7a14644af9e060dc00560ccab8b5401d6a46e080ca17d8201fbcfcc301de60b2204c368b9a886dd025c0270c3c71e2c64d744065607f246b2d4d7540056fd62e228ff4083c,
   0x2d21cd1fa51d45aee00accf660f75cf3b2e05562d705008bdef60046ef9333f5d38b92c05ce4a037893359e680141cec21872ac0a86000b2a5545a27d82f60317bcceabab1af95303d7a8ca737687841606162a3c82553d9a8c01fdfb2ab94d51725601e373d2e245fddb28049a0107af2e188790025dd0a2633936d6d80661ca08b3080ca88c0056fd3b1ea7f1d96d8,
   0x2ef77a5564b58112200bf1d9990861cc9be0575ffc8eb4676bb8004595305016cc7a38a05b738a695886f630a011f0aedc12659630c00132295d3b51972980312f9a549b0a225750405bcda15b599baae061b933d7da80c73680225c5c3e29da6468201cb05f17df75ca1c8046f44f2c9cf29d80a024d17661cf3a85674066bf6331055545f0a0056fcf31c51c8a69c8,
   0x30d90f60efb1ea44b00d312d90053a737220593ef248a1354bcfe044382f218ab5b952a059e2467527ed920f600fdf15425a72caa22001d9d72afc43bd282030ddaa57674965cfa04332c240637ca43aa061e9386607772aa40024e2ffc5d79a6771601b366ba763698272c0443b07c5240dad7a0023dc16ce5213e4f8a0674157bc660c652280056fc74f0cd9acb25c,
   0x32b4bf9cb29a26a4400e93280ebbfbe4bb205b06fa0f603b20a1a042c8ca441bec78eca0583d5dfa89e50aef800dedb0192e95115b6002a7321b9a247ebac0309abc5b80024e240045feecb8e542efb7a061feed53706ca7b2402778627d3480ff5c6019d9a60c506c775bc0417c47ab5a4f32a0a022eb9c919335d5b4206799faa5b648f98e40056fbb3f83a52ef7a0,
   0x3485bc957eb99c0290101a693c6393fe0c605cbac4e094aa94e66041420d35921915e52056883943440ae89f000c1d88e7561b92fbc00399853def7750ac00306cd8d1e1c048320048c0e2edf54a89bec061fe178c7cc6aff0402a1e8070be43459260189e6ce5ca38405c203eb9cd572c82e24fc021faa3554f4db1cea067c7086860e50944e0056fbc46999e6e3908,
   0x3644ce3b28c9af6dd011d6d3237d1d42b7a05e687fbbe36ca789e03f8dcce1d32058bc8054c51fd37e095e89600a6bac42c8ba6f800004b4587bfc84c8cd603066294935480141004b85693d35289f5fe061f0e28b6017c187602ce70e8a1a12d1dde0178e26ea4952e7e3a03bed1d749214452c0020f52eabb97faf98c067c082eff0ae5ebfc0056fd8076b91cc9aec,
   0x1aa4a1e52672cb8e80079b67184460b4e6c038d8ab0f1728ffbd00521373717cb4fc366064a0e37601171be8203375af1ea36f27af4006abaeafc9d67c5280360680e07f99315f681c288210b6ed81152054870c0587b9ed5e80094e90111b20db2520346567871df962666062ffca1c9f774ac08034b1e9823563e9b61054b654d2cdff5b0900056fc60ba6723a1678,
   0x1b6b5f8bf2263d67800767ca0d0ae482c2803bb7589dce73d5a360510b484cf0aa0260c064fcf0427976bf8d6030afff4c6d9866bde005500063cecad89f80362ef0a1be7ca121ec1ece4bc6b73fcb37c05685fe30f1dd3a54000ad18f53d7600e42e032c7c8f5a9b211f2506195c89664ac2fa50032d2dd7300c5131a20568cd73cf93f398ac0056fe6e25ae2b8150c,
   0x1c4ecb4ba86dd8c88007552cf237b882aee03e98770cc7054752804ff00f06c016be4d4065320a4dfc958c16e02de431733f5fd14b600416a903a2349531a036516d926e6f6f2768218e98a0bca162ea20586e604a69ce35ec200c795662a35b3e0ac03122b561d4e3be53706003521d6309da932030f5fc58b1ab1605705852bc65c13d659fc0056fe63524e5f7dd80,
   0x1d77e0604e244dc400074b617861147eb8404169a8a3ca882313c04eeb30843695b574c065257440b4640ac0002b052ad13e7d1348800301f152b023afdae0363b0c0b4f99e746882467918e2b984865605a2451d7c4fa807a200e35d048b4cd32eea02f4e9af6ef6de225e05e39032c543804f4402f46187fe86aa3d8005a1f0f7a3b3f388880056feb18e1bfd38974,
   0x1edabfe015c6d5a8c007507dabba718470e04423deb3bb4ef098404df79c8cc9a0add94064db8f510d6c12cec0282071f540a3b4a6200216a211cac37c18c035f6434f01fef6c688274f72ed57a973a1e05ba62b33fb31542a801004b717c033cb2a602d5a4d8f3051be84e05c3f99913bbeda14002dc116a083fc0206e05be5b192bf10fe7180056feb40ec52824fe4,
   0x205d371dd0a08c7b000770502989d9c705c046c2c5859b176741a04d05d7292eba2c394064624fb39b8647db00254a4668e36592b000015859faffdb8b43c0359cd62f5f816d33102a394948b57de554c05cf9df829d95c0d50011e555d2d5145285602b623c976d63ce72005a27b61ba968a76c402c59b782e1014726405d92d30103f2f37ae0056fe1602b2165ac04,
   0x21e923b7c9f5e3292007b3ae4c5a6e8518c04947a33f432c488fe04c0740cb2279fdc0a063c797b713929cf5c0228f6c4d059a72f14000c6c47282b5b3e30035457c55a82282aac02d1dc61751ce9f9f005e28cd04820b885f0013d89e0400035c72e0297c5626dd5342a06057fe718848c35d87a02b01274e3e05e510c05f191a5c9fc7a65080056fcae31c9f1460e8,
   0x236a9a3e316bfa6380081e9ed08b7a72a5604baf86f588da4992804af3e83632b8d34b20631898db0fd2c94ba01ffd78fd1aeb6e5480006073ffdfd7d5a4e035016dfdd56e9bc9f02ff1d1055855015fe05f3949ce054477480015da3147a2d37db0c027bba3cdc68e0cdba055d2ceab00f238afa029ae92e69ef59a8a40606da57df5b47b5700056fa22b8d2776b5f0,
   0x24d49d55906212bb8008adbf9b5f7b6cafc04df32c09cbd48181e049ce28d39f1e11e8c0625f477ba5006c80c01d9fc0c8a36742300000224aa968dfeecb0034d73d693e9d37a9e032a7fe7b187b0e0280602cfeeb1dd28c9b2017dfad056ed5cec640262b35ba9a02c014c053b33fcd0065f4eba0286268883dc5a4b900618b8b2fa513f36aa0056f73e139e403c9c8,
   0x262e5fe9de7039b380095e75c3a210665f00501d88246a086d42004894dcd88c8dcc6940619a8117e533b171201b68fe5046ed334a800006eb8e9ac76ba48034c32d2dc16578ba80354bf7ab76d7e5dfe06109fecf2c3e73020019eeaa053ef138e68024c088854e362e05005197dc6f720467a600271831ec2d76f421c0627c9b4f30b799ab40056f72b3b0dc6ff694,
   0x27958f1276bb881d600a33711d59bfcb1f8052481b8f7d3bd796204742434a515c16638060b8ccf2fa44315a2019368e1609e04be8c0000ceea2bc0ac4eaa034b674628e255cc7c03802092e58aa777ee061d53fe0d1000bf9e01c1f40847367fe0760235d1090a795521da04f5f692113b425778025c94f91e3efb09e806354952c08b94f8040056f9d5ee8c8e77a44,
   0x292423f6b6770b39800b2815cc0f1dd84f005472b2fd4835f15be045e2370a7dad724cc05fa765d94e9562c62016fa306ec92a178f600038b9b9264e6b81c03499b1f797d49bb1603ad5997d21f4ea4100628308a3d1fabd37201e75a308a8a5bb570021e98c81b1f9845ca04cf7406368ba4a8700248454275a60c1e2e0641f205a0004c22200056fc289d27ec84bac,
   0x2adda9ef8f75b991400c3667e9fd41163e60568e4c3c38fe60af00448228e9627d95bd805e61c860ef79a80e6014bc6ab28b8b51b580008e0ef89f599d84e03462669d26dc1ee9003dba707c05ab7fd38063074867369ad63fe020e6918712795e33e02064c3a3e972ca6f004a642567b2105430a0235903214fa8d9bdc064daab77d59d57f320056fd73edecf696d40,
   0x2cbac76dd6ee294a000d5d651e7a3969702058919bedc9554d8e0043254a28e5de23f2405ceb88a8d9f404fcc012881ec6c8e8b84f80010e7d9fae8810c120341324198e4ecd0d5040a50c9ad723ab0f40635e76d4b1c4fcdfe0236a4fdfb1febcc8801ed70645949a12852047af6ad4e03f491500224b8480c5a91e3ac065811c68e954cff9a0056fe3da003571cf88,
   0x2ead3533eecf87f9800ea40c77a7aefa12205a7d84fb8e908c84e041c116cdb030d22e005b4cfa6f8740433a801065e22e46b79a806001bad3aff65228892033bb3d3969109ed34043912b45a956a1c8a0638e45a71c14bd862026028efdbf04150e001d4f1af5f8146d900044e0d82c164411f7402151d39c0b5787b7806608d21b78e2beb2e0056fedad692d05b878,
   0x30a456ef64e1c30d001015babf4727ecad205c581489c27b0f9660404434f926cc38b8a0598fbe39864e3350800e5ca0a7879894a660029419cf79750294a0336faf4b07977f6160467ee678d5842a0f2063a065726521884ca028b664ab761173b1a01bde4197554b7d384041fe5085d4023211c0205b3a24553c38fde066667fd52368a84f00056ff5711e2aebb79c,
   0x3292493c689e874d7011ba32b1c33ddae0c05e242ed3480b863a803ea2a093329872346057bc13c5f24554fc200c735af80a720ff1a0039ada815c62bce18033407cc9efa490ee50496c094dadb63fdac0639bb8d4de8b484bc02b893fa6de8fa31c001a92b328714d2df0e03f0e4a2473edf310201f5c099c80c6e7e7e0669105b8b4c5586ee0057000125f6ce276e4,
   0x345f4770eb9b4e741013982ffc961f42e7205fe38ac20e94d47dc03cceb36711e4c85b6055e25f7895e6dcbf400ab6a5036b1cb581a004cc5488eedcfd92003344c5c766277fa6604c50292b2d581b4740638b7094fae3dc7f802e7a159d3793320fc019828077125efad6c03c201a28421e57efa01e44e7f38421d2b7a0667c747b5a9afcd920057003a3114ffbac44,
   0x360c8d40b9d2a2e800159f869bc5a62ec82061883b77802f806e603adcdaca8a6affcfb054056a4fe5c5b54000092c25a4335eb9a4c00622ca8c62b3ac28e0336f273de58d4344d04f1ba08b30dfa413606368aa24646a82988031753c561d048ce56018a8e1b396513c4400393f24c59689ad2dc01d26b6634ed19e28c0662f4c9444bbe01700057000e3c3221a2f04]).map icosaRowOf⟩

/-- `s2/ahrens_beylkin/ahrens_beylkin_4332.hpp:13-4346`, `4349-8681`, `points` and `weights`. -/
def abGrid4332 : IcosaGrid := ⟨208037830477807800, ([
   0x1b2f1b3567bbebf1000742e7a850baab38a0383ea5a4a66d3c855052d2d939ade61b84c0642d83b9165c4bb8603391b49d801182ca0006dbe3337997baaea0353aa1b3a13858ecd01bd5cabd4c81508b0053e08d3669ce70a8c008e4bf2a5a2658e1a033f8b912573473540062eb9b17cc58673100358f1a25e1193b17e054dbb5308e74b9b7c0056f3106050a81ee0c,
   0x1cf1801db36b963780066a96e965a08c7e803a3884ae783b9f9f305310185fd9650a428063c99e578d8543630030d467a5ab05b0efb005bb20e4b0f5c3098033fe6b932d47307dc01e0d66ff18865ae3a054db7545f32a99ea4009bddbe56352c2cfc03183ddaa5fb07b9d30614f106ebfee8cd4c03519e2cc60c3da69805712d3608bc20a08c0056f5ebe39d1446f28,
   0x1ef3d139153238220005967d095f10f7d1403c03b5fd19d2c1424053750661528c3f7c80632179f0ab1fda5f202e1e35811775b6758004c8df1776744f3e0032822d4c445231bb3020408334fefd417ac0558f564f24f3f2ef200a96cb66ca687206e02eebd37300125f08c05f8b201766e005b0e034e917b1dc1395e3f05942f2b0a68060bec0056f69314659058148,
   0x2124c565be2ca969a004d0d1ee954945e7403da29e34759c7e51c053f2d52c8d9f81a900623eb3e4071d8bc1002b78fb794568436cc00406d8579f5aad500030d9bc24d68832e0c0226b92cc88a582530056039c2a4e06f1a3000b73acde4f188d28602c42f5103b56dd8aa05da7eccf6bec361cc034eefc46fb65c7b2e05b5fa9b33d5d5ffac0056f7ab00b2345af10,
   0x2373f62dec24826e200427ce0c7567ddfee03f3c0c3e28defea48054658ab7b61ea52c80613372a6965e1e5e4028d1ec3bcc4f9eea60036814fae568b4afa02f25770545e75ad68024aa2d043f2e742080565b7a9f9927bd20e00c6e578b48691354202991a54d5c4ec6b3005b9fa0eeacc58a3ac034ff92d772d4aec2d05d6bcd48191f03d100056fa254c4c1d109ec,
   0x25dbd0493afbc7082003a2dee54f1a2a412040dee1a03d7666ca6054bdfad7649cde5ea060051b5e803ae9acc02622130df6d3a2ee4002e96d8aad2f9d7f402d72309609767267402707ddc95440d377e056a379b21fcc7609a00d92857d24c76449a026db846898be2e2980596e6f310f82a56f003509bc2dac9992f4005f6712c9dc34a52900056fc23775923e6518,
   0x285810d40f2eb1dda0034371b446cd068e40427e955e2b760d448054fff17508226415005eb28a58d00d54d4002376265e49963fe0000290fce52ffe14a2002bc0325f50fbbce8e02978d066e9144a1ec056d325d6f8d6ee42600ed9c8959595836d2024289b2d606531cc40571af326df76cb3e0035150a1aebf90797d06148bd256db9d15980056fd0e5c090710df0,
   0x2ae1c57b0b997cc3a0030b8b49f15d050780441619351c337d58a0552a2e0cfbe40973205d3ecbec76542c974020d6561f17d58ad1e00260c6c01852ab48802a148d88a1d29325602bf6145364d7f1fc0056e9416f2e2cd86a80104116476ea78a27c021811aa8f0dfe490e054ab590cc5617f896035217ad56ca0296810630a7d945238e6cbc0056fd8e1cb3b187eb0,
   0x2d7148cfbba9be46200300558ab5986db1a045afc90601c05dd1405530f85eb0b5400e005bb0ae39667adb2e801e3fac1a19051973e002556db8a9df503a00287b3a165634a8e0202e85d0be7c2869068056f0681f7ced08460011cf6d10e5c10e0b401eea93ec24be36eb805220080f35046939e0352141bf055ff58dc064aaf7b6ec96ff65e0056fe42df1470d51a0,
   0x2fffe6dab0f51e3f60032820ed848943c82047592fb25e596f7ae055065cf6cb5f1152405a0ea49661f2fac9201bac810ae20de26240026b35da2d6489e7c02700fbd6209d9d0aa0313193f44d0a310b9056f4f523be98df5e60138e9bdec5df57dc001c696c1e39329c42a04f7714de7a87fa012035041c9429c98d5ae06629c2fb63d9e0cd20056fef758cb3cc0ed8,
   0x328971b7c6f9b8fd300386d3a89d8ffe82a04916eaad82e2bf07e054a39aec4a692381a0585b8a8e47aaa4bc80191c648a29b7824ba002a1ad5fac328d9e8025ac94891f5c01b88033fc3749ec1dc7ef1056fb86c760eaa442001582ce5f6936ab1fc01a018ad31b14f4b6604cb080d843639633c034c3041ba0ba9135306784bbec076d428980056ff34533c1b42330,
   0x351205c156269c56a0041cb321610ac198404ae3a68d35d90e3500540c6901b3f4e7de20569244bdd23e9cfda01691ace32ff9cf4e8002fcfb54a809f04d2024792e316d6abe95e036e38f57b4ac564fc056fdaa64cb7b73226017aad83418045b74e017b164afe8faa2204049ca7b3c4dce808800346440176758e606e068ba45e123ef5305e0056ff168f107fdf65c,
   0x1c0e1e16b7c2bdc940072f457f9c559d2fa03cc991a06e68ad6ce050e22f88a5f582920064ea4622f305f3b6e02f6f4f3047bb41516004cb7503714dc26ee035e3c1f4c97cf0d6e01fec0dd438e3415be05723efc2521ddf5ec00b5f3cf619d7cfdbc031d31fac72c31cd57060d9a3da9c4c2069203257d9f044be1cbb805775f77b4e7f8ffee0056f6fbe3cfa963a3c,
   0x1e2db4e8a38f0b01000658eacce7adcf09803e995b697f750a0c80514fafa509345929e0642cff281ca0f341a02ca6102672b08f7d8003de1fff6bcfd1be60345020473e70235c902230d27059d8fa0d8057cd97fa3b5c4581800c41b1bb25663a44402f20daf3ee8e8e4f405efdb9d4ccbf5dbf203232ac260f94b141a059b34160c2cac1afc0056f7d6e31c98e61c8,
   0x2075c5111fdf463c800596e44e667a029b80404b71bc1700e54d6051c81906f175625ca0633ba1fa1f1ef55aa029e6e3f5f5493a2360031c98d518485f6700329cbc9abfba581d30247814931cab9ec4e05844b4023c735fa0200d3240e3696aa32dc02c612f6f437adede805d0014cea2df7abc6032337a2bc9124729805bddc1154297a7aa00056fa2acc563698e98,
   0x22d7a92309195d884004f7c88abfaba5e32041fe2e15bb84d10740522beb01288fc7e62062241d96b8110badc0272511b73e4d1672e0027ef96e492e8c6f8030e61c73b1de122d2026d791347441e8336058a4a22f0a356d8b800e475dd63ed4befd60299de0d3b4ca2fe6805adbe1f6bafd2a03603235e19c5ab615a3005df44f691e35fa7400056fc4a7af422c6e38,
   0x254caa08b135eb6f80047f9e53addb2635a043aee3826dc4013e40527726e0736b2e022060e909b0529923628024675da3105e5a31600207c6fe505fa9a1e02f32de563a95ab1ec0294b01307056d82b8058ed555d90079a5f200f80e0d2f84509598026df34f86dd9d84bc05895605285dd508f803237728606bdb259a05ff040b51b508f4060056fd4db316bf3593c,
   0x27d0e8203ca0669580042de76d3e70a9c7e0455340b16bdc18ec0052ae28fef52e139ec05f8a976e1e3e28c02021b7e966a8de5bde6001ba919f03c9ad78202d82b52d96d03101602bc7f4d578e874332059188b826c1d1f12c010d808a2a9c7266420242b3f34e385582e20563321756af34e6640323ebcf88996919f1061cba0029b2b8c8ac0056fdc8fbe19c7654c,
   0x2a5f5c386113df812004057a19e579c9800046ef30d75e40395c6052cb22703f3e5b7ec05e0ca30d267d093da01f16ed6b98ae7a6cc001962180ce1b19fd202bdc5379461832bda02e4ff49462505a91a0592b136557d9861220124f88aa667cb1d2e021864604b00d2b764053b695989072006fa032453151c4a224a16063848999d79ff35480056fe6d8eaf637862c,
   0x2cf198dd18e23681e0040ce7953f07f3ce0048907327ef9ab9cf0052bfe6fc08906205005c7556a0f76fa6c4001c7e88db5bb2d318200196eab61fe26448e02a4c74887098fa920030ecf052ce331a9a7059313b50dd06d4df6013f19430499e7c91401ef485ba7ad86423e0511d67d301af1055e0323a7238108dbc5ca0651a9076324c7a4d60056ff32646e81fc0e4,
   0x2f82ad7d04f30c1e600449656f2d56e3c0604a3f67ef7c21eadb60528288d66c7f7fb0005ac8ad101692ab494019ec095071b9ba4ca001bb6d32c0586598a028dc48d17e0aef09a033a4d2a6066427dba05932a63bdaef19950015c50b74769bb074001c7a018cdeb83874604e6665cb773ff32d603213a484c46d850610668c271822c2c904c0056ff9476f19ddd07c,
   0x3214e523ca550ef7d004bbf71dc97cc85bc04bfa4d43b26cf041005213cc742bd8cbfca05903bea962d0f7eb601760056fce4f345c600206113ca69a4c95a02789ec19666f2047203677a544349162f680592c7275b8f79c84c017ca94d293289cd6a01a15eb50f131b1a9204b8fbde0ed9387c6c031d3098d5ba24c286067d8500a18671dc440056ff68d1cdfcdcb80,
   0x34b3535423197e86c00563f938819ed3e2c04dba71340acd6c0360517afb395f0e79bf80571bd58447499d3ac014da2b944d59e8c420027d17d16610488da0264a050f0309d2a420396554d489a4f13ce05913de20e12879eda01a01bf57aaff14910017c10cfb68e87419404892dd70ad284036803183c82d5f532d49e068ffa2bfa3fd474980056ff08db61060e3ac,
   0x1d999468ff29791b20072f83fa871b573800413ebe479bfe88e8a04f219b0584e22eefa0650adbccecd9d529402b0e6c950f3862ab60030b4598a2040110c036049619ae168c70e0244d170cd869f83dc059f95c0b433a0439800e143a327823eb80002f32aaf6f44fb8d2a05e38f0aa3313019aa02f824709ec9e20dd605a2a8f9f5b0217d840056f9eb26588222f78,
   0x1ff173047905a7e020067a440e6f9b947900430972739da26c71004f8841f3e1f25f69a0640ded1136ec8fbf40283761870415280d00024ca7e046cea10ea034526771e0a984d48026b41d6042c76398605a78887dd4811199800f2050a61e926bf9002c64fdb52ce21b77605c208354832526fe602f731f51fc1ce2c1205c5beab9b9b62bdaa0056fc1c37a394870d0,
   0x225dc21b0c046f97e005eb284c7f24c6918044ccfafb878fdf36c04fd9f4412f6089028062eb2bd76b16a3fd402567b496f6077da02001b6cc46eee11c516032a08a76245ccb2b00292b582b9bf02f1d405adbe6574f8ff2c800104dfd94b0925a0180299c109c864b27e04059e6b1fdcd05014ec02f68339d35f2e07aa05e71258ef111c6b2a0056fd6eec1f3a02694,
   0x24daebf1cc13db166005829cb3b99aff5b004683ee24cdeabf25805017f3d3acc66c8e8061a39c5ee5e681a34022a5b315bcf139be00014ba370a943ad528030f06f64d9a2e062002bacbcdcd78ce7ab005b20be01c896ccb2401199c7e7b14fcaf16026dcac58cd488bc680578fd952d98c2c6b802f63f8c2ba65936b606066184ab4d28bb400056fe07355c31709e4,
   0x2765244ac6262d482005411e5b7aec994900482bb9c544c151cae05041f81c8939bd6aa0603947491528d395c01ff57e417f0116a3a0010baf358736e729e02f449bf6ca36ccdec02e34778555ab5b59405b46ba7d0c749c144013019f4d06199a7b60242aed6772b6c73c20551f98b9bda8cf79c02f667673365971eee06237e834081c70bc20056fe890bf5aaa2d48,
   0x29f6645139f481ff20052bb781480dfe2fe049cd8599c75d843860504d7ca6fa3c52dd005eb15be5a22e41e7a01d544019bd6d254d6000f492c7d3f579cfc02da749b9245da0178030c87b8f25d9e375805b56b89e5a3a372ce0148c4eb3d5745e0820218b64d33185a9ad80529576ffaf564b7da02f63b26fd9f940104063e53892fbbb371560056ff31d6c0ea7e234,
   0x2c89699a76a60ceaa0054856800c2f04ea204b73f485d6e8941bc0502ec390682c1eb2405d106db87a9395d5c01abdd42966ba670e200104290507b25ab8002c22fa8ac0e3fabfe0337097d47e38b034905b5a1f45743b6c0740164253dd18bc4d4d201f0201a46b371140404fef74d224e6ac56202f4e9b73be4bfcdd20656cee687936114760056ffaf8b5e9a89a00,
   0x2f1fec920227bd15e005986660c9860ec8604d203c632ba280c7a04fe494513eee399ee05b54c2ae361a67fae01830d3bd36ded1c060013b84cccb74696cc02ab75f6139c1d6c340362f1366ddbd2e5bec5b509cba18955129c01825f78231384a34601c8db55134f078a2a04d2b189e31490853a02f26a2d8ea492f576066cf0706a4b21a6680056ffb25376adad180,
   0x31c3a1d58b5d0a2a30061a6cd502ad3b91804eccfabf17568ca5804f75d1fb28fd652080597593de9e9c821aa015ac4acf363d050420019f2513e02d778f80295a3705db6b1f32c03903f87dcfe1afb6805b3170649001cf72201a36562531a562ae601a27929058bccc13604a42ef691bee2efb402ef573058159f9b060680d030c7a75503f60056ff3c55af9767190,
   0x347c7f0de678e7396006d092d49bdcfc07405077a5329264e735604ee4781130171db740576a935132486aed40132ef79b2c1d6ac2a00234841606de28e78028055c780846c6f4803bf1de9e606882dfc05af5e6603f058d67c01c765f9ad364701ce017cb0659c11c3de26047303d32eb1de361c02ec06a1d4bef04f5e069265395fc9d667340056fe965c76062b560,
   0x1f9946d686371672c0077e62cc3dfb699ea045dd22d8257f294ba04d30b9871bff257b8064b2d4d1b27ea1a560266a5f3eeb085108c0019a0188be64f97c0035fb6df02a9b69a9d82921e2ffcafdfadfc05c9db6f3e05c78848011415ab31e0582c7a02c4ec0826a9ebfa4c05b062763f281f78cc02cad2d848117bb93005cd812b17b9faec720056fd45303317a1b44,
   0x220d6615986a7b90000702545ba4d335e0e047a8b65f91d943e7404d716694a3f5e4a2c06382b709b57b5fd3e023962ba37aaf8631400111f45a17c476e340344f41b7946ff53f902ba96acfa5e7b7b5005cfdcb503e81de3ec01284e10be3bf1aca8029868ba507be43a84058ba00f728c9adc7602c99c4f3b86163db005ee453466ff0888a00056fe1cadd208ba820,
   0x24908489b85ed51c2006ac4ff00d032a474049620f366c218074a04da10d22a45fe2f140622dd02d363663674020d4f912971df848e000b66d1e3f239535e032a4566f7d5aee4ac02e357402483e6e2de05d3bdf6d021f129b0013e2b2a6e56675aa8026cadbe464fd8ee0e0565455a21dd90313002c90da3535ff06ee4060cd52ab4aa2c365e0056fe8aef7e3b86234,
   0x271c49866f094e6e80067f598d26232f93004b0c6dffc34e9597604db9a63fb35180c18060b8c1ea63041504001e2840d53467151b00008646090c6e395d00310251c9c348a4be1030c66270502e5266e05d5cd2adae2b7c7680155cea5b09de2ef460242154594e1c0b510053d7c479edd77d44a02c8bb0c3e4b99c07a062904a91b0c17658e0056fef86a30f0deb28,
   0x29ab6ac1dfc8d6a2000680920cac6daffe804cb11e75f1d16c70004db0c370ccde34a3405f2822d92e4710f5601b8cb8842a0a85d040007f5cdc1923f9e1202f72eb3814d6227a803362abe3c7696ed2e05d6939c347c8838dc016fab1a44516c65120218dedb4bd543d744051432555d6c52bef202c7e888bde3e0732e0642c1838f8d1011340056ff6a9ce93892868,
   0x2c3faaae207cda244006b1da6a2e7b477d804e549f1b98cbeaab204d832b871de095b0605d7af997baf359782018fe70bfe29fc3040000a182a79d794434402df70a542390027c40360f68ffc0198389485d63419b4e7f41512018c0581570669066001f0ec88273a1c7d3e04e92b7c60b052056602c660b5c2641f621e065a200f4f0cde05b80056ffa305ed871a1d4,
   0x2ee2c4a5c987c328600710d6b5dd2b19ce204ff300e58e838ae2204d37c07f791872bd605ba95d602fda5a7540167afff1c50e896e2000efc837bb875340202c846a684726d4436038cd8e19f1d11d1f705d439871c3059369801aacff6f842c3fa8e01c9c0e6fe6b24ffc204bc10167cf65d62e002c4b00399d9545e1e066f4f7b741bd5f2620056ff70331dcc61718,
   0x319c66b585fe4e8270079db178cf3edd7e8051889818b5918290204cd29558e68de69b6059abdff82d68388b001401947a8472f57ce0016e855e65d101b6402b13c7c336c87482e03b9e071b7d2d2adea05d0361d9472a9c27c01cc153c95583e446601a30c094ede0ce37e048c8d8c9e4809240002c342947ceafc32ea0682563c3d640c7a4e0056fecfd302b527bf4,
   0x346bba4c5d0d0c88f0085f848316d4e0e0c053190fd7bafda85a004c4bd38fdeb14b9a205780c443983b6dda401191d397fd6b6e7e00022160e07e2021432029aa7f18e931aebb003e85923edcca664a405ca3cf24f7236435c01f04a70a733f2b23c017cff73a96202c950045a63c654529ed3ae02c1bf1bb4621470200692f19b9d3d0557ac0056fe000249fb8ad44,
   0x21dcbf3ea26c0b79c0084112ccb60c9005c04a86c94641b4b0a9604af175d8cf698d59a063ed8b5d38657db18021bf1d8b013b6745600095c0ab96572205c035f8d47c28936e4bb02e45778461417d61005f05803fadf46bba4014e6c044122d3435c0296a6fac20f0d54560575f268d30c2e3b90029cd116807092e18c05f4275714b3f9e0300056fe9a4401f13cfc4,
   0x2461e6208177e22c200801394c32ec162bc04c4147492a2136f8804b0f3b881316e85520628c449a6a0c0ec7401f02d33a478f980ca0004c36c6ef4820efa03457b438d71985683030da4bc1b3516a3b105f3ca3ae88946440a01657b462538ab7e82026b7d5bf8b338d48c054ec66211e26171d0029bd640c940517ca00611ab92377597f4da0056fed7587bbb00174,
   0x26eabb02cef43629e007ec399d216dd7c3604dec7857af45fabe604b132004ca9ade2e60610ddc6ea675a21fe01c5e50a7927f3a1360002e21399dd43616e032c44c5e0204d91ff03371d3f970e82686f05f58515ef02871496017e4cfe3873b90d540241c690b1618dbbfe05265f91bba89a3fc8029aeb0b723eaae918062c9ceaeb402376620056ff12460a03d1cfc,
   0x2978b547e5bfb39ea00803740ba1f43532404f8df191863849f1a04af9afbb67a658bf205f722ca24b34bcea6019ccc2cfe270760d60003a467787e9996240313fd700274a5159503611bce9ed7a751d305f5be4f1896bb6540019926e5b484344da802195f063fc7b11dd604fc8460620657cab20299cc20bbe23dfc1c06451d79f2800043760056ff4f7ab0e8369fc,
   0x2c161a759df29f3c8008442daa24662160205124c3d395d90f22204ac8c4407fb37e04a05db1f9723fb28ba2a01748f06c8b9fe38cc0007215319e9b420f202fc05d6e9e3a0d02c038bd8fe3c07d9c10605f42522728095bb0201b610f576e95b131401f1b08e5116ac5eb004d0ca4e8b2e3430440298e543fa353a32c2065b7be664fadeead60056ff5f50984323910,
   0x2ecb6b1d0bc418f04008acfc08d1fa5d2a6052ad51e939e77c01804a85f1feb3074b9c605bc5f94dcd20cd176014d115b70b69b5302000d8d7631a7810ed602e3d2ba8d93c8a41c03b7630addba8920c205f04dc353a6e11dfa01d505f9e8e80eceee01ca53a5cc2ec02f3c04a2e0801b6d045c960298b041cf5fa25f9c066fd7a3a2710279de0056ff0f720f841014c,
   0x3197c0db387e8ec21009427a96dd816c3700542871e0301a19ae604a2ccc8eed4d6ff9c059acdb05c4e469cb801266652baaebd081e001719502510b09e3202cb98beedc873602803e3d45ba2cec3a23405ea337026e318131401f643d34bb468391801a374ac0376235e300472a99d71fbf682560299044ced170f429a0681f74c15788e9a820056fe5ed5dd8c41868,
   0x347401a528709409200a0f80da010dac0940559e40636288cc04c049ae4e5b7d36e8670057697364e831444fa01009356fb1c8850f60023ed35d496325c8802b432a91236051df8041192bc16af1ec48e05e2425f47762c64b4021a74a12e60d5353e017d9e2ec69730b502044002bc02e43fdc04029909f91835d485c806916c51119e1146bc0056fd88948d20cc938,
   0x244035fbd06c4d85a00985467024dee048204f173e0920c52ac9a0485fe67a9b2a1ec3e062c5d4ea6111560c201d40443890ebf112000010c310eebf65b700361551acc011978cc0338caef6ef665635406120e2d4f043a1686018f2376c49a5f2074026b4c797c70b6ba32053654ad5680b2b5b0026e950b2a6e497eca061415ad5f610a98d80056fefb01bd919dfd4,
   0x26c762817c512b8780098757a139bfcf3aa050bf1d12bfdb2591a0485247b22a0d597240613c34f3cf3062d3e01aa66637340de3662000067c888a91870ba0348dc2e7431192f8e03627d407445259720061339450a13cd299001a8fcfed848e0b16a02427414fe33c2d1bc050d5b35c6f5afde12026d55827fddd72158062db9b172409dd7d40056ff0a91cdbfc4318,
   0x295cd5dfa96765116009ae98fd585c049a40525563730841215c604833c8ace479b506405f8f000e4fe9865ac0181f1f0764cffb1da0002781b7f39f5d6c603307cf5de266e8d22038c75e0fa3958839106125682243647fd1001c471b7d3601dd422021a6364cc98ca24b804e2d66fd370f3f37e026cb417dcbb07de9c06453627226dc3662a0056ff24dda128b7210,
   0x2c0a512c67acff9c0009f8e287a3ddb449a053d8b7c8dadf0460204809d850fde996eda05db6fb4e868c3f446015a5faf638583188400075c462d277a4cb80317a1428648b53dc203b6e6b9d49f4096b9060f110e6b196aedbc01e18b27de7780ab2401f29191b09be4106604b6600412bbf2b362026d1af3ce39796096065acc66c12e9fb4dc0056ff13b19ffe37848,
   0x2ecfcd77b833f31cc00a6956aff6904f5640554916793f3b2bfc2047d1ed17bf33253e405bb299fc1ed4c811c0133bf85dd7306440e000f3cd61368ab7c3002fe626fe4f8675e1603e1dee44fb32c0744060959733c23788a26020071a2cafe74545c01cb181ac9735fa4d80487df4aa66844af74026e7a8e082dfd2a88066e539e3388fb2c100056fea6951826b2d0c,
   0x31a63412732f1980000b0776e6b60741a64056aa517203166901804781dacb826ab62360598505ad7e70031f8010e3dd2e761040728001a395719ef592c1202e56b2e66e98a64c6040d7c39a420f3777c060174bc8685c83eaa022181d35dc2d5a3c001a47bea38d21f264e04576116a9cf950bea027043a25f6fe811de067f6628fbfa27f24e0056fdda90f68895c10,
   0x34847e81944be0a2700bdfccb3fbe5f25b005806c3f92febdb88a04707853e2713c4f8a057327a2049d4c578200e9dab8572318694000287498787065dd5802cdc7d267fdc17d32043a3a9194376fe67405f7f33024b1e785460245843d2f113995e2017f62eb1e7111ca020424c2babb109c8be8027169f1616b38129c068d87f899120fefaa0056fcdab921e9da85c,
   0x295908ce94c12819000b7b42062e8863a08054fe19cedaf5c3300045699235749a369f405f7e18cbe5cd3f34801688aa6daa90f835800046a87028b207bcc034c391244e7704a9c03b7a86d02c9a54843062bfa9cd1249be2ae01f0ef8913dc92c736021bd4403b067559fe04c77cbab47bd9078c024144bac2e057458206431e25689b159cf40056fef04c768f8198c,
   0x2c155e33bcc40e50200bccba7d87874d5d40566bcb3d679c65468045493a7dc1a24c7a205d8fc9025f5ff6de80141bd2a3d64dbd3a2000aa233116437366a03326b9d22108a39f803e19b89b4867fc552062702c31be8a1475c020e024c0b8013726801f3e69f0479195aa2049a7792085e8e9d38024316f463a3ab1fb00657f3c0d636011c0a0056feb1dea49fc775c,
   0x2ee3841a7fefe8c2c00c44e69997119bbb2057c47168c470000b6045199a3a1856515da05b79351e1cccdb8c4011c30e9d92a3101380013cf44d6c0d5e04e031885209edffd7958040bcc1e57b9e425f4061faca513f08e8b06022cb9c086a9ebe10401ccb00e9bda74c432046bbe3fdec74508800245c8be2ca3046638066a841f516e7afe260056fe09a85ade0cdc4,
   0x31bb34054025f5aa100ceb3e4ab7eaa816a0590c6a7a6166300cc044cfe8e4f086910600593eac93fe8a0ddfc00f8147cf5ab051ed40020068d4a6657d94c02ff42130f096177d00436556def4dfd28ae06164e134b6c5988fc024d709a141ed0da1801a6c1d456c357c6f2043b6a8a87a2972d1e0248ba6d41124c47ec067a689b18c0e229960056fce520b4ef20604,
   0x34954908a3a1d88f000dccb4573611a58a205a4eeeee984639e6c04459db5fd2b223ee8056e2f546f2405670e00d54fd1d6c4b8e3d0002f729134d6d86ca402e79dff062735a7460461cf94829fa0f14a060b716e341ae7849a027104e541fd520b100182a886154efacfce040939db7e4bca772c024ae196e3f8668de20687300a0a519bdd540056fb69f64ab60ba8c,
   0x2c2f4a7020e9b39f000dbf0906a395eee52058dd38aa1970b7a280428562fe50521345e05d42ed726f2a362f6012aedd8105cb1c6420010c92af2ff941b7c034cc2ccb4ce186c23040baa63287e201a20063c335182ae70ffce023b401ab838b57d3a01f6153d87967cb182047d8147f9bb07aac6021aa6deb5ee6507660652cd1faa3e42ae860056fe19bb83d287318,
   0x2eff4b93c1e55c4d600e3e4e51e6f1c604205a1e305d69c89d5b60425c6eafe43e7358e05b1ffb14f23e1a7460106a860aba1b70ff4001b18c04e1f88e0da033287fb9135141ff20434da601ae48c3b16063378b6ad59b12b3602599f2b485e28b69001cf74857bf14a8f5c044eec3b39e0182f1a021e76f3fd97b389c006644d55f882870b440056fd07cfe09c66140,
   0x31d48011245ecd40000ee997dcd29b1925005b4b5ff0e2a3d190c0421b5da5f26795ef6058dcb49b462bd372e00e412ff29106a07cc00285a107d7f61ea1a0319082ca52e84bfba045e0d89bd388b09720628bad059c36729160279b374af4bb5032601aa526c78bab99798041f158987eef21db202229712316b4bc5ac06730f3e90f2cc78020056fb567476a8a32b4,
   0x34aaa763e525df14300fcf21ebb7877f06405c7148ae1c9a0af7a041af1a96c9afb21f40567949c4d2433dd8a00c2f43b94dfd64ac20038cc4fa933ba8a8e03012a202c3ec1e65804880a1c815a2f150a061c771ec1e789b7c6029c843fae9f713a0801871a0aa72493c90203ed8486c80a05d89e0225fcf4995618d004067ea9997206b1e9d80056f959efb6fc76870,
   0x2f1e89effb553e4d20105074e8b27c4c61605c51ea8764d27d20603f9f5296def08c4c805aabd481d346f7a9600f36a999de5c35c1e0024e3d36189d2b2e0034c67fbcbfe4a431d045c92925fa6ffcbe40644c297f77ea6d77a0286a5e0fb791084e601d38e14c783b56f540431e36118b9daa93e01f8b2a77c6c3e18ee065bb73707de4696ce0056fba618f41f440c8,
   0x31f1cd23501f720c3010fb2656c9113bf5205d621f61aaec6450003f6ca04d9620e9cbe0586177e45b2f0a96a00d258f04edcaba5da0032fbada20855e2c803326d48d5e61a68bc04843c23a25245e0de0638a00e113b1b4a7a02a5c108e059320f5e01af0fa819656969fa0402b9dd89323faaa801fe3d496f0d9b2ece06698f6017b2eac9540056f98e23d75d68790,
   0x34c2b7e72a4c22698011e1ffd2013b611a005e6bec7d6643991d203f0bbd70e44f2d5b2055f8f24e0d8ad747a00b2d661d1f929f0ac004445db931120a544031a5287248e79750304aca97627d90bcd46062b13f0507bd1ed9e02c7a8088d17703716018cb0835efbbf5d0803d1ed211b45f363d20202dea32729a0547006741e04084b4267840056f7d518880f33788,
   0x31fd8e49f3b73367301319c6f1befff7d0205f4c6d26cc53ce48c03cc41ca36de970892057e0284257e1a2b8000c3ab2ca5e61b1912003f534811669ec22e034c425865102fa3a004a7dfb2adcbab2388064691bf4ff82f95a002d0bd7fa1cdf1a6ba01b5f453b06f7bd3e603e7b47f70dd666f4e01db55cccdcdb2155c065dac01c745e9ed1e0056f81260c3b29f064,
   0x34b89891063ec9873014076168d229bc7920604274795f29c279a03c60e33f01a9bdc080557fd8e44d0a739a800a5f8f7c1cf1473c8005126e6664e9efc2403351709f59558edb204cebf74bc5c10e4c20638934fc2e6bcec7202f1f1931fe35123be01954827e8a31126cc03b82eac37de5f7c8601e026af3065c5a29a0666d8e0a9af4e03a20056f73852dd04a7764,
   0x346ce0e5bb09b749a0163f5da9cfc82e79e061f57087ac023caca039a47cd294d74c00605527876572b20ba48009d506c364da46d56005ed0d0055fea713a035311b617c9b99f7504ed588c9de20c48b80645f756031b7e0f6a031acb3da3c224287c01a27576cdea3ce3ba03a1dc370d4ba4036f01bcd21c9a2c7909b40656423ac7afae85ee0056f63aacec71a0acc]).map icosaRowOf⟩

/-- `s2/ahrens_beylkin/ahrens_beylkin_4572.hpp:13-4586`, `4589-9161`, `points` and `weights`. -/
def abGrid4572 : IcosaGrid := ⟨244015945203322000, ([
   0x3471a84cb905cb95e003786415f4357a8c2049365e404373de196055366ca8d1640dbd4056e18161ebbe914720180a6164f565fe9500031d238c2f988f07e024241bca1a156a4ca035054e71c634ea9a8056255357a330162340161db81ead2dcea7e01865a1eeba02e70c004b2307868bac0e068035a22388b8af80fb606837013b4ef94bd6a0056fc7da44d7e3294c,
   0x2b16165e2ce212718002e48f0becb4b75e8043aef68c39bb53db20558d7432280795c9605d081819d430abb4e0210391d053ad625d400284f8863e220e72a029b6dd77fb06c18cc02bb0c08127543eed805687b4dad10c6b31400ffe2564b1fec24dc02163285602400b492054b462f7db69f3eaa0359b1f8acb6c735cf06306a1109be44b2b20056fb5df640cb640d4,
   0x2d18f961f495ddc4a00321c46ced0a189f0045ead0b88e0af3514054dd1e28bc1ea323e05bf9a6590b77d238401e4667096bf66275a00237ac13432f1ae1c028e5a11832a34ad7402e93bf7d7fabde2fe05741fc9df10fa14c6011ecb31e0b5b6fb9a01f307f6315d15eac40524484a3eea5e60d4034bb03923ac89e835064922533844af67520056fb880899a271ba0,
   0x2f3d4b65df38e6ee40037f9d86425fee6c20480e5a08181ba805205428dd82b9ec58a0605ab852c50296827d001b9646d6ad00678320021b44da7d0c7d7d802802269d7f17d0e920317de004255bb0748057cdcaccc562918ea013f3d534cf498709401cfa9f827253d6eb204fb0cba9f5d28a05a033f5350f7fbbd6c7e066016ddd0c2960a580056fbfb8a6a842a694,
   0x317c4c71c1dcea42f0040024240a385298404a185b7d2ea5d929c0536d91a191850680a059482e52960ebf858018f82e0b80e8e37fc0022fee86867cd18d60271288c8da68721dc0346b67bebb727569f0582ce28c0ed6134ec016128055ef440ab7201ac863a904a4648aa04cfe0932c04ab06bc03346ae60cc4914d90067502370fa4c413100056fc49ddaaa130180,
   0x33cb6d215c17e3872004a5f4db49203733204c0a2112d16f3d318052a5343df986294a2057b0dc64aafcec158016712660880d5218600273dc99f5645fd700262107922e3e8348a03758ea297c4c8ca5205864c9876d76ab4ae0184833ff00f4fd088018a33ea1dbc92afb204a331374588793c80032a84ca5a5a9f6e20068798ba30516c80240056fc55449b63fd688,
   0x362147dda0f78b7f300573362f4a34131f804de6437b0c91cd79a051c9d440d9884d3fe055f9b14a5bd18a2320140472ff76207c4e0002e498bd50cbd59d6025371dcbe026fd42a03a447857088ad8f000587ba22c3a83d7fc201a95128a977f049da0169310716f88b9d0204755a3efeb3346b0a0321299345e4b5277c0697a4e0e203b7ab980056fc2e79e536a5138,
   0x227e741a3000283b60043d5557a073c6ab403d7cb89a9e762f608054e7ec109e4d27446061651281802bad61402abd397415d4cd1340040d4bc9aae6bc6b202f6c9e2b5ac0d40c8022cc2df6a7ece168405565af7b0bc6ec38000b543ab6837e4d52402aed43020b61d5ccc05ce5b75830ccb0a82035e80fd14df1e646805c2edafd76e4b82b80056f7605f618061bd0,
   0x246c727c578dcfe0e003e573ec8baab86c603fbe7ee147b70ccf8054a6c8bf0a7007294060b3e7c95ef3ab0f0027d7a4400ee478ab00033df6e1b431c77b402e63920824bfc37b60257b72ff60ce70c140565d464ceb299774200cc6ac15360a35d160287f214ae65d6815805acf770c20914fa9203526c92abc9dfde7205e2f7df28c4873f8c0056fb32ad9a9506970,
   0x2655b6ab59037c6b6003c02a85d95a6daa404210ceb7226f9a41005432fc460d85c028605ff2605f6e28b6d8e024f6ad84d2bbc62ec0028dd5a02323383e602d7cc13781a482fc8028455e58bb2325c3a05754f8d925dc9d65e00e68daa97fb43406002629026a88f2fb9aa0589ea19275772df0603446220063bef54830600e014f6a16b8e2c0056fbe34eb914920e8,
   0x283f89de5db793672003c81d8cb76a3c6da04461325f1ae78fc580539bb95266fc72a8405f192ef37adcb98ec02224f8029155342ec002036f6a95d2053d802cab82d26c6855fc602b1bfd9237b2037f80583cdb28628f16e380102ed81beadaf689a023e9a624b2ed6b5ee056575245c161cef140335955f9ebe43083e061c72203bc0560e720056fbb8ab4c551f880,
   0x2a3b5117a6dfd0eae003f535685b678efa4046a403fe1efab3fbe052f2bed4cf8eb89d405e1ab350ea97f87ec01f60bd6ec7cef97c6001a36b47c2bbb0d0802bda1f0b8020e8ffa02dfc16a521924caf6059054e82e2ed1412201211a5981bd7c4cc6021b2878f607adab36053f31bd4caf1ea3280327504204b2c243b806360f92528aacc9920056fba7ca90c840ee8,
   0x2c539dfe229f667d200443089a34ac8c0da048d13499bc7ac8f2205242ea29e5159f97c05cee17cd12d6ff3f201ca9dce997846732e001718304d68cb52ae02afb56b981a4e9c62030e3106076e2022b9059a3e2219778125000140cedf0cd28dc96601f7b627ef5a43e15a0516e239286d652080031a6574b719c04037064de5515dbb1c889e0056fbd561a300cffe4,
   0x2e85e5e0996c51100004b1bf2664867fe4604ae4ea8fd3268b0940518d3eafd9ef8ade005b94263ddc655057401a04c58e1bc98a53c0016efabf5d6898d9c02a101bb67b0d303ba033cc946454c4e5e6805a16b19a9c66049c40161e1ba16ab08569a01d4789f522e76fd7c04ecb947c843f917a0030ef1b2a0a860adb60663c5f91e73775e740056fbfb6fa685c8cb4,
   0x30c9aea8cf7bc4364005430cc3dc2eb20de04cde5ef22c09cf754050ce20c5a9083ebfa05a12a2f1d9778b75201776dbfc4903b011e0019af7d697d0ca2420291fe607efc79f09a036b44b5a1b32097b705a60d264391c6d3e8018438d1afdfbfb20001b1ef0e98d6197fba04c11add37711846720304b2cfc7a28596ae06776b60a0f336e34e0056fbf1cda6960db48,
   0x33164c8b87ace3733005f8aa90aa99ff8e804ebef36bcced3b25005000ccc279d96f89605870227df5d0c27de01503e04a34596fab0001f3805fe0a30179e028330360da8c220c60399785cbd9720157705a87303395958e41601a7caa1de7b19c9ee019090a7afe506dbfa04946299819950e31202fb4906d74198269e06889f68080e80c3500056fbc042e51997960,
   0x3564df887c77bc7ff006d4812b5ebdd0ba805089f42a4d939943804f1ff16391cc4b33a056b2454f5e11e09d6012ad2e818a906ec280027659b2cadf0172802750fcccf6f11157e03c7615aba160553b405a8f4eff4a93b5cf001cca842f5293f92f60170b55fa1e6f3e0a80466c9e7c85900bc9602f24938aa0f606334069741be01981447720056fb8ec57fe9d17e4,
   0x19837a9446c3e47180084d3da884531134c038fa931e658a666f005119452ff0e8e6a240653c6095f42ef550403421c8f18d7e8671a006d13ff52db8bf55203753d490b2a3691d101bea51347c9a1ee9a054fc19837d5976074009960965cd648527e0359dc6a4e418da9b30638652aa25a4693f6033cef30d900864c49053de0ea09094adfba0056f415ebda4a36404,
   0x1ba3cae8f586b2dc40071ce07bb444109e603a07ed228edfbb4fd052310843a24c646f00646f6f34572d8f240031d9aa1371134da29005fc8a65a96e6d3e40355686024592ffe9701d76549c3366875a005523e80ceb01e0e0c009ceadda726f88670032fa00297be8f325906212e95b8d83808b6034633ffa87feca70d056032bb86b4d811e60056ef129f6a57089bc,
   0x1dbafae2dd97bc3240062ae8cb6ded8141203bd041ee5d36da640052b60127e8d5d7998063c474e1018dfce6a02f121e6d1017d52f2004fa004b99f2223cc033b993fea99cdcc8301fa854f484b2d4330055d443b963ec4d18000a94788c314a5ca0c0304306ece413343380604de7cf3c0452f26034486f9c1ec387630058507968802e11fd80056f46c67b6f637efc,
   0x1fb2f9335ceb7a61a00583acb338fda156203e00870f0f4b66e7a052c0e86454a0f35340632d77b81882c660a02c1d2d0090df809f8003f6501b7258f12540327b5abd8ba1c9d9a02235eb0ca576ba55c056d136d563d0e4fee00bc10d7cbbc5b686402daa899857843257005e5ca692e4652f7a4033b2d7d47d5360cf305a8ba5c59e0dba3ae0056f89a890661cddf4,
   0x219a966fab4e4f144005188faae443b8c3e0404e3560a84b0f18c0528767ab47b0dcf5c0628ec1f2c7824ed500292b34f95c277d4460030f7f38c143cd5180317187efe5e76771d024e5aff28ac39d60c057db91a04a2613a7600d27eaeba3b03df0e02b34456b7f276730205c517f6e60c24e6c4032eab02ae66952ec005c9fd35e2a1d4a87e0056fb03f5f3e67e9d4,
   0x237da0e075add4bf8004e0a58c6f848835a042a50652c242ec5e60521e801f11017cdd6061dcf896dd81c4ea002643f49d0d3f335e80024c1ef1670fc8f6203087d4758727aea64027aa61b22ae67084a058dfc78bceaed7e2000ebb5b96637415548028d87b3815b3f29e005a2d9f596c0e08e1c0320908dc10a604fe305e8dbcc40d65c93bc0056fbef9c15a54b8a4,
   0x25647055a04017644004d5bcd8ee2026f42044f97bb3753b12a5c05193878aa1ff974ee06110e74b1c3f4d18e0236aa25ae15d8c20c001af7fad7e584fc0e02fb0da764480d40d002a7cf5f85e76e6e3c059d24a58cffe3af460107331b32db4c266a02690df86512561cd6057f0ec5b28e3dad940311d440b07a7d0a79060573990515c086e00056fbfe93bc1577d88,
   0x275a70285dce8ae76004f12ab7dd189108204742571ee54573da0050f4095b305d04e0206021cb30aee1d1b560209ef387a3cc59a100013c631e38df3b73c02edd2c3ac61bc444202d59988cd9392bea805aa7f9595000fcfe401248f08f58460f4dc02453bb214805af356055985a1730cbbe2d403036a1494a73fefce0620096cc4fc3d8ba20056fbd32554eb4c064,
   0x296829648bbfc13300052e1e8c922f7d08804977e0867ec4014c60504a6a03ab04f3bee05f08c235f7574db9401de1656164283d796000f5634e0e7f309be02e011714c3a82ac1c0303cd265bebe625b205b57ce4361b3e153a014377a26c76491e840221a209fe7d889e6005321cbc11b87acdd802f6120ac92dffed7e0638c80dc63ea5691e0056fbb76bb707778ec,
   0x2b8d3c0c3564a47fa0058b441bb27e8c05204b94ea1c012e0936a04f9a360248e378c9605dc52a6f15c0e3c4601b35ef5d5b8229b6e000dbe6397e9c9a76a02d1aa4dd0260cfc9803321d9c779544cb4905bde319fc0b5135020163b06a7b9ec03ad401fe54d3f8f641b4560508fd2d1a2c42f40402ea12bf281eef707c064f956708432e386a0056fb96701f2d5cb20,
   0x2dc34be801b6d51a6006090fc271d5eb94c04d96cf53eaf5a42a804ee26a5352a8eb84a05c5b1dde416e642fe018a206e2b09e0b71e000efa524c30cfd89802c2e63f2ed65afc4a0360381359f8bfd67705c3c0a3e9f46ff73c01850aacae824033aa01dbb71805f66f7f6804de82b6bb36fac61c02df59460280978958066436ff977bfee2880056fb5669abacf741c,
   0x30030809e94ff47f4006a861d403d3a913004f7d869cc70f98e1a04e20137f8ab7ed02405ad014a05ae04fdba01629a178096c4cae40012f178fc8368ab1c02b42acc698d557680038de5dcd81da8863705c74b3875edf9ed2801a76d47ec9678393601ba2ebbc45096988e04b305396071461fc802d5a73ea2d540c91006767d06e8be8e5e3e0056fb069626b066a74,
   0x3246fa9986fc7258e0076ab63a29c2955a80514bd6d6920db39a404d4eeac6893f981e605928974e155af7f68013cdb053c1d073650001985d7080bca455202a5d83da793eed51003bb269255d85e377405c8cb21c08cef909a01cae6a994cebb7ef6019a0091d6ad6646a60486b1c9106f26f0fe02cca5b21ef552e93806864f7ef556eabb8a0056fada496333a7894,
   0x348c17510147bc73900852d5cc43413c01005306d6b5639ab6e7a04c6932fcc6605fbca057674b4b8042316e20118c77f7b4717dcb60022a3b022a9a01daa029845769fda4cd6f203e83174abe22c851a05c88cdc09be2a413601efb4809c8561a48e017b512c1cd18b7f1c0459806a34fb61bf0c02c3ec9b40903944900693a4004641c76a440056fafbe2aae7eaad4,
   0x1d070fe7a0d6f7cd2006eb5b0db5af7d23e03e77523c3f3672d580508f2ec14d03a98c4064c7a1db427dac3a002d822c447df9827340040a90603bdcad4460357d333b324e890fc021af37560ccbe29a60581820dd32cb65bfa00c4c18eeb5348019e03062f6f1f7cc53d9605fad659207fb76b580318da23f59e9b50bb058d0b74fc65b7c61c0056f6441a97b6de20c,
   0x1ed65519d5b65848600673fb0116b4a641e040c7809d1dd8f565605056d3b6d5f4d577c0644385359041b082202a96906e32bd46168003110e22f6184ede203481b688e117b7122024510c06284d6b876059347781492841a1200da2c5124e12a2bce02df97d4c53599f00e05dbb4bf9028398bf0030bb12c173478cc1005ae88aa62def2add20056f9f51b566ac4a78,
   0x20ab66fffee6cebc20062b8d82f06972b32043210c005aa89806204ff599c02b4aae0e6063a622d9b381ad47c027aefcf57a728b3480023aa368532a89ab00339be6aede0c804900270bdc390e9fbf3ba05a46f913d842860f600f25e5bae7f48337c02b9fe71017b1743ca05baa233aed26a002e02fd55474b625b107205ce0dc12c014a61480056fb7ceb8e1b18268,
   0x228a0f82d88cdfe460060e02eecfe7757e4045783dae22c34ba7004f75d107bdda4a778062ead345fab86c754024d1c5a51f6d6809a0018b0e2d876d1966a032c30c8704c141303029d6d19b2bd9d2ede05b4587e159a198120010cd822de451c50da02954ba6667e7c29aa0597c81255ddeed1c602ee907957291acf6805eb845081abef61e80056fbe2157063918e8,
   0x24781c800b234615600616aae40ca8149f0047c4d5a419429c7f204ee12fd759ae42ff60620cafedef5357fb8022013d4529282dd1a001046e7beed93b238031ed9124361ccce8a02cacb384b0f695b3805c2803441d506c190012937a72423d37a2a0271379ad46f7074d2057329877002d92ae202e0132a9200b5061e060703bcdad12410520056fbbfc730c008d48,
   0x267a947d62ce181b200641577481dbf19b2049ffb3110429b702604e4035bdc8375b06e061078b10c5377687601f3f5a412cf52f3fc000a880b358719150e0311318d78134c738202f88f6493304f56f205ce76e4ac1d898a52014726a1696bca8534024d83102565f8f8a0054cca33b9a623f75802d2767e1f5a7c12560620a1f2106827082a0056fb6bd774ea1a668,
   0x289113f9e6aa57e880068bf6f62fee5110604c231e6df33703d9c04d974c40c61e5212405fdaf9c2565cc77b401c904ab17cecf99fe000785555ce2d5188203031270ac06c788ba032662476accf9429605d7ffe5dee048e77a01665aa15fb85b3db4022a3ec51deadfaaec0524dbf09749e499e602c60b930ffb964a9806384a100f376b5ec00056faf84ddbf3ef990,
   0x2ab692e7f2a55f5c0006f5ffcfb7392ebb404e2b7f2bc85eb8bf004ce720f20a1dea34e05e8a36660171b0dfe019f950d7256ade15000073bb512cb7fb0ea02f4a6c87f2cc3f9b20353ea6c19791e4f3e05df1794a398ba28f00186970cf2f38155440207b9555afec103b004fbb5f33be918306602badb5d420f21b528064dcd6700c9e02f3e0056fa706f72cd5aa0c,
   0x2ce5b42bf3f6dfdcc0077f81dd8238b72f005018262fa39757e7e04c2e5639c8f92024805d1959cf5fa98a4140177dadd060ce26a6a000996eb78ceeef21e02e6311ff1c03a2f6e0380f45d9328ad19cf05e3dfb0cfcd6db03401a7bcb396aa7a890601e63c0f65617eeb3c04d1a08c699bdd784c02b0c3800874aad2e606610b2bba6b1d80c60056fa09d80997cd8ec,
   0x2f1bdf20b0914c82e00829af14b8c5f6158051ec10de6ffbb00fc04b69a87c2aa939c1c05b8ad13e8da889e6e0151ca14411930cbc8000e81af9da628db8c02d7eb6a5808fde75c03ad97f2e36fc3320d05e68dca48f778847401c9e622a847f9dc8801c5e355eeff67392a04a6a4ff7fd0f1d7d202a7829a03f73b9d740671fefacd4c6484ae0056fa10bbd389fc54c,
   0x3158d5004d1e6aba1008f7885f48a90abe8053aca0e7d4b6135f604a93e56b0888236da059def8c1d89090220012d2dd9e57a182d520015f69eadcd4401a802ca0b7735b5afae0803da27b8b859d6d92a05e75aa6aacdbf1ad801ed64124ebabb379e01a6afc12c37650866047a93d6140abe4414029ec23228d5f9deac0680abca5175f96cd00056fa9378d5eff2300,
   0x339bbb470da021ece009ed27b1b095ce80e0555ea30b719e97aaa049a711b1c8b6b97f205815efdb782df58820109e3281327e870ba002000312e6104265402bcd4ddf62e5240900406ef4378be11359a05e676f41117d36b9602128dc7091d03b9680188b571ffd0413274044d3f91c124ce62d00296290bd479daee16068cfeb0f7476b129c0056fb45fbe6d12a78c,
   0x35e1417ee6c63216380b0e9c87e489e1efa05704f06c268aecedc0489d7198c42aa86f4056313e8997b837cc200e7f3b7d5579de408002cabca60584afa3202b0a1163b66379bbc04340d01158f2257d205e40e00d155bd09f602399e3646630fb0a4016c31b5f347f1213a041ea488515d3d0240028d63b1b53b2ad29a0696c985724d6f55d00056fbccc1f34bb2230,
   0x1fb4cda8645d7110e007708cf947a7a3b50045db7d48bb586af4004d453f4a72e41ff4a064a2f87705437f7be02659aa66c3b2a0d5a001982481668473a44035ddbbc2870c841f28292a0ae039e1ef25005c92e4fa298bce1980113dd81c5bfe3e98402c3212dea4d5d0e6605af74f93230ccd31602cc08c75f05a21ebe05ceaf2e5685de96200056fb9e1393a81f1e0,
   0x2198a816e0df1f5de007666243b237f68ea0482bee09cabd3ba4404cbac561d805aa5f8063d7aec203cb3048c023854d8a699290b9c000fd3753216a8b63c035084757f02488ac202bf81f2c7f363835405d836768072a2e61c012f35baf264927080029ee787afa5ffd6b4058bddfe50e06a6dca02bd65298278788af405eb0e9bddce44603c0056fb7968c171544cc,
   0x238ebf96adba373e60077de2f9e434f9afe04a6a183287238307804c23d455924dcc992062e7283849f669452020c102c1ade0d4a560008c4d85548c666760342f4184684cc406702ecaf07d81c4a9f2605e519ab0f600d295a014c09c0a15d1496ee027b298363d89697480566a7eea1f330e3e002af998c6f1d42d4c00605822da5392afa0a0056faee4535ac8561c,
   0x25959d9cd8f8f32ac007b4f91b7864e1fac04c90d839b7b43025e04b843a30f65dde13c061d208571675c684e01e1108988d52161c000045d51af8d906a420335137c4c8fc091be0319cf63f4e601227505efab6d3eb50d83fe016a0e3a6eaae96ca0025802c990cddefec005400fd2b5a57adf1402a2e710b5077812a8061df48bce8336cb300056fa29da53b7c4698,
   0x27a940c7ed2ac757e0080aa8d40af1e105604e9d1c4a93ed9c45e04add0ebe416357e920609b17bfb3da4f1f801b798dae21efd5dae000294e663faad783a0326ff6e5f8ed904bf03469662f2301a9a4a05f7e8e9342814453e01890a1030db9d55020235ae81bed36df5ca0518608f5a8239cd0a02975a4469007bd17006344615b0f72542f00056f96e161c5ed15fc,
   0x29c73092d5a78fde60087ee6d5d69706b2e0508fa3d1e3070dfe404a2d37f691c3cac7405f4496f87852c4e16018fb2fe909db8bc7e000358d160f4c92e940318db420890b2af800372f9b69eeb214bce05fdefc8d7218c459c01a8f673a2c74ff60e0214489a8d125ff91804efb6c80c06d98dea028cd5ed6acd41a37206487121aaeec38c580056f92ab6218cb1740,
   0x2bf0bc2c7b6bd750a00913287244eacd7ea0526cc77f5e33bdcbc04971c3108ea5132b405dce14043905864200169236dfbd02c57e600069fa6b9da51bd74030ab72c8b811b3c0a039f435125eae575cb0601e69fd192d4331001ca0f83d35fa39a3001f3b64e66448759f204c5e0621e53c482080283250c7e29c201b0065a8c0e226fa2f7060056f9a39af9682f544,
   0x2e279b9ce26b1fbea009ca86a1df07762e0054393300d62c69bcc048a660a89447b5ce205c360fe4b99283a220143af445bdbe86e66000c74a110b1ef2f8402fcaccd8d2bb59d0203cbccb8a2bad1e8f20603ecd26b172395b001ecab3641b6cbcb5001d3e30d691a70a1c2049a973e2787e33ee2027a099c07c9c9fa8e066a9c9fba495811180056fa9506f44f15050,
   0x3069fa89b31949e7c00aa84ef8c6f562172055f6c6216d1a412ba047c6e4080b8f25b0805a7cf2fb60bb7f42c011f5d36b4fc42ad500014ea77c8c8a1afba02eef784661d242e0803f8afe19bbdd46d86060418f144ebe69bca0210fa3f033c5bc27401b4f7ae78a2f73772046dcf59c8918b160002714c61dbd1aa30f606787e07bb2cac862c0056fb7b6192c3faf48,
   0x32b300748c0a69ca300baef20e2ca280b04057a519dee4d09e200046d0080cbe8594092058a550bc5563bbd3c00fc654e7f1d0e677400200c027c4eae812202e1e791cbc279e0aa0425cce2e398dcce180602807acd3c09033c023701058e3dce7b8c0197486ce59887d8ec043fb5e6df2c49cde80268bfbf4185b3dfa20683f583ddd77922920056fbfed642f18364c,
   0x34fd35a5550d8a7ea00ce07cfaade4d8d4605943b74e4856bf392045beaed2e287fbee2056b26a416920d2d2800db037100c45ceb34002ddc7ce82d579d7802d5d1d8e51270ba6e0452fc1fa37beb661c05ff3f053f04886ce2025ebb56f054d9910a017b2ec3c37552db020410838ef4f4ef4dbc026033d58e32d741ce068cc9c7365001b2740056fbffacc537383f0,
   0x24c5f654b8e69c46c0094e042a77f4ee02e04f12e32adc79cdc6a048b81d563b80ac4ba06273e883fa932548801cefd68e5fce965ba0000f90c65e1e2acb40358c2300aca97239f033baf5c09c75d95dd060eb902638e6ad5da018ecaa4374b95891e0262e49f279a559934053160f75c78f0b90602740ca41e24f63ac40619536d3521bdb98e0056f8c431b2aef0400,
   0x26d639dff4760fac4009af95923d114c1420510af19db3a02deee04810650c66dfddeb80613383087dd08c09601a6e10edd95fcad5400005b6c6fbf93881a034ad4eecf50339560036790843d04423c048615d123b83c6057e801adadeb6e9bac670802417efb91a77de67c0509e23d4a34530cd002692fb49ea108d862062e58cfc54a16bda60056f87e82626398ac4,
   0x28f3f70d233c937bc00a30f4c6fa1d445bc052f044e288d69e7400475c797d6aa322daa05fd2860c0a56871e8017fe89d2880da1420000231f38418884276033cdb1253e952b7a403938842aa6565ce78061aedc29a651acc8e01cdd9a6d0480829b60220c5f6140a26176604e1134480c63bb940025f13c9042c4d646206416f4b22d9b214ea0056f92521c27618860,
   0x2b222bd0423ef219200ad500da0abe9488a054c72228f6a5c6eaa04698d214142fb3a1605e4e682ace1f0cc7e0159d31007d45b391000068e6e258a5d5ae0032ed9f5712ff0102603bff3ffd0e0dbb79a061e2003892173a55e01efa3f5d896cfc98a020094af82f5e726ba04b6a13cbea7e7de3002558b580fa0fd82620652a2a8f44f6d90560056fa43f559db7a3a4,
   0x2d5ebe33ca07a77a200b9e46ed61741e9700568f66050f13aeeca045c2c9e4146e7eb7405ca78b197d4423d2e0134bf9eed6f5a56ae000d889a3613cb5d9e03210085918d9a48cc03eccdbec6600519a2061f6a4e6b09e931b00213225faaa71c4c6801e11b738d72d0faea048a939f93b979117a024c7abf529e5f5e000661c663b5da38da3e0056fb421cea3b068c0,
   0x2fa49030c3e85e6be00c8de65f93501390c05846563211217717e044d940c11707b895a05ae0ab377ff2d4504011100157a3e34a05a00172b84841feb2c5a03138c7e94d6448a450419cecd9455f7e204061eccb80e9d0378e80238344cc8d4189dd801c2b2f6ef534aad0c045d312bd27c3374000243d6d05446781d24066e9cd45624a8fad80056fbce7d41788d178,
   0x31eede7a90321d3da00da40ae0a4927ec92059e9496acb48fc994043dbef2ce39fc047c058fcba95ba9732ab200eeddd8a04f335f3c002377202e1068919e0306afbc8994b117440446af774a57cf4154061c4a104bc768e554025eaf1bfe670e5b3201a5a7667c87f2ba30042ec3534e9cb4cd9e023b9b0b3b093c92860678f6ee9e90a1b5a60056fbc4ed6acddeb9c,
   0x3439a286a37edb38b00ee16161e04ee2d9205b772f6357b462ca2042c992ef2a7beef3c056fe50504a714905000ce8a38752c8657da003268c6ea0159ad6a02fa9e80464e18bde204734519f941e420580617f16fb5b549f22a02867f22431eb5c1a2018a3787a9301af06c03ff7e0c678916c2da0233b1a94d53f395a40680af8a4bc51b1bde0056fb09ad3076e4354,
   0x28534c80df04bdc0a00c13a38e5450dc50a0555dda04b0c26eb9a0446d8942cf82c7a40060233e572369776dc016ed2864cc3378236000412e3d197884024036011837b1dbb479e03b7436107b0d474e006360e823a663aa1c001f693e94045c4faea022bf9db6070bd071c04ce1c3d578999421202314e01e29d6175d0063959999ba66965da0056f9b3f694e083930,
   0x2a86aeee0d9e763d200ccba342967e6679c0572e35632a44d92c40439e984bcfc5c7a1e05e8ef35e14038df4e01494a6d4f10cb60cc0009bf4ab09aada03a03524ccf2e4a353f9703e3e6f5103f5d5db406386074652f0b3b620219460606e1111a94020c4556c7de04409804a2e7bd7ad407d8fc0227e094acf874061e064970401342bff4780056fab0b87ae96afa8,
   0x2cc4b8b1ea8693bd000da886b0faa7757ee058ecde287656558d4042bdf349eb9b4972205cda200930ddcd9e20125089342b3a4d33e00120b7538fbfa22940344cdd0c65a6a19660410b112dcfde7911a0638c1b233bdb0095c023d7cbce403757b6801ed8589196221f02e047659b8e615949840021ef7131e086baab60657507c49c12feff60056fb55cef6a250a40,
   0x2f0a29599bb0a2bb800ea8ed94166840a6205a95a521f133b4fba041cdcd971d97883be05b06caed8e93f0fbe01025657e53bfae6b0001cf6f940dd3d11d603379eed3df1d91c91043d4abf3d7b03b57006371ce31622b8d52e0262f4b083928e619001cfee37e5c541c6d20448bbf980bca7d4da0216b471389df076480662da90b48ec9d3780056fb6cd5d53c0a4c8,
   0x31550eb112c21e82800fcaf507a086b504c05c251c14884d6122e040d0cb07cd14c322405916692801899d68000e16661599032a2f6002a7b3eb182e2e3a8032ab9481dc31b2e1f04696eacf632b6be4206335e842a5d696b1e028970651da9cf0e4001b39a732215bb0f9a041a47bd846b39a6e4020f3ed8f757551b40066c01d6e8f83844520056fab91bc96cae8d8,
   0x33a2974f5f96898750110dba7344061da8805d9965aeffcee8af603fc7b2a8c58e0abd40570b2026ef88066aa00c262fd14ab61e35a003a8dcc20660aaefe031e310ec6daf839df0494e9cde03b242cde062d895e8a74f377fc02b0c78c34050f39f40198b0d82885b9274e03eb31cbd0a3414cc602089c41f21c2e77cc0672b4ea9ff7e536ca0056f8d42c8f0f812ec,
   0x360add0eaadfe1193011f19f0e57df83ba205e809a44bda45dff003f5a2a1f4ee0d3ca4054ee0cf50948712dc00a7d6c9c8aaab7050004ac114dd34d1d59e030a9e2559b4954e7e04b84388cf37ded49e06219135e1c1146b1202cf6e1e4cb12db58e017c2fa5d0f3d1eebe03c0724fc7d3c3b31c020bc6e2f7d4093796067a4fab646a691c940056d6ed53923bcefa4,
   0x2e7e72448060569a2010e6ff9a2da9f9e1c05cc6a6db9052b1b3803eb9b15110bea0f2c05b0626694de46fcca00f56c99e0637ab8aa0025c30dab0638d78e035b75c55b5afca89204606135abd5f2719c064cc2126cb03dddb4028ed0e087ad79f2c601de1985d837e17f380433062711bb2be11c01eae289788dfcf8060654a8e7edb32b2a640056fb0c7987fe4d1d0,
   0x30d43bb68e54513c70120ea5a8af121fde405e3e94119537f89bc03dc7455727fc97f0205902dfa8980a728a400d571fa210924b0be00348237d7dbc9b084034dbbba3813df2417048bc75e4e7b7782e00647601b0b2b542f4602b50ede14d15f52aa01c1da1cd41e7cfe1e04044c5d258b44e7d001e4d8f7f6c7b784b2065d00fbaf755f21280056f93a6d3c73a8ec4,
   0x3331aaee0f89032e6013479009a1364e89c05f8e5f5f5e3e4bc3c03cdd4f2fd0f93c632056e4601007feea13000b79707bbb41fc5c2004587c2e12a891c28033f6266be3569875b04b5b898236d2ec002063f6419f86d0e0c3a02db111dfab083f0ce01a68845749cfb79cc03d56bdfb6e780913001e0beb199e94b6e0206635e4e16958e9ad80056f4622dbfeed85fc,
   0x35d18ca9283a19ea4812f1a35965e9d7c6c05f6105a7b11ee2da003e091f32ba77cb4ce054e1c27bc706177ea00a33a2b9e277091ac004f944cd4742ab93e0319d9c2767114f1e504c6c3c909605df6580629c2da646eabd6c402e2480c73282ee6de0182c0146011e36d4403b70279a6112fe71401f9b19c65812da138067345b2ca5b80ca040056e75de861d7a6c44,
   0x32e1268e6f7eee6cc015533c4bcc53c25be0612d83a5f1926edc003a4d3272a649e5c470569ff6de8118c4cba00af3aa414e6ff508000517b17eebc947638035bd697c878de66c004d24f5887c5787550064cc8c3993acfba0e0300f6b77177d163f801b2f350e2efa730da03c11c27028854f2b201bf1fab3b906067b806544ec6ad1fdb47960056ecacac6917b00f0,
   0x3585024672c02a82e01519e01a7cefdd64a0612115365ae12f91803b52ab75ecc16fcea0549605a55482f4da00099a11601762242c8005c05afc5f21c2fb80337a1c120b94328cc04e5b1b152faa30634063824962c7799150a030aba684f424528d0018f3967e35303e95a03a0f80117e1f0131001d5fb0df08f49a1fa0663df6fe81c3fd8b60056f5d304f73008498]).map icosaRowOf⟩

/-- `s2/ahrens_beylkin/ahrens_beylkin_4692.hpp:13-4706`, `4709-9401`, `points` and `weights`. -/
def abGrid4692 : IcosaGrid := ⟨219059442999199800, ([
   0x32f978342560381cc0032f3730fc07943840483a6399ed9c94fc00557b5d9ca957d075c057e891d438224ac760197bb7a2b2b94100e002ebae0a4dc2bdcac024e1ff576e4b4086403366bea34745f69540562c2d327982677ea014f047f67580b2c6c019bf40c960fe176e604cc5d3462ad521af8035c8833ea3f8e19338677ff788d115c87f00056fa472a2c54c5fd8,
   0x34c6b6384a809839b003fa9561dbce38fd204a8b7804d4dfbd89c0543cd451d23e7afae056c5012c4b906599e016f420f58a3a4fe76002f633246fee020ae02489cce06180001da0366c05848942ddc5f056e685db7ce0f71ba0174be17b7eef1e0e0017f88332f61a8860404a33b77ee02aef632034907a61871c5a5c50689282a8e13f9884a0056faa92742fc0d6e0,
   0x2e66d5611b1c6b514002ff06c6aa41964d20462cfa0aedb62f8200553f4facdc4c3c6c205b115e07f1f54f47a01d5f362b21e204b2800261a75d3fd4310de027da9b20d658440e202f6577c7e90039a22056db517d149d6ffc401258d7ba67abbd82a01dfc95948c4f69f1c05133587ba7ec752b4035372746f7fad1d6306536800a0423ca6780056f880ec74eabb49c,
   0x2ff83648a2344d1c00039450d51644b744a0488c92264feaef34005412c4f5579956f5605a3dc1ededd9b8b8c01ad919eb5560bb36a00226aac2f31520f820279c49153e3fcffd603247d8168172369d2057d00cd55a06d7ad60147d733b7d21702c201c46bffd78905309c04ee838d6282a3bc52033e627dfe6a0b609b066698d6de1a5a62960056f900d8d70c16398,
   0x31afce5a484bb0183004491739d5913b70e04ad86316308c9624a052e2740a71401ff3005935604ea83ba4684018599d0f3b527b56a0021ad9db8e81a11b202748addab7ee3fd92035370e915df9ab4b005897f19fcdfdb46a2016bd7343f92f973fc01a87da6d82621425c04c748ce172af78b4e032ae8976b030a4cd3067850d72dbee1617a0056f9911427c1340b0,
   0x337b4f4806acfe21f00520b412747ced41804d0fe59d43576c03c051a6422a1922928c005805319da41c6ff26015eb5d532777655720023b865abf4d5440e026f01c0252babeba80382a8fd45bd24ef530593ab06e23777d4a401915a24a3cc62044a018d08b0adca6ffde6049e5a0a62e08b116403186892170b94f2cc068805e19969b5e8fc0056f9b0698391af904,
   0x3553221d67f23dccb0061a5b968b0c8578804f2ee4d439e25778a0505e963d21997ee90056b272d9358459d44013954e741f38cc5de00287cd6f16b4f0c260269704c1fab23dc6203b1aea309c71fef19059b8ec77ca70d5ae601b80e8958ab8a83b001727dc9b939061140047434ab2ce627d2220306e019a915edf77606957b163959d3661a0056f94b788e027d088,
   0x28718aad2498ff7ba0030709397c475188c04197a5d3236e3deda055ac279e0ea13a6f205e74c55b7d75acf3002411935f52d24b328002db7500776f97de402b4604e733de5cf52028b80dd2eb50a23a80561e3efcda309551e00e3d5125d4ff375280243d279857aa035660576be80ca14153544035ef4687ff26fd02a0610e03c36c30d9e360056fb8ac8b8032199c,
   0x2a0c5768bfc7611200033c0cc15ff142ce404413f800620da697c054c20c9e9fd98146c05dd28dd742ec96f9a02151c3723eab5d47a002472133c21bc1dc402ad8d0eadcff39c7e02b98a16ad541807fa05743422e5329201fc010254f865e4ac9faa02246aeffdc80de39a055406bec426e3b6b6034a97fabb064806b5062a03af13c0887de80056f9ff25fa1f52eec,
   0x2b82a5ea9da223590003a00670ca1f9bd6c046805eb5b36735246053aea25288d2c496205d3175e09af4288ec01ebf96ce6447de870001d57a5b86f0da84e02a9bb2a39f352465802e6897d321527a0a60585f20504fb1dfa6a012200f6374796e22a0208a22e3a7769fd8e0531fe620a335a40220334fd7c5422e49279063f9375a765b5b4120056f792018dabbb344,
   0x2cfcca2b9dbf9d9960042350b16e5ff8da8048d2cf86d651dc3cc052900ccedc949801a05c7595afe973cc14001c4a2d2ffabde939c0018b535fc570885ca02a631cb391f524ee80312f25b8d159ef5830595a65adb91e592ce014285938d5e3c620001ee22a81a3ad59b7a050f4a37dfb2c00dd2032036e2092444dcc00652d12a7ed07d5c500056f6a49a842cceeb8,
   0x2e95ead24224497a4004c02d5ad1ae57bd004b0d37b94c4740c2c051725eb15e33b96ee05b8c6d9592a1f0180019e09de55248347f20016b741a34024255002a16d1429e71a64e6033f9a7320373dc82f05a2ad451bd2f6080001642e225ba6ae317c01d355725eff449e7204eaaf378e42493b0c030d20d4e048f0d1e606649ccbce49c5a31a0056f704fc3cca01db4,
   0x3046f989722f540920057cd46f85f4d1b9c04d396fa985160c50e0504975a548d92627405a7ba1c06fab060b001780650a6d7961ba000173ca23334fb84f4029c2ac822fc1363e2036ce780d48a43edb505ad9fe7571f32a3ce01877701ef2872626c01b896f56c01e7b24804c42649500084af1602fae4b29ef69b3ce40674d1ba10810927820056f7f8d356cd68a94,
   0x320bee39263aee23f0065c239619337c84a04f584ec9a6c60a87004f115579208e642340594548ec0d6a863940152bbb148f0a5e2a0001a4fc5b9ca66cea80296ba2d460bf64448039ad254125760b59805b69b3bb9c569475601ac781777d8dd5eae019e2e24f0b976f4ac049bc8866b84292c6202e9492a5c6a38255406833da950175d030e0056f8db032f6978ee4,
   0x33e4763384832021e0075dac61f8122524c05164f7170273bdd2804dccacf7634b9cdac057e85c286879e4ce0012e6974658693af000020106e269e0e14c0029103edc9aad69f2c03c91734c07b5c2d5e05bd64f8f74af84a0001d30344ba675fd97e018433cc5e69a7ec8c0471b5a11b466f9a4002d88cc9542abfd9a2068fbda609fe0baad40056f96f695053a9958,
   0x35cdcab13a1d1f6f900881ec28e3179d3f20535cb7e03e2efb00404c7b936e4cde0a1d2056660701767ce64ee010b4b0e884791869e00288cbd1ad2b0ebfe028b2297c93b5e207603f77f85b4a582ef9c05c1ee16f9305a724c01fafba04257b69c02016add13fba65a86fc04461aec49d2cab30a02c8b9c03b5a39177a069a281a0c52e651d60056f9ce5757c16a9d4,
   0x23df7919b421d5e7e0040933e37338e6df003f6e840988883af9c0548649d6e76a25ab0060fb5da7f17deb7d202869e18d1a6cb717400357502a1952caa9002ecec7dd9ed830d58024ff4debf5dee707c056580262830d5300e00c900a85dbfc672960291bc5467452d1c6a05b485b10c6f88ae7a03515f4db84218f2e405dbf0432aa13c22b60056fa07e78ff5a7f24,
   0x258b8007361a98b24003f8688d72277a360041e9e70ebd2a5a628053da73147a2c09b940606dd3bf321c21dd60258ca39b918325980002904ceeea995554402e30729ede64fc136027d22ababe5e8a46605789396689fe202f200e446a4fe1e50fb6c026f4bf3a19114a79c05932205a6cc87043c033ef1efa3d9aaeba005f8e90757177c41bc0056fab6d1031a53dbc,
   0x27259e420911a9a6400419d6c10062f577204462611e656f5bd2405301e61593fc895f405fd4c3f669f616eb4022ca39e5366124c5e001edd765f6d135fd002db8d109a47a6c62602aa93db37dac7260c058b184e212291193e0101a6ed69661f355e024f639403ff2e4400057122c2d056e8ec8e032b22a3c5143d71e70612e7d86338d46b820056f9de1bb037ae1f0,
   0x28a0b0e9e9559fd600046a3ad14c84432ba046c8bad1b269d605805202d37151e6ecb9005f37bd04eb91d2f0202034830f7d7b4a5d000170d7ffc8e5cb00a02d6c2e2872377495202d70a3b6fe9b3245a059cc290feacaf5cd001203c923b571010620232de5e10119c2880054f974bd7a741f5c603165d6e0b0990d42406295c4953e7222be80056f6d81579e4d912c,
   0x2a082394544884f0e004da8fdf0182c489804908f3532b9ba40e2050f6e9938551e54de05e8ed5b302e342c9601dd15405999ba8d9a0011ab005d68f0a23a02d339be43e876752e030193f9707ba9772a05ac7e56f63b7b2358013edd9ab3c4c0e31c0219133dec48f633f8052ec6dad88eb3d2f603024adab126c8d7e4063ca1338eb0eeae2a0056f34e8de36e3bad8,
   0x2b7993df3239644e60055e988adcb1d0e7a04b24021e3f4cbe21a04ff0ba8b3250790b405dc883821118a4eca01b8d4d7d1196aeb08000ea23a014b4ef94402cf1525f27ebd44da032aee01645b7d6f0e05b9a7bad0dcbcd012015d85c108e230db5e02001c267d9938e7d4050d8f38ac2c05f1c402f007d76b2602d5d8064def2fbabbe98b380056f30c60ed9e5a4f4,
   0x2d0bcd541ddffe8a6005ffa7414fd17fd9604d3da39a29b26f71204edde8c4382f4781005cd8b73268373d8880194301ec6b6d4d21a000dbea8ae69bac8f402ca294c5f22a1d61e0355cb5a244c9768ca05c528dc8c84e94540017e3c4774a6f7c00601e66bea2d4a3206bc04e9ce10f4ab04092602de4e15f9ef527fdc065e5c2b09c031878c0056f6437cab63ee680,
   0x2ec25d762bd6efdc8006c896b583da3efe804f636867262dd7ff204daffcf8876b58be805bbb54b49f6b775a8016e90bd2a681e90ce000f31d881ebbef0e202c4e21bc5d671659003832db10be904e44405cf5f3c07f430716a01a20bc417f0b270d401cbe85000ba038fd404c2bb7f84da499fec02cc54c13332541984066dd9bb1e7ba90bda0056f933f186aae4fd8,
   0x3096eacbd02e6b950007b896a0bcd95f57c05185811377650603e04c6d911420988e89205a71047ad76eded740148f2203a6c381af0001350584377c6ef6402bf3d16dce699e2f003b2118d504e2e09ee05d7b5039daa9f2bc001c84bce9e902d4fa201b12b3202c206f0340498fe62d3525afab802bab9ba4912a2aa80067bd4879d21ef613a0056fac7f99ce702e30,
   0x328207bb82cab96f8008cc791010731b6e8053958c750e2919ff604b1e1c8b3cd321964058fcee60deb36401401243a1e5e64a4b3d0001a3f4f430c30690002b939dc32947df6fc03e171a7c4ece5e4e405ddbb367e886dc8c001f03b7bb790d821600196c2601c5fa601b8046d5769f7b65e326602aa0b6ecf9dafb6f60687ddf52851d9d1c40056fb876709a92eefc,
   0x347be4441207dc7c000a032bd1a49c8ebca0558d5392f64d716d0049c32ea5491becb900576401e617a9899fe0100f25de95806d9dc0023fbf776ddcd844c02b316409f66776d5e0410b9c2b3c3fcf31605e1652e6aa139809202197495c9e4ba9b1c017d29238cc402415a044053014ed8235590029a611c69ba6ae3500691ab88a798abfaca0056fbc7187b5428328,
   0x1e9a26ff807734c7a0059d9fae95c24e26603aae3ed11d55fff5d053fe46eeef3fecbe2062fcee33aaec4d9a402f617f70d57c016440055dab3817a53511203264c4347acffe31a01f01a2330ec2d741c054a5b698fba8a9d42009d6205b6f1c9359402fa173e753991c002060399de683b56c532035ce4e7a3792fd57005876bc1246b74c8ce0056f62963862a03d10,
   0x1fb54790a8137a4a00056661ffa9c4e159c03d4750f14d5d8bbfc05335ec75a506ba3600630103aff18a70d7602ca8cf6b6d70af15c0043bef056704bbfa4032319c01d570b0f8a021982e2dfc6452db605643460d3c17b6a0400b4d7648ee83a7ba002dd34265b030d475405ea2aa13cc4a94a2203452e310718dc7bcc05a4773b92c85a5f5c0056f6616719bcd1e34,
   0x211e73296ce12a010005323b3b9b013677803fc71151117d57eb60528fd8db0c5131396062bc975e35c73f202029de8a2347bf98c9400341796c9e32fc7b0031b908ec0ae9d4fb602442383c00bcdd878057a45fbc9cfb2043000cd2c10fe9d1b5ed002bcf4bf2448dd13f205cd2da646f6b3ac7a03312049b3202eb19f05c21207e57efe924c0056f80775a0505e238,
   0x22b43bd3b8cfceec800512c9532b249beb404233fd362e16bb5a6051f0384fbb69bdb0206243e72bdcb96fc12027139839f9096c5ca0026ef7dafbd4ef30803120e6d141ff6c96c026f9bb076dd90abf2058d988fb9fc2a4b6e00e6d2b63640d0a8ae029b769b228591790c05ada6a0cc3131d2c2031f04a7a10d56517c05dee6bd823a1d783e0056f8a084e0b064658,
   0x24421ae3e3c924ea200521124d7785ae2040449dafcc215c857d80512ac3682c91f7868061b9c13e65dc8a4640245d586e941de29e2001c0a010ad20b4646030a509de178399ed2029b8cef5c6870a98e05a01e9b6d9b4d6f1201028862f089e9b688027bdcaab5e82dc5a0058d2820bacdbce39c030bf159be320ba51405f92a986880fde8aa0056f889d59bc1f7ca4,
   0x25bb4cf6a7d02fab60055d02fdb32b0b1f8046fa90986e32b9e640504064374364c436e061258b738d748cf78021c9e9db09307899e001373d19fa77c5aca0304cc4c37ac0f817002c7149134c535dbc605b1c2637a09b36342011fc0404a2cbe1198025efafbec1e3be0cc056c8766ed49752ed402f7fcd91215b71ef0061052b21ebb8de1d20056f64040a59064024,
   0x271ba80b6c61edb7a005ba083fe19bf11920492f305f64dbd303404f47b5480d0847fc806088737ae9b085b0801f6db0a4f9a53d71c000d510d42751310140300cb20d056dd850402f06ffb090a395e6005c180458eb94b3500013ce7785c64e627de02452a810b3f00096e054ce697e9832adf7202e4a7208a19cf7d1a062411bf9ac057affc0056f14688e9a6d4aec,
   0x286fad4051943f15e0062a3cb4a54e7646604b33daa630c64b8ce04e53ac04a592cb75c05fdcecba55df83af401d445cb8801c6ff1e0009694b63385538c802fd15fc1354f59f5a03175ac4dba2381b7705ced53107feb327ee01594a5ae9e6cfd92c022d804b6f1e592abc052e391b01275bc65602d2fcaa05d4f5d37606351bcfd107a7702a0056eff690c44b2e83c,
   0x29ea29eb999b47fc8006b59e6ac19fa6f0604d42465c979fe70a404d50a8884a5054ed405f07b4556b7ef898a01b084e81fa8d9afc60007517729e5c3fd5002f878912673fff89003407df06e97a8662f05daee49bbd72fd072017819421701d8558a02148d57a1dd1039e6050c900bd220ffcae002c18149275ff620ec0645d25371c119d7e20056f56942e777940c8,
   0x2b984719c47eb99bc0076bce6a2d8229ddc04f7222b1ce98ca51a04c2a3f6c51b9d40c605dfda5ca8e36f7c2a018a49ca602ad4665e000757770a6d13aa4a02f33aa86f5da8019c036dc29fd7683d47fe05e6479498a6fde77c019b1d074af8b636fa01f9af39f895e3725a04e64eee321baad47e02af1e6ca13d984cdc0656698705a73fe5e00056f9b8a7cff398fd4,
   0x2d68ecef9c0e548680084c37b78607d19ae051a8406d73417354404ae9389d90583d76e05cc47937613f74fb401637a3291c487291a0009f8b8e4e970b0c802edae7412168a6962039d3d5196d8a6942105f00ccf0994518e7e01c12024dfbf9dfe7601de44f5253b93920004bcde148939005fe8029cae183f4628b1d60665baf5d3dbb1251c0056fbaac6807846afc,
   0x2f50f9ef7c6eaf9ca00951abccb1b4b6b50053ceb4b7bea55d956049994a2b8f05b079c05b61014fc0c259d5e013d7142366a6f1c96000f6a77ecbc35d8a202e7ce36eac98708ae03cd5fa6c75fde492005f794ef66e863d13601e8f9288c48a1b1f801c3218714c984af4404916365260c2343f4028b0c930cc4f6984006732353587cc6c8880056fc7888ba448f5a4,
   0x3148e4bac044d3ab800a78af295d638cc32055dae64827eeea86a048403dc2ac4029d0e059d7ce450bce348360118e33dea592166860017af273c5e66579602e1ab3c0a3531fbfe03fd52eb2684c76f6605fca446febc4f59e0021200f0e27f6b000001a8bf0943d0f3db22046490b18a58a5275a027a97fb61dd6fb7ca067e55a5d0e5075de20056fcaf1a16d2d2ec8,
   0x334a5f838cf24d3c000bbf71edab83e0192057c88df07e169b43c046dfbb90e5c847e160582d8f3195436677800f630fee719f47d5c0022b260aacc7951ba02db737717ae8a690a042ca45a6fb78054b605ff3ed97530a49b5c023bdea4d64ff905f6018f75bd1705b92d340436db3918ab652ba2026b5e38a5758e9292068727fd39e0044abc0056fc57805233dc054,
   0x35504180cc742a5c000d25b821001d582d605997335262defc398045769824c6ea7f18205666696935b06688000d588b90772c59c8400305b5c9008a4cdf802d5657dc6fef1eb56045b236fc13f1fa4b205ff88ff80dfb5b8da026671f6d9d8aaa9fa017788de876bf669cc040889f753c80ace8c025d3d4327e60ced86068d801c963eadb51a0056fb63308d2929d50,
   0x1b014b5d225b75354007605a8044fdc0baa0387ed830875ab8a280528cc4cbd30f34f9206457b0e18feb0ae460337dc657518990ccd006c574e088c9810880358241b40f0a2c89601bfbec4670ced88c2054224b54ddb6db0f60090e83634a4599f9203418abf70dbdd11b3062ee1b248e9eb1c020353b28c4776b3b228054d5d34e948b4f7060056f67deb26817d1c8,
   0x1c23d3d29489cd574006ed0cdfe3132c50c03b0955c608552441a051fe95dafb742e4420646f4f1c55235d018030ba9ea2d2ae180940057cb569d222d6c5003526924e7257e979501e77d115728945ad8055c2ea93ea63fa9f800a504182149959ce20322af618e39e6d95006173b2e6c669e1444033e1cc6ae7df28460056d221f33deab2d3e0056f6a16417b550288,
   0x1d34a17f848cff090006adbd2a764df3fde03d93ba60b78ad16ea05140e8e4c5a6b040c0647b3e9d6d071570402e107985be243452e0045897d3fbe735f92034f3321a1d766b42e020fad548536a3be100575c42040eeaaca4200bb68886ed9365e12030659edc388af3de405fedab5f881b9fe060326f95e4f701637620589ed997b752e1af60056f3b1100a135787c,
   0x1e6548451f3872fd40067ea37e47eab86f403ff2ed7759dcada52050958eaf755f620a406457f625b8b9ba06e02b7e5c02b41ecc63e0036107e54f5a18efc034a0cff63ac5d164b0236fd6be2f8d13990058bdb8c17e44a225800d1e2baee3582694e02e9bf79bacaf6be3605e531dcb2aa3537420312b3b34b58a0000805a52b279095d6faf60056f1a68f42d78bf04,
   0x1fb73c7cf1aebf7fe0065882cb6d87933a40421d9ed9c7410709a050077d8bbf9df748206405063f3bce0ddaa02908d82581546119800295459d34ea4ee4603427bf5ce37700c6c025cdca29d80c41c1e059e14866de98bf66a00e7d1ac9364cb467602ccc1553b9f1a56f605ca95c361248b3bbc0301f3c00df811dbe005bef52b7c1005fd860056efff4bffbeb5090,
   0x211036fc32bb568680064dc902cc00d5d400443ab94b330f6cb7c04f6c3863f81881f200639a80ffb65b8eebe026a34764c2f814894001e8a5aff47cd1db6033b28054bc7dc5aa40282cb9edbf07458c205aeddea85be87369a00fed954d61ad9e93202b086ab79a7c1a08805af06b629459e2ade02f1946bc3992b0fa605d71280165494ea9c0056f1f10e3fa062494,
   0x226f2f9c5a6177fd800669ba201673cfe9e0466e1f14c5a064f4804ea85f4206b707a480631eb0d5000301f6202434a12a660809898001520289780241a1003352a14750983191e02aaca506466b420fc05bfd8c4291325e7900118a57f077c4081c20294c58c10479964bc05918684eb3e467e8802df85443d9d4d774605ee0b4a90678ce1fa0056f433de5a0d002c0,
   0x23d44feb60f0f13c2006ab07cdaaf9b6c30048aaa1fbdb8e4cf9a04dc3a4960507246c80628e0899eb61b7a4a021c7132dcb55ed6f8000d6f1a2e9d67ad420330346b9d07ccfa0202d428f1ac01b90ae805d05f9f02555015460134bc9f0ff8627cdc0279b29588c792c6ba05725eb38a75e129b602cc78a7e66b4008da060387ce41ab6cfdf80056f4c023b9e375b30,
   0x25437df7ff28de6c40070fe12aec7549d7a04ae9bd96c80f212a404cc3f71775fec8fe4061e445bb59730803e01f5d60862018a40920007a7183d18d53df8032be5d388009b2ecf02fea95c4a09c7d00805e007e8b325a5c0400152e656cd3bdd6906025f2d02d3b009a01405518b8b01469f029a02b8eb1e1246b016bc06177eb00782f4a2880056f5f73aee3007420,
   0x26d253052921592220079589b7593dc55ac04d2fed4ddc4ddebde04baffc6cc2c83c5e206112afc6d1f9e567c01ce843d4afc89f78c0003eba62f9f201d86032726fd065590d338032b24d737fbf407fb05ee6c62f78b1e765201738de031061409640243f13290f1462fb2052df531f7bb53c19c02a55cf3f6f40b87b6062aa200cd937799560056f86d6ce11b1d24c,
   0x28857cc58ca6c62be0083eb8c65d45c804204f7aded4d47ad842e04a881d502b4f564ea060136a77719bb5ace01a681dea47e54f184000289a0a390d24fd20321c59900902dc5170359b0312ba2e998df05fb3c2597d0fcabbe0196daf3147a95ec6a0227e3ca66c1def120050754d8dd4b6c89480292043609856cd132063cd327739eb8e9180056faac432f759d388,
   0x2a52dfe6734e5bc700090f4c2dd97934096051c2173d7c6d7579a0494a56e6bc30526d005eea1537c514eeec0017ea0aa258bd77d660003c4f34fcd322e3a031c397b7d8af8406d03899fe876008035e606064728085900c62a01bc89cc4b361f85d4020bd079b35638a82c04de3851b21c8f4f2c027eeab0cd924f8b6c064d6a47672bf27e6a0056fc0da05364cbad0,
   0x2c345e8cfac421fd800a0594d1a013ecee0053f9e679c2caeae8a047fbfa1dc7feb039805d98ddcb015d27d960157a08517c38ec9260007c714399c9bf8f803168a8eedb92753c903ba2370c071a144f0060f2f62ada9ecfe9801e408e0f96b60a78201f032bdf82831b77804b3360bba84dcd02e026c7f12eb988adae8065c016e9c4eafb2220056fcc5882d8f9b740,
   0x2e24f9b72e9701f5800b1dca599b89d87e0056182d03302272042046a39ae480551083005c22924710bf26e3a013219bd317e03c21c000e97554f75722a760310a92f2e66a6024f03ea7d14d1533dbfe00615ac77f0b24a36f6020cbd8aa619af4ab801d55f0d7bc12f1f860486df02be667b97a6025b2f217df41c470e06685fe39ea98e28720056fd01303df302d80,
   0x3020b17d8dcb78a5e00c53db2d3a368af0605816143346eac6e3004546b2d1fba87748e05a8a5ad84e4f93e1c010e70b8a4a52e8d58001823fa9b95d41ec8030a86c57c2a78058c041a203298ac736ddc06199a001797d7cfe0023628a2f3a6968cf801bb8a70dcb2c31d960459a958e56d446e90024b47801c8e2e1c8206726fd577cb49e2be0056fca701a0db8b970,
   0x3224ada3fbecd4d5600da3bc5d04ec15502059ef396cefcac3efc043e9d773156a56336058d32f35db45808ca00ece0ffbc1e439f2400244db3f3305988480304121e51a52f76360448a947ca866d30ec061ae9f6993cad1868025fe4afe5cf1bc74401a2cf11993cab8448042befe6a54bd42f46023cfe2d51964a1788067a347323f56789c80056fb729341fc9fed4,
   0x342b8e7cff119090900f0c237d4408563d005ba35d856aed1d7560428c8a927d514175c05701fa02dde865dbc00cd925fd99f7144480032eb33e46cdbb8a002fd853d25c121a9220475e3c3a3d18ef92c0619ca88eb8933c8a80289c4715ebdc38ff6018b6963c9731aef7803fe03c6d1907f8ba8023031bf087d74124e067fa1e6a225fc071c0056f9849600e491fa0,
   0x36284092db8824107c1090c695a274518a605d37d18a1ebbf1c5a0412518a6555e54ef60552118f901a4152e200b0bafc0af7cedaa00043c154b5c7b574e002f7c15e0de39c6b8804a1be35806c7a4b0e0616d6cb5c696cd6d802b3e1d27b558aa9a401760610af575e7e6603d05642318e0365c00224226e89a9f2037a068272082ae3ba6b500056f7dda8ca4d929b8,
   0x213d35e781a89051a007f021103c4b97332049207ce4e63a006a404bb4cb9b08134cb26064285d2da8d51133802317bd6d4e213a2b2000d61df495b3a189c035e2b4901f4209aad82cbad0e554cf6379205e4c69b481d215834013c0d12bb60f01f4002a31c088f4b92fd480587769267e4c38a1602ab82eaff2b7ccd8805e9f7ed2286eab9600056f810b80710e7124,
   0x22bb994d2931bbd2c0084cad17e21543eb604b75f1366c28f01b804ab55c4bffc2606fc0637d5afd3e8e4447002091cb2ded772b6fa0006c6d2802624ae64035943e675ac4e796202f79f59f84af5b1b805f53f88e3af2f7370015ac94b0a8ac9b01c028720b1dcd2a2474c0565b27b3b0f380896029776d5b6a61023de05ff583d4a60cb08b40056f676a9c4d74ca04,
   0x243d43d1a9f59f1d0008c58269fe695095204dafa2fca3bbe056e049adef3c400c764a2062b8f93fbf5ebd00201e29685e57b1bcacc00028834255826f50c03548b1fbf7e96cd1f0322d064710f6ccaf20603ab0d94ff484364017a25c91335fafa7a026c6678600989c6a805436aec9c80ded5c00284607385edd7358406127c88b1de9b827a0056f5169e55e256070,
   0x25ce52ab7830c23ea009597320b833e6a0a04fd85e6255decafa40489dd0e7c77cc03c2061d55825bef1fe8ca01bcf6cd696858d5dc00007c4446ca324354034f90198b14745545034e2706ea808d0970061039d8742e59063a019aa58f8fca34f2f8025211bb2e2164e428051fd723fefc10928802721abea96069243e06240659c577ceb3660056f64b4b590b2dfa8,
   0x277a92d10a7663b1000a109c40fe24c841405202f918c2849019804778aba54e8dc884c060caaf264af83c4da01971371c3e91ff21e0000afb3511e6cd89c034a581b9833e637d7037b1d93bd83e1bcd2061b5931c08937ba6801bd82aa00e8cbc1ca02376d8282acffb60004f9c0594f289d31ec025fe8342f816e91c606345db104b33b717a0056f8d5544a21aa034,
   0x2942cf7371324ef5a00aef7755b0f58ca060542ec5fed7d246d060463b760c1bd8b1ccc05f95e7994c0081d36017104fa541646872e000365c3260d9a976e0344f954137176ee8f03a9c7c34a442e07400624e3df09f05258a401e2f588372cd4ec0a021c96ac891804d23004d0fbd20a66962094024dc1cec92ce0f6c006434725d2dcc589d20056face81adec34d50,
   0x2b1f5dd51c22a955e00bf44cf374504a5a60564ebdd895df9a73a044ebb8b471f96538405e3a0a737e00349ba014ba8e498ceb9681a0008ca8d5c3c3b59ea033f88db92c71decef03d9371eda22a4e03c062c770eaa88d9ea1e020a59d0093c4b01240202232673d782cc4004a63af218f068269a023c1b5953fd6fb52206504acdf41fa5fabe0056fbe2143075090bc,
   0x2d0ab8d9b81084a0c00d18759eed7ecba0205854dfe0e592f30da04394217953660822405cba8eec568dba5740127bfb536e21bbbea0010dcaaf9aec4d98a0339d3add7e2de50d004086954d3d819c9100631aa8dc2b699fa0a0232ce0e2baa09f1fa01e86a642c0b43b4cc047a3fa5199140faca022b9ed3a406d880fc065b337ac731a59a940056fbefcae0f143a78,
   0x2f012eefdf4bae3e800e53652f613ceb3be05a35fc7752ed74f4c042400e3aadd5689d605b1b432a6e197480e0105cd816f3d2d472a001b74b1bc80100c5603338deac0977bfe3d043685ca416b7b6f2e0634356027e7d5bc84025b77de5550fd5ba201cf8f22a8d0ec06fc044db56a8f1b07533e021ce9bf98e7295c500664041043ae43d9220056faa1653fc08ec1c,
   0x30fc6b94f247d3b1900f9bdb654422ca42005be94f6f23bd342e4040f9683ef56d910d40596330d5c8d8dfebc00e648a948ac97e92e002841b78c7fcddd54032c9428d471d09dfa0462baa49553ee3f320634066dfd48a8de2a02837a13a25db707ce01b7c4a8106ef6affa0421638c988ab40bda021068af962e78f976066acee00534c23b4e0056f7b0d822fd5173c,
   0x32ec8ed3f9819eeb0010f2cb9e88d6f0dda05d72560a6fba8dbc603fb8c42cdb4a562480579fca1704e3752c200c987b51d0f6d6dc40036e5a33f74bec4180325ccc07c7dbc6a60048cbac2013cfae6320631c52e3872369eaa02aaae690a127d9fde01a1cecbc6281dcff003f5feacb9f898a9ac02056ac61ab9090d60066f55089852643e0e0056f4de4fe0d126878,
   0x34c2913b465fa3ab60126906c5284bb8eb005ee4502d4b8c15a6603e624265bfe75f90c055dac1ec444b06c4800af5cd92e4cde6d1c004755d2df83428e2a0320dff03a6b82136204b55a3797ccf09952062e8fe3b266e54e6a02d23e3ad7de19e890018e9772a14e576da203cb63a12b2785def201fa2b76f8f6f3ab2806710c8e54594d53720056f4c603caae8cf94,
   0x2c03ee41001bb5dd600f3dae3d97cc2eaee05a7d5b2cb7e98a4f2040725a8a985aed24405d2746d0b97f822b0011ea210c018be04ec00164ac55c71af08040362f2b608b6d11ad98426bdf8ae703d1512064b34dbc4ff4484d4025ac3dd4b925d948c01fc322f3d23d20040046bb3e64004f8fce801fcdd863def6848c4064b9ec098a65d77360056f729c612d54259c,
   0x2dd76f00eb19e27d80106120ef3660cb86405c2001c71468993e203f45b54e620a1c5a805b9cb47b51733cb9401007be91b9d71faa60020f99bd07cc4446c035c80bbcc1f56856f0450261f707261e424064c22f76acaaddd82027f9d1d656563d84e01e5945c3e86ba56340442dee8277e97b63a01f0ad6b7a9d2643b40652fed67b0941598a0056f329b2c64a7fbfc,
   0x2fa27f34e289db2a80118074cff3ddd7cf605d8e02e6725079ac603e341c8792643f5b805a0ac0b45d1dc860000e52e5eb6afd8b9e4002cee8df4eb70dac6035556bd68b1d0056704768cea5af134c69e064abf7e904147937402a272217fb28e8df601d0471dc1024543aa041b9c6b9e2251c6b401e6f7a3cf955304740658c55c03ed61907e0056f073aa9b4fded28,
   0x316f16433beb58a09012c3effa47963808805ef2bfccbd033f19e03d0a5ef5b8b0862ae05862a0050a0cbe61000caff50d9ff5aaede003b092952e1b57cae034f0c6518bc456deb049d3aba0df7acd2300648251b875badbae402c6d88b4253ff6e4c01bc35272b9708b2b803f352c2637b8f4a9a01dd13450224f2aba4065c75514afd52544c0056f358d41a1cffef8,
   0x3340ae4a26385dd2a0144942a5ae1cb213c06063e0f00f00e82fc03ba6b6b92f7387c04056995b87f123ebb1c00b14d5f19f4a55624004c2da67b5ac2fbbe034acd47fd961fcb4104c5f68208a6d8085a0644bd8cd8c192db5802ef0f1a9fece77eba01a9b3e2f97bad7ba203c87c537af7cc5a6601d170fd761a97c62a065d4cdfb7895d176a0056f6b041a15793de0,
   0x3528aef0f43a46eb6015ed5b8eb9986f4f2061bf2e20ea0a5f81603a3bff8b54f92feaa054a7d41fe3db9e93000989adc6d285d9a3a005ffde8bd602760aa0345f6600d7956f8fd04eee32b44686dc42e063ef00518adbbfbf20318942fefa2e369d7019772ac9b61bd2e82039bf98e8c26202d5b01c7045ea73920a5a6065c563fe7924f05660056f8af682d5be3630]).map icosaRowOf⟩

/-- `s2/ahrens_beylkin/ahrens_beylkin_4992.hpp:13-5006`, `5009-10001`, `points` and `weights`. -/
def abGrid4992 : IcosaGrid := ⟨129730449698194000, ([
   0x30c2404fbfdfdb05c002ea926e2254af15e046e1e23fdcba45d26055afdf3e6dfbf75440596b529e1688cf1a801b98d3385fc42cb08002b11e58ecdd7f482026201b5e72fedb2320311f367d4e648f61d05646498131f7d849c0135d36eb03b926a1201bd2474d953b5af7a04f1d7e8d38c54d686035d8d3803759ec5f70665bf7d084d79ba000056f587dc4ff908f08,
   0x32df5122f65c0898400369a21df07817da0048d7fdb3ae30bea36054f538e217f352eca05811386b853281bea0191b57d0710d0b54c002c40ee3af73095020254510dbafcbf998a033eb391c879671ae2056a6b415ea32ccaf40156642e997c5266ce019c0eb0ab2121b65404c8d129a8778a38b403529e1b434a437113067976ce800457316a0056f66e94dcf431a84,
   0x350c4fcd2afd71b200040d66441b38cb26404abe1c5434ca518b005429cb28c44d358b205692f0326e22fbe54016ae2c51f5c702012003019bdd1783f21080246a8cc8c37d2584e036bd9b2793d2d0f44056e6e0ea30d76c9b001789ee83866fa39b8017b9f6b8f97bd9904049e25a22a421aff0a034847e535d0940a65068b21dcf3338e71620056f6cb8b84082886c,
   0x28567b294dddf02000031451910e088ffb0041b25e30d322203c80558bafc7b13572f3a05e8c4773fa61a5e5e0240d97ebc89805486002d07b08935beb81202b6acf57428b97678028c43ecd5d21c34a20563d49f43b25ea97a00e4d0f8ba09f6d444024516e744344ab48e05772e690fb1ab840a035c80609b69acce1986108444abe78f1a980056f3c6f4b272b2b30,
   0x2a3cebe756c29cae200317f9568ab905ee8043b843def7245a52a0551c1961f23ba9ce405da0f3b0da486e3280217883e2fe13ab10000266cebefc67b06f802a8323599f22d421002b5b952cd2fb37296056ebed3efcc599c8800fe948f02dad6ac2202229ae7a8c64fd81c055477ed1c78a9919e03517206849a605abd0629e9393238165a780056f3832e4a3cbdefc,
   0x2c1e2f5c7d4424314003426c59afcab8b16045bb47691de9e04800548cf7fa323f130a205ca5866357f49695a01ef45895ce0b5abc40021c5c893729672d2029b2290f41e0af47002df9fca8d8b01f2ec0578ed517064c61128011a1da448f34a5ee80201a686646acadc720530dc5ba5cc0938f203459fc616a72a3f110641275b58a4a51cb80056f375ac6edb54a2c,
   0x2e0ddd1d55f8609f80038e602a98ce6d262047b6d5ea8e6095bb6053eaeaac5341d5ac405b8b613f5d891cfac01c795af475456b5ea001f533fcb028e85da028e3f7bc3078e89a4030a3eb3aa06f1bb340581a24f7865e127b401376403978aade19001e1287225deaf0272050b9f0a58afb230100339fbb907b67e4ec40656bf6e91bc3cb67a0056f44939615203170,
   0x3017cefe01369a00a003faf2b8019ec3606049a8d6a4e4c6a14c80533b5e3d296314e0405a48b905668ada65e01a030a752badd3930001f55415521d54f680280de20fa24afdc640335d55b44d098a34505886839624b773f3001568610c710554bc601c08a917db2f41fce04e43800d9f6f1e9c8032f042f77a0bb01a7066ae6b34484b14a620056f578fc897bfebe8,
   0x32352f3ab31db39e70048b121dcd05b60ee04b8ff871ae72bc4ce0527a7fb118d055a82058e1360f04cbb006e01796ca88570594cc00021da78b269f3d366027367e7f0bf2c615c03622a83d3b5f7cc6e858d563464778980ac01777d64f0f335983401a04351afd6c0da4804baeecaaf644f795a0324850ab3d9cd6eb1067d4ae750164737ba0056f644d04c75d90c0,
   0x345f16111f3f7cbc30053e14070cf769a0c04d650e94c49cd2b2a051aa4ceed6cc801d0057588c1741e9e43120153da85f99ada3b3c0026f18aaa0bda730e02660d6708902af588038ea6c5e74e7fb1ef059049e9898aec0a180199e5d919f7bd9e380180ca3bc05e7649d0049045962bece9c82e031aa7360703621c45068d991d5d58ab14900056f65828bf5468024,
   0x20317d8cb938f0dbe005076520d529af31203c24b8686c50000a80543a739b2034549a60627238747f28602ce02d3872ed0928699aa004a6c4a5082664e4003143d3e78e7370215020cdd6055b3bd77de055376c8f8f3a8589800a95b35fae97c4ee802d991368d62bb3e7c05ec777f5c6e0a4b6a03599713523dbb95e005a296255c6a5b4a4e0056f233cbc00b40d94,
   0x21eb08243f4cf7c7800495853a1c482278203e396546bdf3e36c805414af2a45b59c792061ea8c8fca99adb7002a898bb3795f7b310003c8bf6fcec1b83b80304a481c21032ea88023365c6145005f9fe0562cc93198ef6e8e200bcc5b08c6d6fa21602b56517dc6e5e56da05cf695f1707c62f58034ea7570c02b3875c05c184ac33dcade5f00056f373120260b24e4,
   0x23bb409822ad297d400441d0e2b201ddade0404ee65ecdcaf517e053dd1a3ae3b3be10a06141b36dfe2cf1e0c027d7f4901edd1245000309bab7833620b4202f4dbaa2ea502f8ea025b43813203f512a00570e27e11011a2b7200d22d7688b2274456029100abb4da8d0c5605b0403866185931780343cd232c84c793da05df636ebeba014af20056f3d167a03698724,
   0x259b9c6650d1455160040ed38bb57363ae80425eac83638a721a005392e7e8f5d98926606079ab264172559a60252d0a8e021cc62560026d07a63c8cb148202e52b504310717c240283f9eace0bede4de057d8b614feadd489400e95ea7bda3883622026ced6737b0377052058f5cc958b6eb4dd403391c76735f10703805fbbcabe93855b4060056f3cc1919b2335a8,
   0x2780c7d98026dbf5200400303930c91c3380446756e31e92bd308053305758e6e583e1e05f995f197dfced33202290b4aa6ed29991e001f2c7caae857fd4002d63c5a4e8e76966a02ad2e89779a024a620588fe08562a26a79001024550007399d0480249e1d18f11637780056d3b68d862bb9bde032e3a8efcc6556d9d06161e48e3f99a11260056f3a124d354fa810,
   0x296229c1d7da7c4ec00418b763a7bbf7e280466c2d46184c59742052aed592e386e8d3605ea75f595fb5515120200576bac818b9bcc00198f5ec0b4c21fd802c8a4d0f4192a933a02d6d4f44098c6911805939bc8cb1a8a9f48011cf59845db9db71a02285383264888fa1c054a24a7c82ab37bf40322aa42b942cb3d98062e5392b35f4a0c0e0056f37f79e08bd0624,
   0x2b4a712e531b4a2c6004549eb02456c810a0486b0d673fe64ab3e05215d1f01c5c6639405d9c438f6ba60525601d86874d63dcf7b0800160df5222cdda20e02bbb1891ca1e2d36003011446dcfd994268059d0648d9aa39e23201396230b9cd584d4c0207a46ab6565e726e0525b71a906edbd8fa0316ef66e4920573e60644b15a996640f6680056f3e789fd67b58bc,
   0x2d470d727efd75182004b063d473269981404a5fe6d6fbc23ae780516e52332207d2fc805c6dace4598e0c00601b0f62dd39bb978240014ddc48dd6789bf802ae8470b06d60581a032c1206d6019665bc05a4aecb998e2d365a01577f972134b27b4401e71ea68cf7aa744004ff750422232adc2c030bbb6b2e4c2add20065986f5c57eb6de400056f4dabe310da72ec,
   0x2f5750749a79c8d7a0052dbe463475ac27004c49f352f745c8352050b7202894e37a5a805b1b0f3316273cbc2018a188a931f7ca2f0001617dac4fe61011802a1303cb84be48e320357c739da630fe28805aa883eb852a4cf9601775a751814d3846a01c6dc94316876644804d75d4aaa7f05a1d803010a684ba276afd4066cb49cdc64aa28fa0056f5c1731265f1254,
   0x31762c4328dc9ffda005cdb80ce9f7e5ee204e25bfa810c33b95204fef8e57684b776a4059a6eb5dde21e4c8e016429c653932a29a20019cc47537819d02c0293ed9bd023b2ab700383e3eb4fda77dac805ae89460ef8c9f3d00198cba6f82663897e01a738ffceba8e9fee04adba19dc78fa410c02f6db73bf113c29f4067df8451b33012ff60056f626881367ed258,
   0x33a0fac1256c9a52f0068cd4e41402a18b204fe9876e9f888506404f1e7f4313863aa92058121f76f8d4cf558013fac444bde4f4a7e00200ef6eea1052944028692aad46f8cf5a003afc340c563e622d505b059e036e4a5090001bb4ad2fc3ba3921201886a9b9e7d7421820482f9e8399b34213a02eda9062950cd9100068d23d03ed30213600056f5c09a8a1e8b0b0,
   0x35d6d4327288fc2318076495aab72d6e8ee051896bbf3f2134c6804e4edc42fe9694a600565cfb766f605c68a011d20cbccc6931e600028e64f112206dae20278bc77360af2970e03daa434fe18f1893405af87c1a12a9b2dd601de207028b6300ee0016a83d76717632c6c04579717980276437e02e625a9056d882a96069a27e5477d9296c80056f481a7441c33534,
   0x1a3f2ccaa07406030007d1f3983011ab9900386426b02717b107e0520239fb12d25a1d6064b3b06b791876eec0341788991faf8bb3c006f2b8425e86c8da60364fda55e34b8468381ba85f1f4d8f172220544aa7a591784dfb2009211544bfbfda306034f6c3eef13a6f5cc0635a9a04870763278034cc975918c38e6bb0543096fd740b69ecc0056e911f324b2eee64,
   0x1bbfe4cb7ac1e64020071382c54bacb5ebe03a54734d7594429650521b0800d5e6020c60647507c7c3d8d088c0318acf6bcd760ecfa005d7628e499e315aa03552c0df49a6e4ee001dbf6565ac3149a8605556a8d20963eb8c8009f60c2df953d2df8032c6efa2cf849339d061e9368b49b67cd8c034364913946f3ce5e05639b1a0859ba517e0056ee0c49db2b9a7bc,
   0x1d5e3cc60a1affb340066d7ab947b44cbfa03c69286b5b86770720521709fc380aa19260641d73618b1274f3802ed95cca32c4e786c004c6bf8b90a62ea7a03455246d0ce8200570200a3b152fbe3a55805669c37914bbf8c6000afa1e49264e05aec0308017f7e9d3059ec0604866ec67fd58df203389cb5ea03b664820584a68b9cdb27a2020056f298e774813c018,
   0x1f117b8ae66e4962a005e7b51f06d8b140e03e90ddf788e4d5aea051f5e803dbb262388063aab412320636da002c180f5b1f53569b6003cd2b06aff2a0ae20335c9f83730046e2602278db91ffb01699605777d2234bda3e7b600c283f5072f8d7e3602e3299737639672e205e80ae02353f55ed4032ce69a6ac9cd2f0505a50fc4d9eb897e720056f443a6f220ac060,
   0x20dd0b72ff9cb86560057eaf6fee93388fe040b14a0944a6a390a051c8ac287ddb7064606313a8185dfca92680295960e5948911ef4002f601380074092d00325c8dda86b141413024f6a1c351182fd020586af0b0bd7615ab600d7181937f3c0cbda02be20f1d82a83fcb805c99295b59f3a73ba0321c335d7463297fa05c442c83fca373f500056f46c3e67af02c30,
   0x22b971e5dcf4abe8c00535ba241fad34694042c7db74809460b020518ba0ee94b0fe5f40625be914eddcc3af6026a42890a373be75e00242e97e1a99cb0b00315bd98b47ab57f190277ec2e41463b9cca05943c292d13375a1600ed4fb44d54f8a34802996f936a88727d4205a9708c04eb8936ae0317078af8e6f91ce005e1db2b54f66bd88c0056f40dd97a624d0f8,
   0x249c73809887889080051133ee432222c52044d6a07150a49a6f6051370cbf149a87fde0618a316ba73c68ddc023fd3407bb128ae60001b33c594c616e59e030659bac247feba2e02a0f24ad8b2e1a37805a07b580fe01cc89801054131cd72768c940275b2b9cb1d33dcaa0587fc15c348fbc8c2030c31880d3380e59005fd7e3829f6080e6a0056f3d3795f1436244,
   0x267f4f4aa4d1c212c00513cf5dcb3f2f3fa046e0c531734915420050c5148c44f0f0712060a399947b57d05b6021662817ff94f89f2001457c157d286985c02f819f4480b85f9b002ca7cd1cbeff2faf405abbe5a6ad3526d4c011f077992a92dec7c025347b604dabbe5900565675b0484b2f1960300d4bdbabb13263806170100ff25b65b320056f3f299d1c30b308,
   0x286768ea59a2b04440053c46c860d9d65c6048e86ef89de3a5888050375782222fe490005fa511f700b92711001eda31ee27ee8835e000f938ee9e01651ce02eab8f119bb45ef4002f4cc5bf44a50381405b5fc230d00aa90c8013abde3976066aa560231d3fc7eac6f7eec05416c2ad4fcbc192602f506cd8dadc4cc30062e9fcccfa34ea1880056f4686f0e6d76310,
   0x2a5f1e5df3c47ffe00058701b5d0c2be0c404ae9844008e6af4f004f95ff3201cae63ce05e86bf5cdef540f2601c56572ff509acfe2000d0cb1c2a1a912d802dd7f764e9d95efea031fed00db41f200d505bebe77b68cdb303e0158485ae6d22a07c80210c8dc99bb1db638051bb55c190cdbbd0a02e9617fe05840017c06449b9c444d2f40540056f5205e5e3dc0f4c,
   0x2c68e46f29c43117e005f2c6831bda8da4e04cded4d93bcfb61c204ee563be485eb4ac605d45a77619e4c9d56019dd2f12bf85cca56000ce8f46f655d992c02d02a44b6fe0b5f3a034ba92fc2432aa75105c5b49876851e0bc2017779a726c46f135801f01664ee50a823e204f4469798f0e9499402de41b20cb70267bc0658e6ee9be4fcac880056f5d942b82e66900,
   0x2e81953dc12976cd80068045a094f43468404ec5598179d344b8804e258102e01c4136805be30e7090551308a01772f63f62d57bd2a000f39ec6cedc0d64c02c2d8a635f6aa770e0377c3eed4891fba5405cacd18c2d9ced5fe019832e9a82d0b096a01cff9d1928eda2d6204cb5212659d80e6de02d3b1ffe3e761c60c066b510d69410e5ef00056f6458acf03f0f4c,
   0x30a66986b6415e4200072e1944fe3d431060509784d236c64790a04d59635ccd53eb5b405a602f607a45ea7cc0151d1fb77058ffbe600140c30fbda79039802b587ef7b2a48c06803a3d83bfd35942abc05cddd3cb2b018079001ba27e342e8f3950c01b0a75ecb0eeb295404a12265578900f84e02c9eaf74a8c6bc328067bb1e813e3b947280056f624fb3498af688,
   0x32d7141f1b160e15a007f628c1767524af80524a1b31e217cbf5604c8b7f5ebe6154bde058bcdc6f64f32c06a012e306320c404207a001b693776d25aae6002a7d3b831589af2f803cf3422e7daad0f7a05ce742b82a458e5c201dcae4fb895ed6db6019229b7c158fbbd12047623c6864f93721a02c199b9e6349dea4a0689fd0e2da9a80b340056f546a3a10c02218,
   0x3513f2cc44434fa26008d18f4fde61d41b8053d34c27a5e58e8c004bc66dfa9667d4c60056f933be23438ebfe010ca4a162101a9e22002548178ec48caf5002994f9603bc6c2db603f939721a81956aac05cc32026ec56e62d601ff203f2cc4fb98100174757ed131ab48f4044ab924afa977eed202bb6255862089945c06963f074766ec4d8a0056f3fb7e95385d3bc,
   0x1c511583995af25e00075f399a0c70b026403ed6c9e1bfd921e2604fc9797096bcf72140653e6c07c1da9e83202db3bb9ae4fb65f50004005612622ed181a03667dbf4086cad364821c544762ba1a44520589c8bead3458626600ca156465c2953640031129f228f3d4361205fe92f3648ab34736030c19abb3397ee18e0586a79a490b77903a0056f43d35b1cb42a78,
   0x1e0de64c8554c01ba006e6a67e5fe342c2a04107c856abfe5ebde04f9bfada2803daf52064c033dfbd0e6239602aea36372cef213560030fbf744290972fc0357110b0571306a9b0244444eddf563842a059a940859f580035a00de1be1d28b055eda02ec11d414a41ce4ee05e104070b03d2a05a02fff6b0c6bdd2652605a6df9830e2399b300056f4910c2b83334cc,
   0x1fe0afd0ac1f29ada00688bfc9806bdeba80432213e4a9605994a04f6b0b8f6ce596f6c0641bdb589acfca508028304fabc596fe42a00246e0b7cf1d526ca0346ed174555d0895d026c422bc6dd0c186005a905d8cdfe5b80fc00f332aeeb29f0c01402c722ebd76e58783405c1f38a1bc584a4f602f5256c2042d0827a05c5755c65067521200056f3e867dcd35c2d8,
   0x21bd389fc18eaeb9e0064d1575f4c47a3d604530b1393165345de04f2743ef96feb21e40635ae5dd209c061240258590f703e4aa7a6001a28eb6e6ad7d6540337231a54f81e076b0294a0163a8a18508a05b5e93728c2886cbc0109d7642523411c3202a3017b611fba8d9205a18cbede315cd15202ea900e9decbc9b1405e222b7b0285467c20056f38fa6650b87460,
   0x239c4a7f991c00ee40063921e8e4f251fa60473da607276143f3e04ec4f80d7816d468c0628384b401780fe86022e72ae18439465900011ffaa3d84ec246c03286dcef208bc1bbb02bdc12d548a8358aa05c1de7a834469a3f601227d6fd39d1663aa02800522690dcd7934057fcf9eb71c92598e02df6015816526b63a05fccd466d99976d600056f3f6b5b556934b0,
   0x258294b7834a9201a0064c0df8c0da1fd580494b36c738614a64c04e452657986c77e1e061930c958c6d9b5e202050adae01d7b0842000bec6c954f701216031a950e087691bcfe02e7e41d44b7498e5e05cce1aa3cc799d7a4013d433e2c779ab862025ddf4dd6dbacf384055c7b09272bf4f62c02d3a1c90fdb4979520615a93710aef20c000056f4c0314e087d210,
   0x27771286e2e39a4b800683b9076bf3fbc8004b56ee52f365bb15c04dacea4641bb3b09c06084257be0954736e01dbff06f3ea9ec962000809d69ef5095228030d214d586aaa2b0c0313166b6549350a9305d6a5a13300e591e6015a1c20f1cd7b0384023c30c0cbb4d533ba053751cb31537f773a02c7b757e542eea178062ce0eeb6f4257a620056f58be9c7bdfe53c,
   0x297c1b6aed388b136006de31b6387bf34d204d59f8e561e3b0b2e04d01f95df9a2662a005f53c6fffaf810f5a01b38b3ae270519cd0000680f4748226496402ffc2f086d9565c96033f08d8e409ad152205dec8df03d5e3ca640178c3e7ee42775492021aed61d175eaa0a8051066e14a4c15536c02bc1578a727c59c1406426289595a776dce0056f62ee3c964e0e60,
   0x2b905d397a55b2ae40075a1b2ab3a7c0b4604f4ddbb72b0883e2404c4842bd358338eda05e01b08c9005cc272018c072ad84a8c21fc00076d70af65be5b1e02f2602097dceecdb8036b5637eda24075bf85e508d22529d69ab60198ee9145b85c994201fa3b6cd41f49ea8e04e7f6550542b7df4802b10c36866104bcb60656054c69aad1ccfe0056f6915267d1a430c,
   0x2db16c97544a32aba007f68aab503c1ef800512e39badd92afb2004b81f36be4bce1e2405c8ef360140e5a0d00165ba24928538441c000ada5f1f97d4648a02e4fb45d9e6bd77e60397ae29aedcca28c305e944e28d4fe2912a01ba615ff11315781401da487027f125b6a804be3c604f4b4ddf9202a6c53aa2c5c2ff860667a6378fc70f19440056f692f677a313cd0,
   0x2fde2da514b35aab6008b00ec6bd4a24726052f4489fe65eaff3604ab4e1f3bff807a7a05afc14b05efa0144e0140f3e62cbe984f520010cc051c6d73545e02d7659c95665873de03c39ee3dcf476436c05eb3f10170fefed8e01dcb3f43e75746bfe01bb28cd7c25c7421a0493847becaf0efaf4029da09150b4a9674a0677360e5e078179b00056f60ddffe33020dc,
   0x3217e7f91eeace7960097e7dbfffda616c6054943735cde2a3a6a049edf6ca25b8fd030059487980189542114011e1acd97841adad800193d95b45d36122802c912d925291037da03ee71500f99a3505a05ea7c836ba6f6427401ff246e34dd7664fc019cc513e3248adf76046839d2bf84cec8b0029669ca5eb2f3925a0684c64522dbd00a9a0056f4f25a8d0c7650c,
   0x345dd00f7127f977200a5d83a709ca130ae056098b0d465329ed204932b09a1a672d760057758e2881ee00e3000fd59c8c459d5c706002416f0b2c9ab324802b9d4821c5d973ede0417cfb471467f633405e6df06d9ad689ca602215306aad0f3d11a017f1b12822ccbc56c043c9f72edee147c54029169e76229ea20b60690671f99adbb5dc80056f3e3e1ccca4890c,
   0x20c32f1509d71a15e007889dbc41b7eb97804788262bbaa44585a04caf000c0ba2f8cea06440a89309a8af7700247f1e7687b8cc87600128d5955ae995262035937ca18581fa72402b13765fd771c5bf405d5f0f7dc00bf962c0127b32134faf3aabc02adee69d6e87217220598c128ef2add761402be58262f843f456a05e015c8a00689fdae0056f3d7f6d3da0086c,
   0x22a6a37f57ef1bfb6007855cfcf8710b1da0499bc59fd601ae11a04c3d3755a46b89bf40635f713da0c56ec26021de4b6337a4f253c000b1c9752622f6e76034af048cd357d7e4302db246c8a33d4fb6c05e1c6e26c207d02a401417c5673646067fa028b1deeb09f305036057624b9bd7609b6c602b2a26647a906c44a05fa33347b48e995780056f4ff0dca32171d8,
   0x2498af5f8c7758398007a88888ef3eb4c7804bb0e1b19424e132804bb01ce7edc35b6b00625fab5367eb5cd1401f40d83d3dae1b16e0005d9712dcbe837b4033d26a2e914b7123903065766e13aa39b8805ec7d56c87766e364015d8af16ab04c4adc0268bc9b3502e4adc8055190ad826ce379ba02a69029f3eabbcfa60612b34ebbc099e2420056f5f27be9bf9caf4,
   0x269a2153bb9150da2007f0a0adc13c81bde04dc0630591a09355004b0cb2b49728fc7be0613f3e8b76947dc6a01caba3cb870bdfd080002ed38a894c68742032fa158b71f25f0f5033273965fb76ea42d05f5b97ea0efeaf556017b96ce2550e5bc920246d70eebefbf91a4052b299eec39e18e30029a8b19b85f907f6e062974c0c62eaefd0e0056f6931bca4307fd0,
   0x28aa243c0e260b97a0085b92f705e16c9e204fc2a421d77f441b804a5836c24b44f695c05ffd83a71c57755f201a24a454501496334000276297a22bb9642032234cf05c5a41af2035f05193528ca081d05fd29478f3613cae8019b43d0bb3cc5d7fa02258d4b3b3ca496d4050330b6a73c77ccf2028ef9c5681780b9aa063e511365ce59c37e0056f6e8239c76bb2d0,
   0x2ac78226b3cf0316a008e707c7ce1c7bb34051b151db1dfd360880499757f856b7ec35805e9aacdb222b838f0017b0d9758a6b9b6920004828efb98ca74bc0314beaf52a695d949038ba4cc35be883abc06029016d13613ff9a01bc3b11d11ab3edae0204fb84d9efb6fd0a04d9e7a3396bd941d602842ff111dc51f1cc06512e025aed6823e00056f6f0f868944f1a8,
   0x2cf0e4fb70600bcba00990b860798f44ad205387b45b95b6d5e76048cddfff2c806276c05d177d0c2837903e6015540b4fced9a871600091415314d2bb87a030726bbedbe83364e03b7ffaacf1854cb5b0605c6cbe12622bc3001de32c00e4aaf16f001e53825d33963010404af893aa7fe58ce9c027a6b3fc44b95e52a0661fcaacfc58985e20056f69bb947d203e64,
   0x2f264b8c62fe21d3400a53656609207e5480553e3ed60553f7a8404803d3ac421cf6bd805b743f97274e26e6e01312b706c85a090500010232fee5a57ae1c02f91db4f6a90053b603e399fef23a9dccac060685a762643b3a120200aa827251ad28a001c63e96debd50dfe6048464db5a8932e23402722754b0532e68f20670c48d481924cdf20056f5cc677b017b1f4,
   0x3168b8e0ad4876bb400b25b9f3c375cb41e056c999830b02a178a04746bb96551372f36059b14c0e7f9e24ddc010f2a61652c543328001996d3a58c39f08e02ea13c547d35501fa040dbaea33f10fda1206045fe12518e248ba0222d3d0f9de7a081801a7ef2cfbd7770f220458f0289bfe04429a026c2d3eb3416191a2067da8b6b9a3775f2a0056f48d128eecec7c8,
   0x33b40fbb8156c447a00c0908480e21658760582d42ce1eceebc0204692816aad251cd76057d261cd5a8763b4c00ef37c08ed442b6b600254fcfcea6d4c51002da5a067a2ca27b5804367544a937e800d805ff9d144e300f04d00244c761d435d98112018a7875410f844a1c042d448b9c8b57f1a602682851eb3b6e43a206889fa8b0615689780056f3c50d99ecca6b8,
   0x35f9e2a27e067434f00d1aca0fb454452f40598d369cc8e2255d4045b8d94945390c69e055df8eb569f97024c00d086ec4f8c8640be00336478f2e20bf5e602cc48f17586f15540045fb927a8d66e9b9605f9f0ba1dacd071b20268db47e312444bba016ecf1457efbe9dcc04007f0e39086463420263419d5b67e2b1fa069104638483c91c720056f3e0390c2dca074,
   0x23c67f3860418a74e0092a27fe690986bde04e14a902881d76850049054be4ebe67854a06305f419d33eca78201e3229da92a9f888c00022b98073df4a3d0035fa526a7669af51a0326278cbdde133da4060a8b3f65eb05d0260180198d5361e2248a02739985887d43509a054453a07e4a94e4bc02799d01a483ef64c8060e42b39ae254ed9a0056f6e0ae676811e0c,
   0x25d1f957bbada0d00009834deb1d1ded13e0502362e404b7ff110048579308c2e5682ac061d4a51ad2d5295ec01b9dd7c82ff9a181a000053f4a9f77887ca0352229582a1476c0c0352de397e116700eb061318be965f49dae6019f2d880de50e78da0251be668ada0079f8051ce622b5660ba8ba026d9df6da075cf13a062452c3f01bec73bc0056f729594d2811a30,
   0x27ea6e7feed65bb2e009fe25b023efdc7120521ff6f4ea5b175400479bad80250d14076060826128b61efee2a0191c2044caea5d9e0000101d5166fa4e3740344abd2b14303a696037fb86e5a4aedec130619ace4497db2528801bfa4a988b76c58b40230a28a387dfed5e804f41cca129ceb0ed602624b14810061d18c06385dac749898ce200056f72bcb42df25a64,
   0x2a0f2c3cbfe589f7000a9776456cd4ad3ec05404a9663d73dc3d4046d6dd84466193cde05f0f8f92ecca92c5a016b1011305dd85f98000435ee02a718715e033713c2a93c0a18b003ac5670cc2f9a0d31061e12fb98bd8d196201e123e98a206c35320210518784840aa9bc04ca36be0a14a9d5d00257f8eddc2ca8860a064a5bd3cbdf6d00b20056f6e3e99bb3a73f4,
   0x2c3f4d3641e79f43000b4bc23d89bb372ee055cc843630e045e500460e2a035b85b090205d7d2026f68329d380145fdc3e54abc94580009e654c8b2d7e30c0329318b6ba5fc0db503d85f9d6a2dcaeb2e062023394bb0878fe2020351fd4f62f2415c01f0d392f533980bd0049f7409f8f5ce98e2024ef1d0d64e990902065a4e48bc68757fbc0056f63f8b80172f008,
   0x2e7a78aa1c1eff11200c142db3568be297c0576f6dd689b74d19c0454b10e373511063c05bcc47e29921e3bf40122d4d189a629ea100011f956386855038c031aaabe829cf25e1d0403466bd73e1a022e061f997469b1a424de02259398c4a5dfd52801d21e5686a692df2c047438162d9bbece1a0247bdb9a6e1bfeee406684b50c3729bf0420056f522d6a19ea032c,
   0x30c066dcb9654f89600ce79d4a7cc1b4d74058e4410d7f10e2a20044996cb30e21557e4059fefb01f1e683aee0101e0d28edf7fe49a001c40d7b138d100ce030b0ce9ea8c99a0cc042c6535dec4de76dc061c2e903aa3e922d00247284daccbf52aee01b419cf8572ca49aa0448fc95ba0498e3cc0242fdd2c92f609a2406747e412c753982040056f3d43d9dffb2184,
   0x330a758e220a98b2100dd072bef2f10201405a38de286fd788726043e7da5ac984b957e05819b04985900460600e2d68f8cf4fe03380028b36c9b7b066ff802fb4595ab2a267e8404546ddc07d86acf98061697e82604166a540268e4b4461a94f71e01972a4ee0a907b354041d7fbdcdd7e19340023f9617b6a628c2dc067eaeed5737da043a0056f38f12ee7299e88,
   0x354c48f41cfe96bfc00eee6976636852ffa05b8f94b7088ca342804307b47139cfe77920562123dad9e6a0f3800c4f9aa5068da8bcc00379c3d4ca17e551e02ed9c3a377705579c047d5685177ede095c0610579702e0fa0356028d38ede0cc5e8946017c440469fde17f1203f0ba07e0254636ae023acaa506aef54f18068617f7a7c7dec4240056f3d801d3b12552c,
   0x296230a9933d1f17c00c67310ee578df03c0563f565f5127e93540440ce85f7277f9fe205f63fd8e767c921a2015c91c0cf0654fa4400067be4ac8382ba0e0359564ef9616cfe5603ccbe5d8d17de2fac063761052cdf971440020714afc5381734f8021c88ed10da60307204b97276fee0bc4036022cc147e879ddc1d0064167510fdc1433360056f64611cfd419778,
   0x2b93fc0e962e40e6e00d2250d7971e84654057f3797364911eb12043490e7ecf9e2c9a205dc6b3692dc6cff000138931d113f4df78a000d2aa5d8263486aa034b33a92ff06b5dbe03f7f763f594d99794063842f29a778c1272022905a232115c71bc01fd8d84b28b019eca048ec51215770358760224a4f7d02bf476da06506be446e50ab4b40056f5457687bf918f8,
   0x2dce5b0027aca276200dec0d8bfe72378e40597e92a77f92c2e1a042908d8c7fee6eb5805c0e7c13107780df00116ab53f6d20350c200160944e68ee0b64e033c4bff1490b1782e0421aa0ffcf09119ba063684cc9bccf087dc024a95d4822a22cbfe01df62e7d02a45faee0463fea9eca10c820a021e983ae1e8232612065d9568639a2919720056f3e9f902a7b192c,
   0x3011bd59277e7415a00ebf4a35c18ba8c2405adde165071cb4bc0041e90b5d80f5b41c205a3cb1ce606c3e1d200f6e13f2d1aefaac40020edc006cad80b54032c632565c19488d104499cf83aa1907a40063218bbd586e713e2026b6f3b7adeb9571401c1e8228268d22b940439501a02ae019f70021adb78343440aeb0066912314c233ca5ec0056f3217815789b200,
   0x3257e6522e0740e9b00fb13b65ec2e1409c05c28db35bd749c6f404133b7f0ecd9f9ba80585305f50e9ceae0600d89ff3ed016ea77a002e1010d992cf1c90031ce77ad34ec5e4de047136b8141a9d98d2062bf7778537db38d4028d4129590c2ee38401a5a399723180cb86040dec7defcc898aea0217a447eb23c06e7606726c978e46ff629c0056f3ad781eb7b83e4,
   0x349a06d59b95235ce010d9d6f3dcd6ed50e05d7564435a7e7a5b404050242b9dd4c100005651c392dbbb4787a00bb7904756bd29b04003dd591e49497aaf4030f5d0d8f2b3968630499d2ac0c97c812780624fc5ec5f4991ba602b1cf3b3dde956912018b40e1cea4a9c51e03e1000d6d3524f01002132a5c297f741e740678fbec132749b5b40056f3b80bd67da7d34,
   0x2d16b029104ff6c2600fd53b8d28a88bdd405b652896bf4422dc003fd8bfc24c7e6e92805c44d91a8a5a476ca010d40ce8d422660be001c048eb9336006d0035e44af9ed2432ada043df9dbc9b8881780064b69ff76d2984b86026efa7d48c9b8349001ee8ff8a6994f17c2045498dab06cb059ee01f6cdc1a3aa6154a6065081eab45e3f16e80056f31afb4311230b4,
   0x2f5bb3dd962dbefde010ae04ef686a6265805cb925a0dced2e60c03f32ea025d003613005a6b77630cade499e00ee17a3f5e04558f00027937d2df33b96e8034e3b2a4af39a6d85046582bab0d60ab670064642eec5d69cb732028fc93c5f6424648a01d16475be73b000ca0429e0c1a44af3da7201f3951e04eabb396e065b645f5740ec473c0056f39bd2973535a40,
   0x31a65fc2366375196011adc5b4a1b4ffb1a05e008a8e09acfe01a03e759992c9124088805876220fff825cd5000d024e6af8ddb024000359b88e43ba6f210033ee1e16db58bcadb048d567e531b15ec2e063f8aedc225abb10c02b24796e8788cd22a01b565b9156d840b4a03fde5f8a7b01e103001f06c18aca90b6086066405a730ce09e8a20056f43acb36e2c181c,
   0x33eec43a43db6fb22012dcd185818cafa9c05f3f76ce4ea11379e03d958e61b7183a2f405668610ecae4ab6b600b39be140d31a96460046404249dcb3ed240330f68e68692b98e804b594332a9908d1b806378dabb008ec5b1002d6db145268db24c2019b28b74f0f31a3be03d0b839d35450c18c01ecb4ab5602983cf20669f3b823fdaada920056f32938dbe44dcd0,
   0x362ba98d751afd58e0143b84b058c874de2060735817294917ccc03c90edb5889e1067005448afd9a559a61600098e962e7e137f59c00596d536f66518d860324e6adc38437b42404ddd29abe886f4398062e71d4d5e6d6327e02fd463a059cf90a520183345a7e076db5f803a2d8aa54d8d065a501e84498f5272a944e066ce7c1eec088833c0056ef70ae572231a2c,
   0x3360ea64d3261fe7d014fb8a6edfdeada8a060f30df09722bb24a03ad8dae67d9898c480565261f231421bc9a00ac7fa75aa35846a800515754e939f443d40351822b34b422887e04d1a728cdd8e5965a06478782ed4403a4e202fd2b99164e35ddb401aae0f95f674ec4f403be84ed4dc74e02d401c7c4185bb76665b2065961f294edcb26280056f1b9b4b1ff2ea78,
   0x35a95d7e496a7da780163af078db000aec0061faa4b3e1cdccc1803a07443f8c792e1b50542b4e9ded8781aa200931348a22febb5ac00648aae2916f0709403430756902a8eb84b04f769ea95892f4f12063c6cb00e532a6afa0320d85e8ad5e352a5019237a206c8fbdb6e0391e5355576e53b5401c688882b6b62a8b2065cc1f45a8685ba020056ebed8a158447bcc]).map icosaRowOf⟩

/-- `s2/ahrens_beylkin/ahrens_beylkin_5232.hpp:13-5246`, `5249-10481`, `points` and `weights`. -/
def abGrid5232 : IcosaGrid := ⟨164937681548252300, ([
   0x2e82aa3b4de8f1d16002dc6679c5f1c3df4045ca13e4c6fb4d1f0055955fd1e0f6e8e6005aed9a50f770e4e3001d969b55eff9ede0c0027fb0c503e552a9002794371cf78408c2402f18ac2cbe9e9803005688177813b9004de01213fafc0502014ea01df3510ab2065d9060514cb43eb1f339b120359fc7bc5528f9ce606529aa08e213978ba0056f23777276bd15d0,
   0x30abbd612102103420032612b5c1eb081800478da7537fcbf890605522e4b0379583cf005994dd37352b5ea2a01b2b80c0d3bdccb1e002846a2364aea0dd002685263f3137c6baa031b14f05e90c281d1056ca1ee75cdc04a0a013dc47c91e9bf7e6c01bcd295330fa33ece04edce04b34edcbd4e035303808fdd487a1e0667ac255f182dc5f60056f260053d2efdee8,
   0x32ebf2529707237c90038c94fda46b2e40004938689ce8c55701e054aca45d35ee076440581352b8385a15bc2018d1d31010b7fc1d0002b406b75e9f21d8c0256a1e0816e6a27580344a5755c529d1ec4056e397a6a9dcc0dba015b6a5a68185d8daa019aa6156568406fda04c53960677f77a444034d764aa97bbf1905067af434c58d4be6620056f27b268af3888c4,
   0x353c5f7fb7acad37c00412a8214c2a112fa04acd6dbefe9eff2580542cbbace7cc242000566e292630a6ff8c60168b5fdf884edec6c0030d0e08969f591800244b0799b6f270bc0036e3a7642bf6232ce056d99daa11a054018017a4b219cf5fb6b6e01790f9f83dd998650049b41b84b78e273560348e81c951952a0ae068c45fbe208c834580056f27e35ccc0f6754,
   0x2412dadc6cf9a801c003de7074ab2e31dee03ee730bcefd5245a8054fc6ce23f4659490060bd5c6368594729e028b074bef39b245f40038841e3f784d622202e66032a4da8d78220249e4cd76b110821a055de0d6df107139f000c39a8f3217b5a7ca02906a34fa7447e95605b5dfc88c1f4ee3d2035aa57b2c7c73fb9105dadd3f1693cdc1ce0056f1b1507e758d0e8,
   0x25f729a9682fe9eee0039a105ffbb3df18a040dee65267207c922054cd8bfbadd913a0c05ff363d94820fbea202611a9e1e2396954e002eabecacae8dbfa402d57aa8b7df63c89602712d59690be5cdec05698897e07328cbc400d93db6f6c2ab88c6026c0fb7713046f8080595cb4c4dd2f2d5aa0351a1dc09d502c73e05f76a8a04f1af032e0056f29c40978b5ca78,
   0x27e2e358ecd9bb4380037a68b4966ca94d2042da45bd42c2832dc054816bdc6441f9a6005f1230ae0e3c2a540023778bbd6ab0b5ce40026b66a84085e611202c56cfb4deca33a120299963632cc26ed6605746edf2fa116eee400f0fe2b7bd69c93ee024868dc9c0977783a05741eec2f0096e3680347f49a385f5ec6d206125e7ebe125d9c680056f2ccecd3589ded4,
   0x29db97f9ed94b37ea0037c415ca9f6d0828044cf5cf01a368e89e05421584cee5e3ed9805e13cc10400377f10020e65f6ec313f6aa80020e4fdf0715b6c1e02b5a43bf241ba6ece02c2bb3cffd4890bb6057df65a0a0f334504010a7e3215b6da6d260225450ec65f50ee480550dd93d81dcdfe8a033e5add7b62ac1fff062baeb8f42b62d6360056f2afcf8e8bff504,
   0x2be8590f5cecf77fe0039c1eb2bbf2a7200046b57559734dd2fba053b6ad1cec184beaa05cf18a9d1520bd42401e60953d15d14537a001d73387ea17620c602a57dfa20b34c462402ec52f847dd70b50c058586ebcdedda348801256df33978695080020258067e7ac88c4a052bf2b62f19881a4a03358f338a4f48d1980643658c899877ee640056f29963b57c2f79c,
   0x2e0cc74ea907e3336003d7e9afde982f96804885c0ea5b951543605347a12906a63029805ba76e2d5288cdee601be938d366d398544001c8e6ce6d547c9e8029498e2f6b425f0b803161802b72de639fe058ab5ce741c06478601418de0b030af05b401df83bb4d8174b4c4050561bb2bf5dbbb5c032e110d0fc081f4560659798659c5ca56ce0056f29933d4b911ae0,
   0x30478b5d06d7d9bbe0042f5251fa3bbb55a04a3c6b6be58322936052d5f52cd8a3fe3e605a3585a279e5b91d801983f6286a174f78a001e4a8f972a36b08c0282f0e46ae42d5f9c033fcc85b87483ea0c058d5db83e0acb544e015eb4ab79247ec15801bce9f80f1afa2d2c04dd516dcbd52877d2032808caf456e3af41066dc96eaf84880d1c0056f29b4c7dfc5d9e8,
   0x3292cc1da66960ee1004a3d6a8b6916a08a04bd9c5efc0a5874ec0525e7ce5617a78b7e0589fe63277e26fa7001733ee44ac3a866d200229b7f615a97a2860270df32d689539afa03694d32ca2fef217e858daa2a6fef7f82fa017cdb438107061772019ae0cf74d2274c6c04b3ffffc5c6fac44c03233c29ec9490ebad0680279275c416006a0056f28c784b89d9080,
   0x34e69aac3d902c869005383c801ad95827604d61ea3cc686f3e62051da799dd31e64246056ecdc6408c5693aa014faa2a7a8637811200295d1894c6a770e8025ef4f365dc02162003929d5cd07ab21ee5058c01fb56ba83af32019c1f2184d12caf4a0179d0d9e76d257a360489a9acc21d7a102a031f28e8cfbc3aa984069069a2cd3c6b99120056f26c74b87acdc64,
   0x1acb1c93eb48239320077cb4926eb80f1ee038374a92e4de2aef305288dd6489c12aedc0645f3d17b86c4136a033db83dd222bf74be006ef6d4773fb7e08a035a627fc6145afe0501bafb47caaf22b298053fabc984427c5210008f0ee2c92fb07e6603468cb281ce8899aa06321e043740f1ac9e0355131c5063497a650548a5e49a8c0b65220056e7fa9a099ceac94,
   0x1c33b46a4c9abca0c006cf17af0415e385e03a23d1201f824d5620528e7cb6a2a6e7ff60642a84942c7f5091c031631b8e63de9c150005dc2342849eda4d4034c3d2956ab692b8101dbcd057cb9f552400550a8d10a1228834a009ca2ab4de4289782032560ffae355a351d061bcc1f9a51e60dd6034acadc046da072ea0567c8428fc4a941d00056ea8568eeb4d0804,
   0x1dd7425a3eba8d48e0061fea733b5ae6a9603beceffa9ae76a5c8052b94c1a47e240ac8063bbf00477b6a9eba02ee9612bcea1f89fc004eb81897813a4e30033a610c9ed32efd1b01fca46d977d064ed6055e0b983443f5b9e000aa2a7d64d1c6f3f80301dca1591e93a66206033a9501c6cf3bcc03442c52e8cc8c74a10587072671ceb0b0900056ec0764a9d331a84,
   0x1f9a9a46d8c5040ae0058324c3118122c0603db53b4b6b4577d9c052df745116bc056980632a2e8b7ef64c29002c661ce0b7f9cfc880041400145f5d2c5400327789a0ca98cf378021eca728d0c21461a056a0a5e1c0dd0c2ca00b9371b204c4042dc02dd5418f6a1dc634e05e87e67a1e7b43748033e3bccbcde18f0d005a5ee5eebc22dd4340056eeb51a969eda15c,
   0x216e7fe6b008668a6005075ca3646aeb5a203f99d0660626fe9d4052e1e48d8eaddf1b40628347c11d7196dfc029cde0d3dc7df7fca0034e27dac34ec599403154dab6bbfde37260243862df4553e327405764fc4ec5158179000cb22e9303972436802b87159c7d9a1dbd805cb582a6df0dd26360336be6b53093238a305c45eb45cef63f3f20056f134e414f670460,
   0x234e728e20c976bcc004b0a0d88d02037ec04192fb341b1c010aa052bfca47aafc74182061c677624480605060272a69cdead371d800029fb7174111b6c98030414e8d0ba3c3cf2026a63f326fdbad5aa0582880ad45fef76b400dfce89d964f164d80293b538f36c3c013e05ac07c646fa05b0e8032ddfd0976cc6989305e1cfbce0039d39c20056f2a48f0d1e759d8,
   0x2539a243c4aed87220047e9a2a45e6aa5500439316a6619c636f00527ffe5283fa3a38a060f059e218571e3c8024870ec99ab482db60020ef97d0a37e5ce002f392a5e985f289180292aaf3ff73e5feba058e0abfbf2388639200f6c4675a5f5a7b66026f6af76d66347626058addefa565b3d0d603244bcb1934f1811505fdd4b4b1fb7fc2100056f337cf861761924,
   0x273312bd958fc5a0e0046ecfd3c058591580458f8f1dedf27e5380522ab8e207e181dfc05ffc769bd3c536abc021ea18e583b6675d6001a02768a77862b9602e357cc1ce3ef147e02bbde2d6ad23fbd2e0598431663855b301c010f9ecd8cf8c410ce024b8c1509c9660c6c0567fbb2aa21ca62aa031aaf994ae4a68bc9061847e522ff561b9e0056f34d04ead603db0,
   0x293f39427f2ebcf980047e510b50d3e0bde04780072ddeb2d1d20051c7ea5dd4ed9134c05ee614e7ab9877c4201f57295173fc49046001566f38726b96a9602d2e9c45368db6fb602e5a67872a49bbb2605a0afa755e70d87b8012a0acb88b3fc87b60227f0b2452649318e0543683c6c76f525b00311a9b691ac3a0aae0631227ddedc1c306c0056f331893eb7424b4,
   0x2b60d4eb505497b58004aae4a8576258e800495da7268d54b15e80515da458190b2187a05da9fb3bb20f6830801cd1b9c4a31195d280013449938ff204f6202c1f163643931f91e030fb63d7ce0ed4db105a6ece595e35b27800145c270c576814ce00204854d96a81e9c46051d339ded8fe30dc60309b3ac14824630180648581d0e081346cc0056f30d3c110cfbd50,
   0x2d97139e0a7b04898004f3633740fe84cac04b2323eb7d22189e4050ef3a78c0550d1a205c47c48adb0297e2a01a5e204e3f447910c0013b2c14fe13bef8a02b055e1456227cad60339bcb200f1793dbf05aac291d07dc6265c016288652b5573796e01e165770822f3ee2e04f58bde7070f5b9ec03031122bc14210868065dc94b67798873f00056f2e608020220b0c,
   0x2fdd2ded96ecee59200557dbf2d5ec27a8604ccdd88a56f76ba960507c78d78ee890be805ac275cd64e42ba1201800e902eb9a806ee0016afb78ddaa6f168029e4881274f1b4d02036371ab4ded7145a125ac34618cf1472bea018030a556ec33939401bedc97ce3dc3a87604ccbb737d3ceb2df002fdbdce67df4799f00671487b420015c67e0056f2b15cb95df8674,
   0x322c3b668094cd53b005d9a098632a3314404e5ef6585ea5fd89a050019311fb80cce9e0591f5b3406e5cd138015bcf9755e6c279be001c20dd5f83837dac028c3321ea4316027c038cb3dbf8cbceff2a05ab8282d729ae914a019eb3a8090ff95646019d48c37c95e245c004a30b54d2c129147c02f96c754b9b67d8820682abfbc944828ece0056f26d88aaddf3f08,
   0x347da011df00560e80067b47750e2c157ca04fdb670e24db383a604f77f1a314bde2c920576407146285d8fea0139272c619ec6072c0023dfb47a46b5abf8027a984dbaad35001e03b59ac72b930e366905a914a3158af297ec01be398a80367f4808017cfbef383ad1b2fe0478a412c3b5fa42ca02f59bd4cebae1280e0691d8f0373ba797ce0056f2338c5f8f37e18,
   0x1b335467608f8cbc80079b78dd9c93579f803c534d0b552c8d004050822c9f2844973be06540a142e9d15d90e0305dd1e03ed259d700051a849e73e1126dc036a65072c08614fd981f406a4ac1d2a834c0571036c1b239f96c800b3807fc032efde76032dec61f6784a04140617916ef90cfe8efe03228b3ca649b84aed0569faffcb792843c20056ec74bbbaf74fe40,
   0x1cefc8910b3d0a34e006ed5fbdd22e78e6c03e3ae253d5c97d4bc050a49329b42afc310064c6c7a2cd75e746802dbf54a36e61d913e0042338cd689d1b8400357e5db2d9c5c0f09021734e4bc57dabd1c057f23fd4d7fcfb30a00c2851737887f8cfc030897b93d7f33676a05fd1e583cba35f168031b243f30b9dfe8a3058a9abcfc415db0360056eed2e02483a6b44,
   0x1ec2bc511fd90cc460065b9278ed9e389c0040290e56df5ff6bf0050b3bdbf94331011e0642e9db4e2e30e66802b19017d3f4a66eee0034679d5718b656ae0345466800aa2a6db7023bf8529020b9754c058c59f3af2786c4cc00d39be7e8b0cbaa3402e2e1a20bb5d3a20005e085155939d9ffd60313900d5e3ac160be05aa70268adb4654a40056f153d01d0e24b34,
   0x20a10895d9ab66884005f021561e401a7e004228ef728459741440509e86ad36d41a3e60637f90b5b927b2d180286a895136f6ff5c4002836a8464040ab9003339e85e11892c6520262b96392994b6a0605995cb2240f97894e00e769049227edd46a02bd74022f1330d9aa05c1ce87a98d194a34030ab3c0a75f54fe7e05c91ac71f54eeccc00056f2e07a820ac3254,
   0x228ae305fbe3afabc005aa783656fb0ce6c04430211b8cb7926ae0506aa8a1a69879254062b68925f30ebc3a8025bc0bf329fa3a1c4001ded5defa491004e0322b37ae842b2a59c028af061d24572e56005a5a6e102bbdf638000fd92d4cc122026fc02987ae4a86ac3884c05a12ffc1f58fcb9e003011a6969d6b2155c05e65000f6d716b9020056f398ebbb864e7d0,
   0x24836c84698135fc400587c5f469b91c1f0046348a16ce6a70fcc050206f227690d6fd4061cf48c88cda85436023134597fe279f20c0015c789461019549e03121450f30b50162602b425aeed42be186405b0aaaece9f30ae300115b38fd698d67cd40273e92f806df25f5e057ec96b16304a9d6e02f76db435b33f47600601f2f8b7f1ca980a0056f3cc64b4d9950c4,
   0x268e04df29ddd4446005853f4c032f5bc0a0482e70f99db4280c204fc7047ce81d21f0a060c6175c542cbca3c02073e9149c2c87d3e000fef79e5b12e8ffa030158cfa917d7864602de027ca2535c37a805b9f6f158b9183e7c012f79eea32e872926024fa30c24448fc1b8055aabb2406f8405ae02ee3a6c2ca86b0c9e061bfabc8bff2a9fcc0056f3b7135ade26eb4,
   0x28ac809d4da2d1456005a0c9642ab36f75a04a178fb39289a6e8004f63d07174c90a4be05f9896f4b6486434801de178f76d4669dca000c852ddbb10cf39a02f0396ab1b1d32238030839d19ffe9ca14e05c13637496b2a4de0014aa18e387bbd49b0022b9ef7ddce90a18a0534eefc77814391c602e5ead311397a730806345967741741133e0056f37dd87a72d4520,
   0x2addd243a88d7066c005d925bd2d195393204beabd6b44abe853604efa15d25f8fe4dac05e46a8ab23cde157a01b60462905874f070000b9c9cd3b54c87d602dea04ba8b0894eac03327a51dfac0212f905c63449ca387209240166ebd8aba220f4a20207fa218f74bda1cc050dc460990112689a02debf6d373abef5e4064af098fde5d2d2e20056f33055b63e42f80,
   0x2d1db6c7cc2cbb4b00062db220fdbcdedb204da40da28258d693004e8afcf399d364a1e05cd2d9de81a5c0058018f56cb53b7c2a9f8000d37e4a3e1141f4602ccac251b98400674035c6bf89bca0b49f185c8e398c49f2fa15801841c23efa8b7887601e4fa08bfb27c5ffa04e57b818c3498724802d8cc0ebd56aa5ec8065f940e8564d9b34e0056f2cf5f1aaff2390,
   0x2f664239a20cb8c6c0069e41a1f8dc3f18004f41dc03f022940c404e15a7e57f4a121aa05b41898d2239e2284016a528c076a83fd220011449b313be42fd402baa01815537814040385c9474768b92bbd05c95f20f38e6e767201a205c093e023890201c2f20af5bc63a66404bc6a8bb28c89b4e402d3f7772f15fc6ce406721ba3ba98e0626e0056f261208e188b06c,
   0x31b1f33df7faa643a0072bd4424ae47f904050c665403e9675f6204d9675ae5fcdd3132059975cdff4e52ae3801470bac3cd0f25f140017a29490a4020f8e02a8d677479eb0a73c03ae8819de41a868f805c7eaf078c921503a01c0ac4db82f7f568601a2265bd0db3860f40492c5b2888ada4f8602cff3b4dd9bebfb42068271140d885a90940056f20672b18e75da8,
   0x33fcd723d825688c0007d9699d6ecb52b1c05237ee7e52d09440c04d069e66c68af697e057d7f5b8c13ac38aa01255f6b381b0b7978002032f28750095f480297b95a86a27763c603d6e8d7a0f957513605c4e8f31f7c5c115001e0553f901f28a3540182c31287b7b7454c046889138d28ec1a3002cc413578e6e93c6c06908c337537cead8a0056f1ec3ad9caf4b14,
   0x364446e499ab5bdf9808ad637306e4185a2053a121af7adf0d5fa04c5ad18672f5851ee056059428ecce793aa0104f885c280541610002ae5e3f04f5c65280287d2dee2dd3f194c03ff7fdf2b4b2c8ff205c0d8dc88feb4413402019b640b9f633b220164e8d9029f391e20043d6f3cae8ee1b0e802c82129faad733134069c6298827f5f27e80056f22ad639c4919f4,
   0x1e00f22ec543d69aa00755d6bc8e8122416042ae7e5f372ab8bc004e6aab0b0104efb2c06515b685b1aa3bf16029bd11376598e2c3e0029257c1e6af89ee203635c3947a4cbf2fdc25b621cc432c7536205ae359a326bf26a1800f0b0c7357fba2aa202e8090320d6a7b17205d60832344c7f8d5c02e809a1047f60164805ae35fbc725106e820056f2a6db54caa6b54,
   0x1fe495bbbb25e377a006fd2ab017c021c4e044bafbea1452b7bfa04e419cdec37bbbd2e0645cda77ed90105a40270786660af336d6c001d9d02260da6224c035243b7a3f7192bb602834df36cc472f3ce05bb540e78b82c5b1a0105f025eaf4e79e4602c2ae0f3c1d8f4f0405b637ff16ff7732b602de58032b4bd55c1605cc6cf1b11efd39280056f39c28f2491d77c,
   0x21d81ae3072aad6f0006c774a62aeedb6d0046c5655631063c63c04e0238633ecad72c20638505d570fe163360245686fa904f0ee7600143839f291738e7603416b0cdd60e4fa4902ac4aca480aa58ed805c72bb2bba2223a9a011d31f47943ed6d1c029da78019226afe6605948cd092d167600002d4937ec4c5ef608205e91d40ba9f2751680056f3f6bfc008248a0,
   0x23dded26b3f440e12006b2285819fa596da048c67819893ef3b7a04db2ee01896a4c0f20628b4b3e55b78db38021adf33a6ce856b06000d1c339af05ff64403307a9e8a9d347e4702d6016aef054e1b0805d157ca830bf486e80136271a57266519540278e5858d7dcb240605711f9ae83c0f8d2c02cb3a025897dff30a060439c6d4ccaa14d60056f3f20ff6b273758,
   0x25f6e2dbc7ebe1a9e006bb66da58e57a5ee04ab841e914f19bf4e04d587c8ef7cc8e5380616e16584fffe9fec01f119b8c25a85136c0008646de9262563e2031f3b384e306c37340300224f26da3df62405d98dea16407aea6001508bf19e1755233002546bb87ec2b724a4054c11e5b59249972002c2a87972026a247a061daf4ca46df8a4860056f3b1985946587bc,
   0x282146f06b3d5ceee006e2144f6a90fa80604c95cc6399e3d210604cf5bdd324147868e0602dce1940cf1b94c01c860682cea20282c000621d07b96754c66030da18bae581768a5032a5a16badbbbd85a05dfa0f9617bc82150016c21fbd8d6c86d6c02305fdca7fcba9c3605259b328db194dbc602bb16f3283603f1b206355c088f819aa7940056f3470fcc12e3f24,
   0x2a58b3932d6cf4610007258b7a701c8b67804e5b2043eeccea65004c8bd7392512d021205ecd1a319425c453201a1069565da8bfd7a000655fc3fbd18fbe602fbcdbfe3e63b141403544f0c35a955437105e38401fc6862bc760188ab65a24bfda236020d0950cd1f3b9fa204fe0d34027b5d019402b498c7d98b64002e064b12dcf4e011a8620056f2bbd5852b2e6cc,
   0x2c97cc7e0f509340400784f6dc70d137996050057b3ddc3c879e804c1b2e9199fea7c9605d4fe15003408225e017b56b98a99a421200008f1b725ed51b21e02e9f0e7eae3319bf4037dae774fc06d89bb05e5424f298b10927201a5ecd02753302c0601eab4702bb966010204d5c19d410a3c6f0202af2aeb6d9285b19c065eae021b05c8f67e0056f224457d2a05dac,
   0x2eda7c9a9779f1938007ffe1974422d5f4805194e3d8bc7cc571604ba2dc31f648f25cc05bb9ad6684ea7d38c01576ee6f8feac3712000ddab4fbd03d80ce02d83c550032eb4b3e03a655c2044492cbfb05e4ff1ff2a372c82001c3cc57ab3a1ff04e01c9924b71709bfd2204acf0ccd98c589dda02aaaea28190f63c2606701f65cece71954c0056f1b63a6ef6272d8,
   0x311ee7e5711306b2a00897ec3069a9e67c40530dc109bd5fd3f8404b1ec88df4c9bbb8805a0c8b8c62dee820001352d0d8b3725c8700014f99c1f849c0a1002c6eae0f06aa2e9c403ce7713437ffa36be05e2fa44b2d167e4d001e27911defcaf61fe01a9b234724d280dba0483900c481073a5f602a6d405efef20346c067f6bfe9ec4aefb0c0056f1ac157cd40c840,
   0x3364c84945e7b07710095116c61b51b2068054772cbc0b8444ea004a8814806a14c6e5e05848e629e48b65ee801144b39ce7d9edbfe001e480b2b457eb97c02b64334239fe77f5003f67fed898b36672205df7e12323da423e402025e3c0f9fd9081c018b149b04ed3b42ea04595fc97f960a228202a32931e7312eb166068c9778eafba6a4940056f1fc7fe82f5a654,
   0x35aa917a34320905900a328c6ed0303a880055da9607a14a9ce0a049d3c168fe733d5400566f529e2dd595e0c00f47f21ad1420be7e0029cfabd986ffdade02a6c155f38273068c041f017d44a2659ea005daed9744c27ca9d602241c71773dbfa8e8016dd83cc090248c20042e0c10afeb0ae3a0029f04353afea4f90c069788dc2d9df3a34a0056f268ca65c463b7c,
   0x21320dbc96891c7ae008054a247bfa6bfe804947a9857b8d59da804b8ca42db62aa3b7606432ea57de5359c44023042a2680a8e1b72000d0338be5e129354036026ace946f2512f82cdb781c84af194ee05e6b25263a69e354a013e213639b8fe189202a3940bf16c222f9c05869c04860a65881e02a8c5f4dd7b8a4b2a05e9e84056bd95c0b40056f3e318dd2c9bd70,
   0x234275e24379a2dda007fb79659eb4ec84404b3f91ab104bf8cfa04b3bea59f312f6c4a063280c7cdbe37a994020614248e1c6c4ea00006f9802f52a9e96a034edbc34b4b9c6a8502f784f03d337d4dd205efda4de2c5b783860157960003f97f8ece027ed23ab8b51145e40562773f3b27ac7da0029fff08c36206e00806045b2573d80511ae0056f397015153fe358,
   0x2562f8c5921eb70c40080f407c96156cbb804d2424a289dbf130e04ae1e421b67a5fd4e061fb61f76c5f753dc01dcf1614ce4dd5f4c00035920b09fdcb32a033d4d8c63c964184103216b46140bc08ad805f6f4e2ef12f52ff001723ecffcdfb1c638025a8c4865a6575f70053cf4db78a2eaac22029820e1217414e5ec061d03f167a77b105c0056f30ca589f5db760,
   0x278ed6d3b8fc23ad000840106d1da12050604ef18b0cda30b03d204a7f793fff6da691a060afd9d0365d3c4a801b52f4b4bc9eea700000222204307957070032ba208f8e1fbc4cc034b100aba867873ba05fbf9180dc00d369a018dde36344cb6744202370e31da9c6b232c051669c5e520433690029139fd5d6733c7160633b3a9f13bfb54820056f259381505c4e24,
   0x29c1435e07c0939000088d1cf15cd09289e050a571fd5fec5bc3204a14fcbeb1790abfa05f4904590beaeb7fc018f0e6ae215647e3a00034507313dbe6960031a0579ca2dcdd6d603742ad1e35d7e141d05fef32fd2885048c601aa3f8c2ade9a259202149b32c6a4af3d7804ef25fe8d359014da028b45fed97c75227206484a50e4b86c80960056f1aa6ea834fa2b0,
   0x2bf832de71f9e6bea008f58fb949499c1ce0523ff256308bb539c049a26dc79b9556b1005dc8fbf486784efe6016a99b68955ae23b60006ac1bda1472047c03088c20009e34b1b4039ca85dd78a92a06005fff8ec24a471706001c74ea660bf43581801f3469643d5d5e10804c74a358b9f261f3a0286376aebf2f5d06c065ac967006426a6420056f1525a8cf76d3e8,
   0x2e34be31b2f8a5b240097a2acde52aa23a6053c47a472a3f2ef4804925cf130c247cc7805c2f8bc52781d725a01479fbf3ad2ef3ab2000c4b290c4bc6816202f73ece546cdd960003c4c19c577da3569205ff2a2e3f17446a2a01e53632a291cf891401d2f7430cd9d2c48c049eb1310ae512b9500281e6e1a00fd10492066b47fac70850d42a0056f18bbaf8e66886c,
   0x3078430c751bf6a6200a1dd5f6789a959a00553806af39d57c3740489ab487774ae339c05a7baf8f75bc6dbb80125e36498ea4681a0001426a486687c7b0802e63bbd8287861cee03ecd068a3999c6c2c05fcae3b34ddb813fe02044a749da7ea261201b39a1f7a0b7347ce0475195aeedfb40698027e106300160cfe360679cf188eb41bf7100056f22119c2cf99848,
   0x32c18af0f7f0c9fa600ae430225a0a9476e0569e4935414905e44047fbf7770359cca60058adb7460edc092b001055070cfdbd88e6c001e49e0698efc70d402d5c1dbaa307fc1b404150cc698f69bd09a05f8acb0b5bed8d1ee0224d1d8e145a2b6ae019549928bed856506044a632b42aac61d98027a688352e65acf0c0686476fe7ec43103a0056f29d1e575aa9d4c,
   0x350c092644f09adf800bd34ff72c55b5bec057fcd72d1ca787074047407853ab67adfc8056c7ff8da2ca9694c00e5e11e6c717a1f48002ac082ef71cd64e002c6585d70941ac538043db8b06a9e3ad91005f3741fc4593a2dde0247315ae4de5bd5540178559aefc5084728041e7d36595d96d2d20276647cd60eb8d9ca0690785d302309503c0056f2bbbb1a269b0b8,
   0x24bf7970e3c4c1b6c0097e4b32e1da9aeb804f64d0e2a12c4f6340486616912bbbc0db80627a55ec2d9b11f0c01cbfb80ee31542b4e0000ba75720f7bb3ce035c2d77149970ae4583408ea8d81e7fd845061222b898ac1db9460193aae8bfc456c26c026325beaa3f820dce052e9da6587fc27780026ec589127bb636f2061951dc6070971c560056f1b3ae2802a1f0c,
   0x26e3bb95f4564c5ee009b7935f621a311020511fe48b83abe896c04803a0fcc30d950f60612b1005930c37e6a01a58d58f73018d04400005e0e46dde9fa80034acd9b72f47c8cfb03693340227512ce2006164cbe3ea440516401aeffbc22babe83ec0240a880a673d1e6c605088be58cb018d5c402686514192e3bfdaa062edbbda80dadda620056f12c305c18f819c,
   0x291016092288f827000a0d1ea6b9b3297c2052c612e28b05a226c04797411f4a8bfb03005fc0a701fd1a53cce018078a5ef44faa59000023eacdee2b2310403397fbfaf0eedd972039195db2473831c7206189bca13ac33bf9601cb43402b35225370021f0be37bfd7b24b804e19693ecc0328cf60262c8204a12f66fc2064278a540fb2feb060056f13965a5128cc3c,
   0x2b47b68e22c663bdc00a7fd3e968ed1bb8c0545a8f4257cec85fe0471f9dfa76dafe7d605e3912497f58d4042015c7f014c981a72ec00065e1a66df80a74a032831c8522674fe3f03b9fdcb7164a2a6f506191b6666553d69a201e8aa73affe832d4801fe1e257c476b872e04b97d81c21683cba2025dda384d25ad927606544638f08cb2556a0056f1d5313df0dc5c8,
   0x2d8b2c1093b8984ae00b11930bd9c8b011e055df19a7337b37ab00469a7f7ca4a9e4e6405c9378b947f7f551201398e919159967478000cc95d7aba326dfc0316f42175be2053bf03e28f73f69330dad60617d47dfa849e1f4402075e5d1193fbe8ac01ddde64d43beeef30049021cef2fd4e067c02597fe7ef0642a9d806643cf7612467c9140056f29afad164af360,
   0x2fd75b5b5de893fa400bc3ebd9f76ec3e1a0575344100a692b59e04605e3799daf53c1e05ad173c3384b0df3e0117cd7906d7cde21c001588c17da17d13dc0305f95ef69db304ee040b3423d2918bcff20614d2a1d86366f6aa02276067a1ea25c97a01be837528ad3cf3f00465a15265943ace4002559e2cbfaae76fb2067235ddbe239dd9520056f31d3d9422bf558,
   0x3227e19b057bf42ed00c97d9eea17260290058b6146bc4355a1da045602073847ecb14c058f5c4b62b875dde600f7704f3880de8be800209b2041761d725002f57d4f7071b1c80c0433c0fb7bafea4af606102767ac41201b3202489fcc215b892c9401a052cde121e703be043a31c9d368ab1998025219b91105bef586067e06b3182d586b900056f31cfac6b5bf260,
   0x3477c9c7c7d2f067200d91f50f857b3b8e005a0b5ba1ae800030c044a20e97908066f2e05703503b4b4f9e7e800d8840c6cb99908ba002e04e3a144748c3a02e5f7b9d0aec3a0c8045c566d5844df5b72060a1527abe2f5e22e026b5e02dfce8a76dc01839e79c3ccd81cf6040ddbc3a7d30e7c80024e82ca009639a13c06877a08b7921c59d00056f28bd6a67c2a6d8,
   0x2869e2c66b9f511e400baafd1ed15a6ffe2054d890b7b84c2eb7e0450bd2a6326be2ae20601c1b8a547abe41a0172d5b45270b2db560003623caa222f55e4035914efb5ff68f78403af355c9c8ed5523b0630a1efdbef1612c601ed8ead4949084162022a234995642a855404d2d01284ac6d6d08023ac56aa68909da84063ae99b024d972eca0056f27cc2ecd36e28c,
   0x2aaebebf3aa7fae7200c2c9ef111946ad6a05670f26c5f71b189a0448a40b8aaab1247605e839039a0d5e12a4014e89903ac08b54700008651a685d678aac0347a657cec8bac27f03d8836026f2a27cc60630a05466aeb31588020c17a651f698bbb00208ee64e37c6a5ec404a98110aec10dc9c40235c526a915c731ac064c56977443e23d100056f3308e18209c194,
   0x2cfc5562c947ebc8e00cce6b0a201ef7c54057f6f64201379b284043fa8a9c0644f8b6a05cce32ee0e8a94d9c012b845d9a3c9b3b94000fc66aa2f0b5918a03366d44a68caec9f00401c8833b67994e38062ecc1cce48a407de022bd933e6a645440e01e8a4a3994dd5265e047f1a8dd3a9cfc2740231596dcd8acf6e56065bbb730419df3dee0056f397f1cb393f4ac,
   0x2f4ea647a5e5e771000d8f242e07098661a05967558c9fcabdc4c0435e17bc966f28f2005afedbdfe81a5ec50010a0a673d7f4081dc00197c8f638831082e032583660294546d45042ab43a114b2378ae062b2104dd3c1f0714024c954d5126f2fce401c9801aba67a7f8320453ea72b654f99218022d92c5457124fe620668fa39b705b483d60056f38c0df4946639c,
   0x31a30f584d65f120900e6d44ebe6de4a29c05abfd2a78d5ea025a042b671af7beee4b7c05917bddc12a1a94f200ea4639b530456140002578bfed535d11980314f391a33a1543c304530ced171002c24006259ea15b13198564026e194f89cb5d13f201aba1c8864accf24404282a14a43ad24fa8022a80a34a2446571c067407aa9436ee4dd60056f2e7233670edf94,
   0x33f6bed03515ba14f00f6c6a1cc28ba377805c041b71d5776c310041fdf643a770c803c0571a75700ef4c0e9000cc30a001fb96eb560033be60252ee123b40305115df0ba1c4608047afd8ab1ad4180aa061e79438fcccb70ea0290a37c66286de6c4018f38e1a8f56fe6b003fbcedab92a9fc7a20227cafd2e02040aac067cc4807b7099434c0056f195bae6dd3cf48,
   0x3644e03e73c0406e38109b45049a98fec7c05d41eec9b41a1a9c0041206507a5727391605507d1aafb72e16f800af86f533fdf12716004485c6a490f1e50802f6d4d01d02d3d2a004a35a0141ac07b0ca061640d779dfc8cde002b548186374a9a7320174b57ed9168f162003ce5dc96bcae9420e0224509d81ede65a400682c8a2393adee2d60056efe6ad3a1298a90,
   0x2c89f2c01cc7d947a00eb17ea79adb1b1fa05a09b12aa806f6e8a04147031eea978189a05cdd3474b1ce7cdea011d95feca727d4c14001568194a8fe4ffbe03558e96e86caf90fb04225fceacdffbe9160643e0a5c8dac307080252a69118b26a55de01f345cff99049fe50046b8a805c40824c5602099bf8314a6bc3ce0651aea9bccbfd87240056f3d9901b6805c70,
   0x2eddf8a536e60699200f7d5a16574b6066805b6ed7e2d52c46a60040a7b1a3c88a4020a05b03730a25c9e063a00fcd6ac65185f1d62002010923aee7640300344b0372b736a054f044afefac8f27b01f2063f5f99dc92fe790c0273a1758be350aa9001d49bbb8f9e9efc04044022b50687d2dd3202063d2a66d9cf67a0065e0bfd8d7d7e6c6a0056f352b2a942c66c0,
   0x313515ff841ae3b47010600aa2ba39a5d3c05cb5b4a560c23dd9e0400600ea175728a56059126aa84ec415ba800ddf79389e05bab34002ce230cbd8f876b60333cab9d431f1acaf04729fb509f94de3f00638ccdd12f7b420d80294e0e0458732545401b7160ce9aafdaa24041471fd9a654d4ce802040e45caa64a686e06685ebe1b23ac67f40056f214c094f017a04,
   0x338dd894ee3a007970115c6c0ac0ba7c38005de1afd0a4d579e4803f5d7a5cb75a1d7380570ae688e6b5f049800c0e64bcb15dbbd42003bdf8b6865a493ee0323188e5e191cbbe3049970a9bae83d3bf4063051fb7b20423d9802b69ded9655123236019acd810ebbded46a03e8635b3f0e2129540202c97a70594cb0c806709607f9650f8dea0056f00ce2ba3cb8d1c,
   0x35e2f63e6d5b9e165812860abf1b5d837ea05f040b6f8d26a2ae403e9409d4137b44bc6054ecbd3bef27343cc00a54e6958ab58177a004d6175429797f2d60313cfe4d44a61857a04c087934c187126d8062698035598abf26002da45915f0c18055001804da007c99874f803bb498ef271aa3d0e0201046b771b32b6e4067624b95dac3476aa0056edbad97e0186e2c,
   0x30dc213e2c498633501267f85e57426303205e8f971bf882fb43403d58f0f356d70f372058e8db915d6020b7c00d2d3cd572f1a86320036a5636b06d4ded20351b0a41eec3e54180491d8d18e0fe11c9206497fef5b260b142802bc423a4e311aab7001c2adefd19c6bd79203ff8b04c8862fa76001df45dd3112a14914065b2be61897b6a7a60056f0d057f5b4af6e4,
   0x333a68d18d9cb718e013597c99d89abdbd205f9e1f63cbbc2e27603cc9a27f7eeec9122056d93540bc392018e00b6ddd83361c33d7a00461cff152fb7b5be033fce82ccef53e24204b72305e16f1a0b50063f916b48de2f696202dca25a758d90983401a658a2bbbbb7638e03d41d73fa8ff587bc01dfe02213c89b663e06631f83584cc573980056ee569cd45189dd8,
   0x358f0c762a507901f01479b24389413237c060a3ca89215ec8b8603c1601738ed2f1464054b7459ef9db735f8009c8e9bd4598e879a005808422603510358032fb2e34bd3e0374604dc943b75423e43de0634966d5e1b27e0f402fee84fdbbb538ede018c217de6ea50a7be03a7e2f48ab427955901dfb926c9c0b3539406684024eea5319fea0056ec3ab29e5c0f69c,
   0x35189d9c2284ed89a016745487640cae4c6062219cc267ae9d316039989f32d3a1300610548fc232f1a7c1c920096bc9c6efae9550800636e2152339a3c7e034ce4d0c8fd5d0b1c04f5f819d4d7910e840641cf5a63f685e10403222b529c509a0ab2019a93c3930819fd500396ab15f925390ec601beee5ac9aea7d3da06584724775712dfac0056ead4dfe51835158]).map icosaRowOf⟩

/-- `s2/ahrens_beylkin/ahrens_beylkin_5472.hpp:13-5486`, `5489-10961`, `points` and `weights`. -/
def abGrid5472 : IcosaGrid := ⟨123378587299299200, ([
   0x1b266f8ca73327a0200741a5938b523b71803791a27f775a27cf105327b174631c75664063ffb1c9fb22f86c2034219f349b18c8ac80072eb24acbf39221a0350b8dafc0969404b01b4519179407f9d5e053594e480f4ff0ebe0088a8b1c7d6f19c9a03434927d5a777271906328b6979503d6d90036172022d909cde98054838a461497fb87a0056e37af70d0fd7014,
   0x1cf001e5b147139ba006542c6273690f59e038eecc87ca1c58374053c6a0e7618e51f440637025461ee1f499a031d8f91533fafe4560064d644a71d358d300338e87facc6c64dde01cfafaf4ba7cdac62053d8620e6c59ce1f000906672476110f83a031dfc12d3590b51a6061c15e788806457260362ad09ebca8d9c3c8567fa3c165cc08a4e0056e96d524494f106c,
   0x1ecc62f78bab892b600580510278728ef6c03a761937ed2822e950544195788c37026e0062d197eb1cf35128a02f6cbf7d08c7330ba005718e2d86cf3d59e0321c1f3fcf87401f601ee4453ecafa5a702054683a94bd2923c90009b1ddb7ae18c01c202f7b8251fa6a84a8806030fafd47d695b1c0361de766868fcebf285881e502b380853040056ec1806358a923a8,
   0x209e7d1882f96a358004d7525cf67108d1603c26077673ed91b90054825f217009d6b70062327aeeaaff928a802cf209169ad650780004a0e767b20464eb0030d4039ddb91fbf82020f689dc024f14eaa05510d6da33cc23cbe00a9125306013582aa02d28740bdf42f45e605e86eb5caeb08b8d0035ddbcea4688f533705a729cea1e18c9f6a0056ec93be3e6d1b684,
   0x226269260573204c200459d472b51e352be03df067497ad0827880548e5c70ab88d40d8061914249f6b2f146e02a767675cb9a21348003e1d7e45f194c7a602fb54d0ee5f287f96023248d9484740085e055c87d6d808e9e7f600b9c7580140b2ef2e02aee7304219f0b6ca05cca683f325f7640c03573a53f46ddbf78205c48fa0c607ab68600056ece15157fac6afc,
   0x243e4b16a66bd20e8003f49ec800609fde803fb7f13d10acba6520548f871c66c5307ba060cfa2cba04ec05e8027f8b50ee4aaa2d3c0033f3fd762aa6e2c402e8e77e5dad0c03d002563c1ed6875dc8500566a5ce3c6856997200cc16766ad7888916028ae13ff8260d486005aef3ee547ded320e0351052d703d49625c05e11aeabb193495a20056ee9ac051862bf34,
   0x26499985effc2b3880039d25df916822d40041668a416ca65f1e6054a0b4c0218841f0005fd91200ac3e6c0940257ba9aae76661cea002c2e4fea88016efa02d406e3277c7f063e027aabdbd5fc52ed66056dc19d87a395172400df3a5924f47d60e002655ea8bd04e6db30058ee8e5a04c4e9586034d4a57656159c3b105fd17553c850010e60056f001756a0dc19f0,
   0x287b3e7f20198ccb8003545c57ba5e9d912042ea5c2c08062e928054c73d6644668beb005eaeed5100621918c0231298587bf0c393c00273a7f5356ebc47402bcd7ffaf4e216a9e029e6d2e80c54b0be0057138631b5918fa0c00f283a7377964ad9c023f34cbb00e0a3570056d4ba110c60a74c8034ca3544d9a37bbf60617bcfe4868e1a7d80056eff1b8c2c7298a8,
   0x2ac94ed8e486b0f00003170937d487f0e860442c540a5b625e8ee0550e354da5c22524e05d53b6199b054fcec020d422904dff491e8002576624fc8526ed802a34f5a3a9aea0b7202bff621885d7a63b205703eba01f15e46ae0104df0819208e57c602193c5a3260214a00054b286191758c3b7a034ffb66e248da9f1906304bfaa3b45e3b3c0056ef0f0f7b3d5a308,
   0x2d29d2a8f15cbd4b4002f17d64b9454bf120455475c28e69b5788055548f2eba098eb5405bd5b1fcf8192cf8201ea8b316b809459dc00260ffc3c6106fb6a0289165b3eb7fda6fe02e139d22ec5430f92056ced749a835dd1700117fabd88e9b852f201f3930b7ab3e21d840527d7d00b7d7746080354bff33cae72d639064733b438294a2a720056f074c0c68f42874,
   0x2f94dce846414069e002faa4343d7f4f7d0046a5aea7fc98b3e3e05563d698aff2d0c3a05a448351d01bab4e601c653063a2d001a9e0027f15ed045e98d00027095dd847bc5944c0305cc7c5c5b856e58056a74fbd688a9dec4012eefae73b18acb3e01ce0beaadbf0b856e0501be424645008d9e0356dded04667889a0065d3bb92e6ace4a780056f28002ec90c3bd8,
   0x3209c62a0c48e16fb0033295b1a28122cfe048127c11e5b6f60520554285af788fde5f60589c78bcd5767342601a14e3b8c0b073564002b849ac11f2e903e0259944c0b218f798e032cfa79b87cd5345e05682b32684a28a76c01494fc1031cb3f09001a8f2fbe513eaea8e04d9263ba749c2bd900356fe83c4a5a2e29d0671f3813986832dde0056f392aa3bc039390,
   0x34866bf2cc6eb00ff003949b10c1731f3a604982e8a75f84cc872054ffbe920e559af48056da4072298163388017cacb637dfa284b8003141c7c3ec432ebc0243911d52515e0ec403556547f429d329440565025b307330867e016613b75d86a5f72e0184b49f800a91313804aec7895051493d9203565e1214fb01da2c0684cdd8ba7fbc5f500056f3fe7bd88498658,
   0x1c8fe12f42572f43a006bfd2668f3efb5b403b89ab481f2b88b3c05204661d4cf3c1902064562a20c5fb48a5a0300ecaf69f870362000539574edc97278a0034e032d98f5ba3b2c01f07b0ddb27948c3405602b0e36fbdad5a600a8d38e935e40f53603195460e522ed5fac0610b3d5588ce7bd80033bdf9ff55bc86a770575847b7a640aae020056ebc739727254100,
   0x1e635df8cf1c1ebb800604ddfe5c83abd8003d3361d6c623d5f4c0525740e12ca0c4af2063bcfd3d323d34fd802d92de2652962751c0045db24ed2d986f380338c118dc8e24012302110125248bacd940056ab20ea2fe999f2c00b5b4a77d31ebb61a02f3a09d5dc404c36405f6af585459b41e4e0338915544c3ff03d205954d90a2ce5faa3e0056ecfcb268c863988,
   0x202a2dfb0bcd51b2a00577337bdf01c2e8203ef802408e8855aec05274185d74f62c0b80631fbd90a4d72125802b15806d10130885800395515915ef8c12003261275ebdfa44a9e02335e21c03807312405761aea135bb85c7e00c5789ebde99403a202cf7628fd92540e2405db5f8c1c0021c7380332a158cce2b7e79505b3650f03d9fe1ba40056ecfb85d58614174,
   0x21f5eae5f6a104c100050b99fca9361341c040c531589e303e5f4052729eb471f79bfc4062701e3ed48bd9c300289946e41eacf3dec002e5be23361875ba803145ee8db7e34c8f90256f9b974dd9b29dc058122b3f3c4de8e6e00d7525ce0e6a1419c02abf22bd91ca9166005be9526eae731e244032bc18fc6ea5f15ff05d02065f4a493a5b80056edad82e2b52cd64,
   0x23e82431788f118d2004b01cf3799e93cba042827b6ae2a1a5cd805277f35953a9f1cca06194648eb90a5f0440261ba59ac1b422824002570abfdf7663bb80300eb7d46cca54568027b4b1e1a2159ba100589d933d1758abf0a00ea3bc7cfc396989002874b7ce5bdc54190059fa6488a81c5ec6c032693bfd9c5816fd905ec4a516706cf61380056ef1b6b7bfcc58ec,
   0x2604a88598f78560e0046214cea3a9864f204421e4a31f9c39aae0528e672e1978a1646060867d8b50e759d80023a53361dc9a80ef6001ef3c8038f4b516402eb2c8ac2eb240272029faea2af0d3ec736058f78121dc09d9afc00fdb577592b24ec12026180bb0474f52284057ebc08f69846bd920323f88086e02387850607a822373363988a0056efd1d5b7af0e650,
   0x284351299f514ae080041f65c804fb23cac0458e0637fea438d06052bfdd7206a1845da05f47723f609d7b1000214aad3799081a9d6001b4cd442207b8e8402d310e599fb9fd54202c2c39dbcefed6228059135ea819427a8220110d09ce5acd533f4023b545bb7bfb83f94055cba9a13cdf002e80324ce0fb963113d3a0621819fc3f671d2e00056ef454fb8d1565f8,
   0x2a9bf3f022786f460003e6cccdd4341b020046bd3027219ca57e40530fad9e30ff2e74605ddb80d38cc728bc201f179abbcd283a8fe001a909c7ea72162fa02b8c83f39b1ca237802e3c51a969b270a2c058edce5d61fb362a201230704146301a274021555dc1b6ea3f624053a45aa1a894c5e6e032956bf47ea49d91d0639714178cbd33f2a0056ef43f7e93a2d62c,
   0x2d03fa1a23bafb9d2003d142f1809c40d82047f3b3dcb3277200a0534435381269c47cc05c53da50a1f1fc70601ce1b9a1975d4f166001bab7c4a092a81c2029ef53945caf9ecf203064e302c7cb35378058bba94d968393c5e01378a1f38ddb7ba3601ef844ce7766e64bc0515ccb8abca946fa4032d4e0c521ce6728f065021f66ffb2967d60056f16a4de1e2ab5bc,
   0x2f777c26f8deca0c8003ee7c0c311379b8a04952e33a711e6aaa60533ee251a7862feb005ab619484387b215a01a94e30b1d192e094001e4ad8c88f6387300286ecba6aebc8d54e032c3c92ce4df3eca505894fdd73ba3e7ea401501c7193436031d601c9eb18ac53670d5804ee5ff2c5a01971ce032e97ca7d9de2aa5f0665bfbde52c5fc1c00056f2fd29475476bcc,
   0x31f4be310c79f7c6000439da005b2bf62f404ac21c34b3d8956fc0530f391eca8090a24058fe573b170bd8a8e018447552a62cd39e00022ef69f8d7e0261602702678dac592d51803542cb37134087f1e0586829859ef513638016bb49267b77f7d1201a4f58b373dac76be04c4b4860de8d6fb60032e7bca7bf180fd420679b8ba5b87a861200056f3a5ed519481768,
   0x34773e0aa7594b91b004af42311a989dfce04c2f7c96c421cb86c052c018075f5698e440572cc07942739f7c2015ffe4bf7b59d2b160029dcd782db098346025a638fc972d9d790037cfeb898a036f3e20582a3a3f2ee8c05d60189780612bf3c3bb20181159786841d879e04997e0f51387da7d0032dd1c2ee3347c539068b9caf05d99c2e460056f3cadced3d33f28,
   0x1de09cc70a407310c006be77a5a94d033ee03fe2d6a5f926bb62005040f755f7e18dd120649e68540e11d794a02be16f55f09028e8a00373b7786f55cfc4003527164bf1803afa90233436302f32f5cb6058df50ec56cb4406a00d20c470a29deb26002f2c2f832a875c63805ea3818b4718f79e0030e23044a0ec1c821059ee044e2b29a93320056ed5e5377646616c,
   0x1fa8c404cac88a65a00644ceb9d9f539010041b10891e0397bc720504940adfaea4e9b8063f9071e68ca2205a02961d6f5ba8c0eaa8002b72745f56607756034080c2a7ce0bbf10025689df1b7964fa7c05996c20ecc4746efe00e32662a0fc0e33c802cef7e699f1b4036205ce0795d8b04a8bbc03075efc0d910dabde05bc47f9215452be940056eda479e4d635908,
   0x2189ee05a1608b92a005e271637192a64440437ab4f1ceb37aa1c05048aeb7f59fca4a6063325e78f591f6ce0026e09886d65f526f0002176d0d6057795c2032df062ea145fdae8027ad11747461965e805a36d67cd9dc01fe600f5c5851692c5277402aab9cdce79a7f57205afef5273be67a99803012a63ef2dd9534205d8d99fbfe74a4ec20056ee89cb1a53756b8,
   0x23930446ec8ea59c00058e1b5bb585c374a0452e60d83399b3d200505419cc3bb5ff8180623d9948e598cbda4024618682ac3ad7c1a0019a62ba8ee1ae0aa03195eaf6d53fef9d0029f804194306f352e05aacd23fb8d262a2601092f9e4fc9cc1dca028553f23d2deed2ba058fced75e337c9b7002fd0c9db6f665249205f4cb0f6a971135380056ef64207df344430,
   0x25c13d6aac704d886005465ebe6e0f486d0046bdf481d9bc633e205072d95e48b06cc160611954c47d3deb7f0021f0fb44e90d7012c001450fbaa05ed39fa03029e9d5256e93ec002c3c3962522d8fe5205aef2459bc1e23eb8011cd3a8eb43c96ddc025f24a48b6bde4e02056e1b5380e8d3aec802fbacdb620215da34060fb04325c8e2e78e0056ef6e64aa4774a94,
   0x280e8c8b7f55890c60050680f25e13c64c20481423e1c88e8779a050b18837107defdfe05fc63e86eba52b24201fa1c1f5011cce29e0011c680c615fad5c802e96f5cb83da4fe9a02e63f9f7434d0a8d405af10e88d12987432012fac240640f965cc0238bdadafdd0e592e054bb2396659bc0cd602fe05c4201e72005c0628fe26b132dd8e020056eee3a411fd6bef4,
   0x2a7254971776d8a84004d6741148549fd7e049415fd6d892fe106050fed6e05b50a45c605e4c6a10d569696d601d6d50a23a1f3ba5c0011bf7780dc4004d402ced147457df694540307ab8ed819b61f9e05ac1b7d00005cbb20014278da120785cd7002127cd3b74afdb3060528722d7f239db5880302d65575bba16ae60640a6d096e05026cc0056f0195032f429fe0,
   0x2ce458edc77410a16004d3c8391ca460b1804a89dbfe657e6e72a0511e353584ef33fa605cb8cc8e29e55ad0001b29bb29aacc4e62e001370351702177b3c02b56cb1980ab1d082032bca7c2755d7408c05a9348f1df5b7f7520158b15a20fc147ad001ec68011574f3760a050288186008976af20305d7ad917f53d830065724786248f03f3a0056f21c672740cfbf0,
   0x2f617fd4c62003766005044f0e4c03ebcca04bf03b01bfb4e82aa05108a775e21cef7de05b0bcfcc12ed5bbc8018d838ebdc549edea0016ffa229a9d36356029da552c9912a78920352c27bbe1c39de1005a67a448af273f31a0172a6b7694737cd9601c6c8dd78dbb52ef404d9e087707960722a0306b21c6aa3b05e38066c318c9dbf33621e0056f30e702d55b30d8,
   0x31e5ef8a680b0e9430056276cb220478b7a04d5dce906698baa3c050ccd5a579321ec0a0594457ebdd41471da0168b579b5c1c16d2a001cc80fce25b1007002871050939671fd54037b339fa3ca440f8d05a3015e38d74bac04018f485df83152aaac01a214d699bc57f83404af4a04c3f9fa6cba030687f3df1456cb10067f4da8819ec3aeb00056f347a0b8232e35c,
   0x346f02978d8622b27005ea0e20034b1fa4c04ec49f4abfbabc300050744e6e971b355c80576250d02b16487800144e6ad1907a4244c0024f5de34097b477a0271695426882c81cc03a43f38c6752fc956059e3efa0339b79a9401ade33803a73d22e4017e91b0e532daef8804834d69c15c12f53c03060d8b8ec11c6e0606903240b90f7531320056f3154c866a4a834,
   0x1f1b3275db28e3ea0007391ad23a52186fa044406c0ee1d73d55004e102bad9c166a4d4064bbefd22b4be5a3e027e1e53be483396d8002095a4584a1025d2035bf40f69fbf5ceaa0277f8b931b5127b9605ba4455791efc42f201013fca6a0999fb2202d11a5c89a344df9605c0e54a425c0d589c02dd1709085b65aaa005c1ace0eb80f061ba0056eeab74aff2d9050,
   0x2116e37fb55b58ef2006db25a92b76c4836046077b4123f51b7ec04e158a231c99994b4063dcce3c57b81ed2402556dd492a1ecef1400176b1e6465603730034822a37bd5043f1e029d081da25c2b6b3205c339c407221b81fa011486379a46c7ef1c02abb510c0f3f9001a05a15f510a9a76d04e02d7c2b53557740b5605de73bb67ab014ca00056ef5c3fbdf0c63b4,
   0x2338a1df57479236c0068ab9b98230d21e8047b33940f3377026604e296001eb302a112062cfae1db140500c4022d317193a1772eda0010867ca1365d4b1c033249e296d9280f2402c2293febd894594805c95a410c03cdadba01285d75d40bea4d82028556908a8e26ed3c0580078fcec903e3be02d4bd78e5f9ceb1ba05fa6cf951888fbbe20056ef8cf059148dc80,
   0x257c93d79a2947150006454800b6258c3ce04934e53bb9969fbb604e53ef012a7bc120406194655807c0f1b9602063a4a567159a192000c299d404f14d90a031a3e3aaf807dda8202e671b360ed64493c05cc1248c505cfed1e013c1b561f8a94bc56025e652d21849da4c0055d6d47f2802ee0f202d4b424f5131a2814061530a8f1e33c0dba0056ef31851a61f143c,
   0x27dce64cabb65d5b800608402b96b34446204a80aa387ada7b82e04e9b67d094021ac620602d4a68fbdf8339e01e143728561206622000a752bf11e6563e002fffc0e6ccb42780003090d0a3e2bad256405cb03f944fd37dc90014f23349c6e231c0e023752494dadef2e3a053a2ae170a0a5024202d81df568eda2b054062e6485b48fdf64900056ef60a438d531ac0,
   0x2a5002cd01e2ea6ea005e5d285eebdfedb804bbad75311feada2a04edbf56573bebda9e05ea43f33216e6d51001bd1d8d40b6afe186000b02b8c1ea79767a02e54480b4a4dcc2c8032bde7d6025bbc06905c7f8168444df77900163539316ac7a50a4021077fcddb816712e0515776f5b2a20837602dc7e4a4c565cda4c06461030abfdecb4c80056f116510d3326fa8,
   0x2cce8d07e6db109d0005f63d47da02ee61c04d1110e451c4b1f2604ee8e25a7c9b85d7c05d0133b542b14304a01982c8ced14844abe000d7a8b580025eb9202cc1a74f56d591666035171d4da9b7844d205c50073299788ab72017b2efec0be86f24e01ea15d612b48d5db204ee0e9c717248779602ded396803022c4fe065c42991088197ca20056f250c0cef0b1a70,
   0x2f552c2ce378d51c200638f01cdc843b67604e78b898c1c20bc3804ec6e9d83396500ae05b43dd44b9b344e8e017311e13342f0ec54001219bdbd3a8e09c802b4703b3d058e05040379200dce0fb26b3205c1b12c939f3fc1ea019648ac6cf8c4c60001c4872543d0a6990204c454be52664ce28c02df8f4fdc85c4eb7206709d8c32f79bbce60056f296a64cd217340,
   0x31e2a2bf7cff13da1006a7f9e89b5481dc804fdfd5c10385aac0e04e8374b535612c2940596aa79926c068434014ea2b5b2b3cecc9c00191d0a03ae5225aa029dcd7d3fc364712803a1d93b0908e6911c05bd48eeea95fdf83401b3bdcb3788c2d1b801a0054a38bac4ac500498e2468b6366a6f202dfad8bcb24f4aa140682d80c873083870c0056f24c5118e4954c8,
   0x347974efa0cb1fdff0073e6a157fdb49ce40513a0133c4c5c8f5604e297ca8bb29f5862057722ca6ffb4fd13c012b5308a02ec9a4d60022b4295fbec15f660287acd0eb9b1a868a03caf88570f961ace005b72b78fade4255d801d2f7a1bfad33eebc017c8580986dbcfabe046bfb7a1ccdf25dda02dffb6465713a40080692db42eba111e7b80056f1928ae843c93b0,
   0x20af37f11a556d598007ed6b0470aa000a804877693b96a3b76d004bdfa62cd8faabf0006468588d4779e74a0023e6af27612007f50000fc9588ecc0724020361ff9e3f245484e802bea323993979fd7405e0b75f0d6266ab180133e3516bd8589ad202ad784a2e50995bf60591fe34c3a3e373b802afacf654c9c6f08e05e2145baa9bfc1d660056f00c62d42a4cb80,
   0x22ef7b4ac115417fe0079ce4ec23f600b1a04a1b9e6d55fad888a04c00c3f41317010700634040a5aadef98e002159b6d4aa3baab0e0009b6901c1dec94fe034a75be408f65b02f02e4566563231fce6605e582ae9e64af248a014813dc151fb0051e0285b32bf0c52e212a056f41780ae3b8161002adfdea254c1e620205fe698b3a333380900056efa33e0e1070918,
   0x254ea247f36d8877000757fec06868052dc04b93dc7fd3bb95b6204c38015077583cae6061ebc55796d4a27b201ee475e26579bbf50000632b3536b3d969a0330dfa6a395e081e103090124b4315ba11e05e6e44def8b49b940015c13e074490cf1fc025d9496d972de93fc054b7145af4a4828b602af459aa76366e6520619614228535326480056ef47711d13e11c0,
   0x27c2cf9d0887a3da400722f540a25ebac5604ce1ee12e16f06c2204c7dff01db439a8dc0607150fe278e3e6da01c8bb722141081a2e00053580bb5fd04e920315e7c91040e595a1032c809b075e60c93905e52d64a3503ba82e016ff7c70d18d6a24a0235b545700723905c0526e28c423f21e40602b308f9a5880376dc0632a2366f6d4014fe0056f000b015f7cdde8,
   0x2a42f5f45231da2d4007125be8a18220cc004e2aca9de0463893e04caccfb82ed7e2b9405ed958fe08e5f3b7e01a3c74e1977fb90f0000674d2ce1c2b05e202fb5eb38e48972fd40350d09b3cb84d43f105e21f23367ea4cc3c0185c4e1cfc2a48f20020e7839d573f297ce0500af1627b9ba8b0e02b6bb5ee4c8ba4dcc064a1d0a8493f79c680056f146568f6cfe070,
   0x2ccba19bc4a0ef728007351e39c7e71d64e04f867386825be12a004cab4fa170e72c70405d269d8b7e7c83fde017e99989a4f0219080009e0adda6609c83202e25f21780850162c0377560821a3e0fe5005dec21e3e80ad083a019eeb4b662ddddad201e80ace5c676a3f8e04d815859c46e2694002b8c0ac770417e550065fbf97a2d646d9a40056f1bc70b23f39744,
   0x2f5d3bc958398e8820078765ea905eaa05a050e83d63aa088849604c830fa51f5aeea2205b56ca6863b5b45f20159c00ed8d865aa10000faeca5bf820b16002ca866a52e35be64c039f5d331d3ddf7f4505da820526bdbf550401bad605ba3abf35f601c287a325e62f990a04ad6ddf593e2ef8b002b9d32454a3a36bae06735835b0384d87220056f16d1237c4a8b74,
   0x31fbdf32e93d223c400802be9b235d0717c052412b035df5d7a9a04c420bd8b699457fa0596525f78fd440a520135bbf70f23a3979e001817d0198b332e0402b321ae4ed52a7bce03c8250261e1e8e55a05d49be657624866cc01d8cde5730ca6c108019dd010a7ce40aa42048100c1d1f65a38c602baf58ba90fd334a60684d6d2e4eb07eafe0056f0964e09645aad4,
   0x34ad2b9c545caeca4008a276812f7fb4d7405385f1edbc92a9bde04bf372a6671d23c440574bff1e9e9390a7c0112db4425d18000960023551d1c4eacc4de029b8abf20834a3f8603f13117122d1d3a9005cc67d2aa0272ff3e01f857a11bb9ed48520179ad8f1c7ace892c0452e2c1e5e0bd542202bcfe3d8f7697ad32069439ae65dd12bfb80056ef8952861b6d290,
   0x22d5b8608fe23e75a008bb70c3efdb2eae004c75f7e6ab4c8983a049e3cf26efc7783b80637ff4fff4ffbc6de01fd7d4e09366963600004e1873e563372c6036059c161efc4a21e0307860b1c3f5da0ce05ff3cfc82e530b5460168e46accad11f296028452d309dde8db7a055bf861a73e20090402893215c91cb0468c06023fd5fd53561bf20056ef50218e909a6ec,
   0x2549aad1f33ce59e60087bddf767cb6219204de7da56149845da404a205860d27cd53f0062160646d8b1efcd201d5ef84b88686d62200023c4803faa6e0bc0345c1a907a9eb122f032c9f2e5ce95a978905ff8b9ebd5f68cff8017d5d5288e64156ca025b711c2b089616f805370fd790e9c9f566028b58199ea85dc4ce061d2690921367c9fe0056ef1800f6c7ebdf8,
   0x27c8b7c5302692b080085605a7abbb2cf2a04f3be4d7d99548b2804a5a6b5f06f8bf40a0608d05ce3aaa3e93001b00a6a0ac1db8502000209b7a0a38e7748032ad41c82086cb5e903510e0dbfd0322a3005fd7fea375579378c01926b6a41def902700233610ce4d9fff54e05115d4d467c370dba028eda096f902114600636086891aaf67f320056efd431436480914,
   0x2a5104be25113dbf2008586c155046e371a0508c644abe970a92404a78908f92f4c11c805ee751e5da16018d8018ad027f023dd193000042a2d50c043e84e03109f44d647e443bd0376600ba7826a7ee905fa355cc2a4cd0ade01a993d7204bca7908020c2cbbf4680767fc04ea02957bc18330e202920cdb172c936e20064cf2b2c8bad2d3560056f08e98c8103baf0,
   0x2ce4c6d0c66963ca80088ac0a5d071c301a051e4b4bfef1785c4e04a6f90e0098370f3205d22cc570075a22100165c20a5134bfd4da0008b12cf4b543dad802f77c34f0b08c6a94039d5fdadafaeeb59b05f60759377e67d61401c39fde1748d24f9001e5bce7b986982a1c04c06d7838dd65fa020294492d0dc9918e600661e7bf232bc583ea0056f08e387df6421f8,
   0x2f887d73fa779307e008e7e7826bedde2d405338cacef09152d9e04a4af7e775fd2e9fe05b3aa6abd21d4921401413ebba0426873d2000fd32df1f83c051e02decc480782c85c7e03c57c4c48b0e0dce405f04f3db52fdc741a01e0034004a36732bc01bfea05d5090a391e0494c8288aa8166eb402966825d354823b300674df908a0afe179c0056f0057e2ae3d94f8,
   0x323e2f92cb808f1230096b8fb4070219e620547d618bff03553ae04a14866604d4c21e00592bea123f4eebbb8011db28c78d8e13cc40019bc7e5a3b3d346802c61b0188072641b003ee1e60d5beac376205e8804aef88d3cfa801fe35fc3dcd88a080019aaf095f0dc58e54046752a8fafb8e085c02992133335746a3c80685c1e443df978df80056ef85b079e8a8780,
   0x34f8f1cac3f76adf100a176cdbc8a3a744c055afb3ac57f61cd32049c84088d7bb68f06056ff5545c0d3aaec600fbb11f12617801280026596ecfd58663f002ae0f873c398b0aa80416c34a0887db77e005ded594d678cf4e76021df80eb8f6fe18b80176ce7dff162c11840438b44b1ee9db9d38029c286d8015853882069422a8769d2e2b640056ef9a55617d32d24,
   0x25628e8cde1ebea6a009b4cb3a7826a218605031230bcabfa1754048063b3deaef50bc60621a49a953a3bfd3601bd9b858439faec2a00003fadf90dcbe6e0035994b3605ebc28800351099183bc2fe3630616516242fdd741d6019ff543d95bdbfe340258a88b32ae9926d00520b872678a18ece002687bf22683a5ec2c06201949befd050ab00056eec20f3059aaaf0,
   0x27e7698aeb83dafe4009a014e592cbe7cf00518729fe9d3d6c08a048333ee4e5aaa3b1806084a3158268c8c700197c2fa91f9724b1a0000f7b2c3b41e4402033eeee4d4f56113240376154c1f4d0134ab0613dc3d54680e050201b60db7d12a0aec220230cc96277212840804fa27e2aaa33e0718026bbde76bc926876e063849f35bd096fba20056ef34e448f529cdc,
   0x2a7961e08f986b5d6009b2be7a13970646a052d725df60bce965a048477abcd0e3d66d405eced255334b6d6cc0172926c69b1c22a3000041e94d9d58401e60324bc7218103d2c90039bfe6596f5d22000060fed46226e751ffa01ce3457f38368984002099fbf3115ae8cb404d1d0726c3a28284a026ef4534e619e90f4064e8d6ee6bc21fd2e0056efa0d88fb06cd68,
   0x2d1c3af6100cfc648009f141035c274caa005425faba69dcdf7da0483e0818cda8d001205cf51260797e33862014dc28e585ff93eca0009d9b4f61f3708fe030b089b60fc6e030203c33865703bf9ff82060a8f92dbb8f5135801e8dcc5c05f1b194201e2fce9980337006c04a745743e9eac35cc0271e7e4cd22bfc6c60662e392571a7110560056efc6a5fce53b4d0,
   0x2fccc153d01c60f2400a5a00fe33995804a0556b96011170326e80481b3ff12d715d3c605af849558428efce20129cd878dc778609800124505277af1849002f1c80a5f1e3a7d2c03eb393f38bc8bb77e06037c33ca507f90440205a1ca5c340ac3e201bd289249861c5c52047ae51d42aa70dc080274ef70e0a32457a6067510c447902f13180056f0119e16f83de90,
   0x327aad8b0b5b3f03d00aeecc0b0a41e2cd6056a49a1b41ee9492c047da53cc81e6a4164058e3b1aaedcfb9c8401076a0e9dbf5aa0fe001d424caeed4d7d7402d9cb4083232fe1c404135c112d852855d205fb00e946a4af6c5402242f5386ae4cc6a0019914829f762b68ca044d845ccb2ff7238a0277ab625f8e759cdc068492439fdf698a900056f08b46ad40423e0,
   0x351524ba77ad21bd500bafae5f1a64ac1ba057d04011ebee9f7e60477667e6eb1a0818a056c4aa99fcad8f8b800e7294663d6fbbc7e002a850b5a0ed2700802c3e8f4b51339a208043b10312af9a9704605f19a3e89c7f01b7802442c719c6fd267ee01779f20fb6e740e30042000d5e6261364e002799eb558df12b7c406910de4b112a079700056f09198553eb9af0,
   0x281653e1f37df6ea200aff4c4b1dc69f198053bd122bf4c24a0000460aa65b5a79295ec0605df2c80304a34d2018076e963fb314d720001f2a54cd4f6288a0352775655aeca2188039af262166f86671c062839a911e6ad74c001da672d2fc330c88a022e7908c902a4fe1604e1e0def384250c7e0249cf76e5264302a406391eed9895cd35ec0056eeec0e957368364,
   0x2ab15ed2b77d1cc5e00b204f84e768f371005507af1bf61d835a004618c35a7ced1544605e97f54cb32bd4bc2015b8a3f7de1b426ea00062b1b2c7b434826033827b23d4b628c9603c1257e4d6dec7d7c062375a3ebc0380cb801f349720f7f317dc60207641c9fdd0015d404b8bbbf2dc45adec4024d4d09ba67cf4ee2064eaa8c8ad2bf717c0056ef86c2be068dac8,
   0x2d55474b7cd0a732000b6fcc7cf502506f20564f3c2054c704af6046058c28574ee2d9205cb29c9cb9333863c013764164cc1ba9f94000d017d36d0903dd6031ec9f6be856e836a03e85dad2a63808228061d5d45908af8ed4c020e98a45fbf1688cc01e15f60e5414f5046048dbf33f24f1461be0250536269c773f0f80661efe9ae6374601e0056f051c8cedc78354,
   0x2ff2e6f92ada0153800beeda691f57655180578f39a9d99791b96045cdb031ddaf22f1005ab83ae499eb7d7280114bd3f007d4273e200165cfe94740cff7e030714b9ff36442c40040fece67940201fde06162a2201eedb76e6022bf3fe55af9c337e01bd4de6fdfeabb1120461bcdb48671f5bfa02529e23f5cb69f55a06727202df168163100056f0f5d034ecc6230,
   0x327ef359bbcfef8f100c99da9923b27da38058c24a10fab7eecfa045734ec8733642152058b219793feb4bdfc00f4239cd15dbd4f78002201ddbdd230fce602f162a649dbf298340437217b681fa5b1e4060e02fe27ff01beea024ac9e3f11fc5e9e0019bbf68a5c6b42cca04357e59efe976529202542a550ffb435824067ffcf2ba80f926b60056f0ee25a807309e8,
   0x34f6b766ea1ab77f200d68f709f41a38ab0059e1f9e65d078d98e044ff2261919654fc0056a455b50f3117b3800d5d99a4c733d5dba002fb0e55034b82f1e02dd783113d6caed7e045d6b84e0802fde8a0604d0bfda04d516cc026a73e8d9a74708ac017cb8259b8028d1b60409854fd89c6f470602555c8c6a7f659486068ab529a28bf4294e0056eff39c8ce67eb54,
   0x2ad8a9dc5d41fd6e200cac9b154feecd2ec05723d1bc213449f44043d63a6a2e94012ee05e58eecb5a3d8d1e00146a7a2f4c011b9b6000a160d6ad48f3204034cfc032e44dba9ae03e556e313460e92740635e38fda858c6f680218f68e5089e9e9b202075b46deea6f5a9e049fee3066496c87b2022b90558eebfb446e064c4427889e9aca9c0056f018f93f00aa788,
   0x2d654b966ac6397ec00d14d01e488a27f8205868533ec0fd87a44043a9581b173cca36005c791deb43de73b8a0123dd518d3ce9a7ce0011d1ae1097dc422a03358245bc689fa784040c27a9827841777a062fe3c5a13070c0460234fa472049caa40401e358a5612dafe5260475683e5902f77e0e022d89aac0920c0808065dbe1ac125bb1da40056f0afdd3f274398c,
   0x2fe2a47160b67afe600daa8a6fb8180161c059a28edaf0a77c9ae043580be62d80b50e605a8bbb4c3c37ac2ae0102f3524300965cbc001be126e0b369ff70032007c0e2e710c2d10432da3fd473063bb20628f8373c0dbfdaf40252ad79b35ff7e18801c1bad25dceac7368044a6ec63eab165d4c022eaca21df64b7434066c4d113584991a940056f0aab7b1cbb5258,
   0x324df873da26a2e8f00e63816868355c6cc05ac903151e9c96720042ee9013068090e1a05895318c918b5cfb200e447b81aa33388b00027fde161335ce02c030c2e94733e21aee80458aae224be8851c20620ee913cd4203c8c02713177d6bf3c5fb601a281ed3ff32ca024041fa67195cdc0c0ee022f913ff541cbd09806781c97a5f3e8a60e0056efc98fc296fe1fc,
   0x34a94abbfe1c8acec00f3418411f1da496a05bd2ffe4edfe9153c0427b40db20c98e30005696ff0f20ab59b6000c801746568a14efe0035e10043c4ae016802f954da279ea5e4ca047cffcaaf7757860006177fb06fcf53dd06028fb463b646ad2f0e018561f83395cd970003f57d0efe01dd4d960230f17becc85b1d2806818771248e9810a60056ee0779bf1962860,
   0x2d46f2571b5319f2e00ede53862a074dda805a6b940661a2b9ed80412c340f8db5af2c805c4c227ce1422d8780113989a28d42c317c001843c7c44900a682034f4ac55456ad9db6042e1884d512c2bd0006420e10fa906047c0025ba06d4e05425dc401e93a0ac72ba068a2045eb16d40e91572900209b33b790058e22e06561fe682979c91a00056eff121e4a0e309c,
   0x2fa553aa90cbe64c200f834649f509942a205b9a255e00e1775aa040cadaf4812db589a05a6c965777a20014e00f48897423b1170a00022dc7b870aa5dc1c033ba12f3a6ccf59e9045387a0f285dd9f6c063b37fea9d1ee1234027922368abad3395c01c9e0805a8104ef90043508b6978e55acee020a2a3492e4caacec0662f36a4bc308ce440056ef3dc8fc58b3938,
   0x31f48a64df0ebabdc010405c9ab796f7a9a05cad897d4ef7b38560405ee14f20a90742405884d79be4d3ddd4800d7c90aab81d754aa002f3c1235eaf718a20328f6a88d68c35a53047794f981feddeda40633041f9ba6fb045c0296b80f2e7c88696201ac92c221104f85ce040be99351f4ca239e020b1047a84ff7b956066d6a11ea9c21ac7a0056edf2e04c1554618,
   0x343f91163f4fe83d80110a1e4524a40affe05d9f0797d9a421e9803ff84f784c7dd9dfe0568facd720187df5800bd206cff90953ee2003d3a236b137aa62003164016e7edde8592049a08ab298a8519420628fc5231942a338202b3ce020c4fd2c4b80190882de6c75b48c003e342e470db0498c2020d4d0116c8635bf0067618d6260435bc960056ec9e69d795b6554,
   0x2f57f7bd1d8d1122401176ad194ecaa260405d7820751c46b38da03e2fef6af91433ccc05a452ceccca66ebaa00e86d86f54deb6688002bae8aac7b8f74c40358610585592711ae0472ed0c07c9749302064c28cdcdf3016eea029fd3f721e210ad9e01d429cdddbf06303204201b97253045f1c401e5ef0aa66d4666b80657246324f7c475a60056ede3604e934c6fc,
   0x319c77b076c943f9a01233244d860376a1205e7843e7ad32eefde03dcac744b522aacb20586075a8396538e3000ccf9d400ab0352a400386b2222e34b963e0345dd047f98a0ec0d0495a865939fa44540064354818d022694d202bc92c5c158906db201b7c0f6b627eef5a403f7eb4cba25a1a3fc01e77bb0502ada041e0660d417e9c76f84260056ed2be666c6d239c,
   0x33ef6e1291a889007012f6b28e55ac9358405f55bc6fae42ae67403d75b049375fd1b3a05661c908a5ad575b200b2f63b03092cc0a40046e05940c21a655203322b1e9357b4c12f04b739c15a01e56c5a063828b468f608c54e02d8df855f485b6430019b810aa7a1db786c03cf727c9ea4fc42e801eb19baab768d261e06695a30b1fc3de9440056ec8349a85d343f8,
   0x3179969334741edcf014433ea7d8f2d84920603570aceffcf672603b362b1b2777b0017057fe315637366b4c200c1c17b94725b6cbe004489307772f05dba0360ba6504a4aa4c2084b546e94813aa565a0650baebcd60209e2002e483a06a14d5ac7601c16c359a8e98ac0003e094e5f95d550f0401c5af1ac79181865e06535d21a519604c620056ece5835aa1d651c,
   0x33d9f84e432ab5f38014fca5a421b15a6da060fb42ffd70b9906c03af943a8eda7c90b7055f26e3d63ebc78c400a85273a15bc8675a00537a84e833bb0a76034b94a33bfbe8248004d5df4d0afc1e5f56064423d80f8b4a348c02ffd21a09468a827801a4a248fb43231c2803b834899585f761c601cb1cd2b5947704c4065bebcfafed4c14ee0056eb71642e95d8488,
   0x33fadbd53c5580f9a0170c74e9441f5a06606283452aff4604ccc038946a911ca4bc4bf055490e352c21eba3a009daab62dab63696000628d2c8ff2bd28ee0361fb970aa62a58ac04f4ea4f5154d66b80064cbd5d13a902737e032764e463893397e801abe4d831fa9be0d8039e7a247a1690391f01ae2008dece6bb7a2064e1e60e560c218de0056e8923f2279b64c0]).map icosaRowOf⟩

/-- `s2/ahrens_beylkin/ahrens_beylkin_5592.hpp:13-5606`, `5609-11201`, `points` and `weights`. -/
def abGrid5592 : IcosaGrid := ⟨197077876686698300, ([
   0x34b6f759b38ba75dc003617a187d1a9c638048fec2688405597580557a2f2bb33d0d046056a3b4d4a64fb2fb00180da23794ff619160033bd2b0002c3e268023cf653f5d8baf5e8034f3e43d8c7111588055dcc3780910d5d8601604cb6abe52f79c00183349a011edc155004b0799355ab1c4f18035f8dcc9ecf935e9e8684327e67163c679e0056efc9b32c542bd9c,
   0x30705fe6ee0b174cc00311757c666b3c5140473cd22496e3f420005549a45d79db13ace059b6384cc1c686d8601b8435e07c3bddbcc00289cf165068e26b002691e41b62532329a0314bdc65458294b02056acc741e754eaf6801390d78d216e368b001c0bdc46923e3929a04f303077f1b19b51c0355a4d2f6e672338e06650acd44ae067cce0056ee800abdb9e6d9c,
   0x31f75b4e8ab432a39003ac66ab31028ba480495c8294a73f1c6c6054354448cc3eb63de058d4726aea5e9083201938bed089a49f9c000270229ecbbf2f6b60264b0f6855827c27a033f715e396752e3b20577142ea3d430d4b401596db85ad1faa51201a7502dceee7fbd5204cfe65df83c411b74034360f18ba1da48f80675bfd2fad9f32aa40056ef1336d17cdd788,
   0x339f91a9065cfbc0a0046055365d0ea13b404b64217ea4562c5a205322fa2efb7cb6780057c3db92c9a67a81a016f7dbf2d652c477e00280fb47da3fd4b18025ee671b60d67d438036a72cf8fcfd987e905809ef6d74ec1e8f0017af5318b8b7610ba018d735e159219288404aacaa58c1f18fc660332e2e5dcf3e033a40685151ffd9f442d220056ef4a40a758c5820,
   0x355668aa1d59d940d0052f0e71c5fcdda3804d53bf2ac46cbfe3a0520b8911998eb38d8056929eea2864aaae2014cb5bd03980eb71a002b80684a31e5c2b80258be3ae2882e6cb003953703a5badbfd700587f988efac11bc2c019d5fc01a1ac7d95c0174263bd5c5f6ce9a048491ef95c412f46203238c21d878ab969d069297e8e981cd4f7c0056eef7247c723ac14,
   0x2ad8930d02d3084a2002cbe95d8a47956460431a77ab3dc4b05d6055d8a21608e5d8fc005d184b8b84be3729602192d85b4ab461cec002a84522cb3145df8029ae6b3b49272e14602b123e5d3eeb55b0605635f1a1041475e7200f8cf3204317563ce021b67c9609cab153a055205ce64561bbef4035fc1e5d89c6525f2862bd501380cbe7d2c0056f0e0ae14c01f8f0,
   0x2c5f2ac6d71a100b800316cefec9f5c0cf004554415c46a60348e054f7d8972a14619e005c66ecb3bc486958801f19b9a5d525226cc00240ab39a3ce8b47202947f204c05f8a27802db9a7072c3b297aa05728789ca55caf0e60115f22e82495f016a01fefdd6afb4c54e760530ed819f735359f0034db4d6d70bd8642c064165045aadbc4e6e0056ef816334183542c,
   0x2dc3036d2f18d4ec4003896c7472bb49c2804784b8970ba45e706053f0d9a62ee2c6ffe05bbaecc1381716af801cc5cb328ec562244001f31fc3434d102800290e8f87e4f3c0720030546b7f64857a342058188e6993bda768e013420eac8912ce98601e5c17e3be339d45605108751d1156f382e033a4619b9071fadf30653fc88f74a8857040056ee121cbf73fe5dc,
   0x2f3403cd03b842eba0041615c99b6814008049a1fd085a1c2187e052e2725ce1521a19805af15392626ae1dda01a82dd84663e4b94e001c850ccf0c519a1c028d19fae37f455de2032ee482b5f6881527058ea7bb7e7a5517f801534842785029cb0401cd0a28110e145f3a04ef056653b57d379c0327b854f6a2e60d5e0664ea5b7758f9a1ac0056ededb20d3aae23c,
   0x30c30505f83b34742004b87202bc087bcdc04ba75b9441b88debe051d7b5894bccc486c059fd38791b376fa580184af97346374da60001c4484cc1858ffec0287fe0ce11614b7340358a8456c514e22b5059935e9013295c5f401735da333d5f7deaa01b3f232940ba3975004cbc7ad44a905f2de0316e4a5cf904f1ac906749476fc7a6b272a0056ee1659eceab5a7c,
   0x326571bd820ee1495005726244a245a949204d9576a1bf937777e050cb877a8b83cf90e058e66cfc21d793660016237af811f45bc22001e4f5139b063c376028230592fe3e9caf203824ed65ace447e9605a187053bd98a231401944a20794bb13af4019b0e8291933c8d3e04a744f923cccc1116030764e059b0938eac0682b346e8538a58220056ee36f6ce14d983c,
   0x3415ccc7dc4dc62bb006465133591e8273804f6ff79787434fe8404fb86cc6d80c65c32057b14e44581723cf20140ce974b6649e0d600228c4b30e0aaaf7c027c1d5c9eb5704bc003abe7a4d78170417805a7ea6ccbee97a67601b62f29ccf6f5ae000182a75f501787589204819ee6f6e38949c402f8d1c282a156150e068f29ab0997115ab60056ee962943b961b00,
   0x35d116cb1f675e94480739b659d9f99415a0513f5dde3f39e8dce04e94cc58f74dca3bc056602d961863368800120395205aebe50180028ef697e82055eb0027641a422c7e2917003d5e3bce0d88f41ec05accb11dd7489c2fa01d988ac8617b9ec7e016ae54e24cc521a58045aa683638aa2d8fe02ea8a4aad7bd0ab020699e608970a9119200056ef3587b7857b224,
   0x267c64ca9be9e176a0037dae97bc81153ec0411f07489894e28e2054ed9d538665bae5e05fa99c9ccad2e2e8e02592657760ff48edc002dce3da4c735b48e02cf18186c1755827a027808f80fa2923bd20569292c754b2b59ba00dc621751f299f5da026333034d10cffd66058eb4b4ada6a8c1e4035319ef7679f5d6b605fd6daee591bfefaa0056f131ff438c36ecc,
   0x281c46b5f15b823b00038c132b25cc4f4600435ee84cec60791fc054428bb63440ed2a405f03ea6c12e26594c022f501c2588c2119a002491c01d2395877c02c5a33e972d01661602a26d867713bdc74805790149107b43cab600f723aa0f8bb331e202437f8ebac1f16614056e1af6e4c3168a1e0342b37fc45fe4614a0616baa555ac2c7d0a0056f0ea82ca71ef164,
   0x29a923024f0f8ed04003c3404c3c05953e60459517492ac68c3300537573bb71d6c967205e563892428a59f8202075932d38faead88001d54af7802b4afdc02be3af30b8b14f36802cc860cbeaefdff9205882a6d9c99164d0a011349892e5133730c022638881f4d535192054d611e37eae41616033168be429fe4decc062d4c156d6beb59a20056ef98388d849d688,
   0x2b12a6fd021518cce0042352edb03bde280047bec65d87ba50ad405282999ddc2f01af005daccf636b6d9f06801e1e90c9218fd621c0017de3ccb38ed1f8002b9a58a355cadd2e802f5ac381572ffa78a0597025432df6ef8ac01306e07c756a82a54020c3ffea1e3ce3d86052d676aa33dfa5b06031edad2970c3bec970640b964d9e0ab25c40056edb0d30b283f704,
   0x2c74c52092902886c004a07c46eafdb9c76049d58755d058a19580517f64ce457c7804e05cf4fd771a68d670601be38f0ff56beda720014532facf49b3b3c02b5fb0103f87f1be6031e31fdefaff73f2405a4908d8c99fc9d22014e4f0a2d9c3b549401f3ed85c111ff3bac050d425c2ec00d86cc030c76eef5d6f544660651f22764ff6799a60056ecb6a98b0c6d930,
   0x2deb243bd7fadf0ac0053295b56fd0dec3e04bd67d45cde004ba80507c675b14f7ebf3205c1b94c200cfc283c019b686be77c44d7960012e9a5148336798002b1860c9aac20147a0346a738b9d422f40905affb20f01dcb37be016cf4de95034cdd9201dba82229f61c4a5404ebdb61af56f85e1602fb67a5e00975129c0661d1af31cf9523440056ecc214560df6b30,
   0x2f78a066331844a3a005db376ec69fe30f204dc6044b70ef3693404f770b30580a80fca05b1ed1c94cb1876460179300f893d45c6640013a183b331bbd76802ac43f8a4d72c8ece036f631acd238ddc7d05b95bbaa8aaf3ef62018ca52d8de2c5409c01c34202c275881fee04c8eb26b26973eefc02eb8386726be061880670745ce031b178fe0056ed932b3efb61228,
   0x311d4691d5e87e0600069e61925822dad0004fa99a4e479e95c5a04e6958d20fa750584059fe5c76d5a386c5001575c2574842fa954001682e4d4a03eb06402a66f45b67e7c19500398c0e9aeb92a596e05c0e5420337067b2e01adbfeedcbc3e0cbe01aabf59c5661e8d8604a435db7c41daf8f002dc701a4b034786f2067dd29729167461de0056eedbd62a31df4c8,
   0x32d7c7f23894882bb0077fa5401ef9f8dc0051834379dfbdb6dbc04d4f03f944bc2447e058ba1a97a4e5db4a80135eead5824987c6e001ba55b82d356b0a402a03f629fe013426803c2e1eb298d1a312405c6aaa4196bdcf4a201d07cf84471481e60019243a5d740e18a5e047da5ecb1af2be43402cdf72ed65a1845620689c7dc55e9b3b23a0056f01278ca6349944,
   0x34a0d9594193fe50b0088319e6b02f69468053544cc466431999404c21d5c96fa6b2c14057564ded117007cd2011525657ca1a832fc00230f66724e09f85e029a39e25fbc0d113a03edb0d688c8bdec7c05cae2d5845ed5d6e201f4f797dc545191f2017a479d755694e77004557299e6b188530802bfb959e7ae6c09a60694058e0100b2de120056f0cbecd4ed8c038,
   0x21cf7320f1c1ef3ca00463e26ef7313959e03c942a3fe3ad8cf0205506eeb7aa1f3e6fe061978394ffc1093b202bdcc7f62cb6c2ce60046aaef719a1fd58c02fc59c563113a2950021c472e39d36a2c0a054f521f233232df5000ac90f893770ea48e02bd5fb6e0a45fecf805da7e2acd8f36575a03640c9eb1a69eb69645b654f49c7ee2b6000056ed0e5dfe71ea0a4,
   0x2276ea72dda8c5824004828fdd63f010de003f15864a0ec1bc314053e12f1ac7a873192061c6e2226af67cd420298ba83b203e408e8003769278a3f4f7f4003013a8520907ec2b802428884ea9ba136e60569eca5b53b4d9ef400c564f14ecd81425402a97a59fe0395978805c4adf704227e89a8034842bd1f9cd5150905cc0ebb7108b8f4a60056effb9d443a946c0,
   0x23e0bfd4412bc9aea0047225c324ca42cd6041718a2e87bf95a3a0533044c890c13261c061650316df3995d8c026e9026d458758b32002ab1901613fc3d1c02fa15f2c3e2538a62026c10911b7c8d7762057d79ac7cae8bd9e400de6d9822320b7eec028b00f2f0911d7aec05a73b319aa2634e160335580704f4191ea605e6c054952a2267ec0056f181fe984ade5c0,
   0x257bc035114554e6a004728cd8fb5dfaee4043b968b07a18a1f2e0528b03c7e4d5991d4060ccbaa2bb23cc1f00244345e97c826a82a002067ecc5d0c2cc9202f097dcdf0a3270d402967054b51f20fc1a058e256eac3d4221d600f8a1dcf11462ebc0026af53f61ad4372120587290cae554ddb980324a84978531e4d6e0600ea2ca990f9b1020056f15733cd8bd33e8,
   0x270f256e3fe7b7be200499d47158e7bca38045f62e8e7f48745c0051c981a513b19ba5806023bb66f9ace675c021b654987dc155272001848af502365835c02e87c62a8cb6049fe02c0c3d4f69778c4c4059dbe30293f2d31ac01144efd5bba02e186024cb9e14d472b80e405667935141699b6ac03138b1cc9c4ecbc0006189e685cd1b700180056f09258539fa90a4,
   0x288736a7f2ed64294004ec1266f2614016a048293e525f0b47114050e1a6d067a7e9a5805f785c9ec3fa9c61201f4c2f42333b502ee00121c225ef03e39a202e2ea557f07d3af1202ea936b5b35b49af205acdf71f2b732ba7e0131536ca88308aab6023167f833698acab60546036ca0a160c94c03013c9a00570ba7a2062d51b7500d4923d60056ef0062b92f4e8e0,
   0x29ef4a303636f562c0055f68f311e34713e04a48aef922da9cd2804fe3e40d41745f80e05ec3512f14f554f6801d0422b9e1d930b8e000de9e57d35a8580602decf07460f9fc0a6031388ba6efc58e32c05badf01f398bbb6b0014f183a330568252e02184ed552061f24c60525b4e0fd45d4b38802eec88370c5007300063f6c9589e705c5360056ed0bd71da5edff0,
   0x2b5a2d061858f2c46005e6ecc44ce971b5004c4839e26f8376f4a04ee69fa530835d79005df80dd4e9eb18b3801adab8ebb4036fec2000bc9e79e150b24b002da930eb70f5ea688033b5b62e017c541b405c6c7717853f7d4f8016cf0eae8af5893fa0200507361f9c2f56205053e41f98915da1202dda4085dcbb3e0ce064f90fd9da2832e700056eb5e49f3bf6ed3c,
   0x2ccea5bf0a4e81ed00067fc5369c77b670c04e2b034080227761e04decacfebb13c1af205d137c162162d96a8018c922c79fd87526c000b9fafb7626b2d8e02d5d779ef7fbefdb403625c307d05ea70d285d099482a774e765a018af348e306a8bc1601e8eed02c6297738004e44f179ef9060c7402cdeac64ffce7ad42065e1e6917557991100056eb390d89a8fd060,
   0x2e58448c5e00a6c06007305b1482852a07205003c45d2676df7ca04ceb12c766af3299205c0ed5e9fecfd1aee016bc6d6336bc0cfa8000d6196525425051602d096750bb765d3ca0389f9b2f56edc7a1005d8cab19bcdf2dcbc01aa4141485da8fce001d16af1293fee529a04c1c1dabd7585b22802bee730accf17e832066b90d76c747708f20056ed21620c8d78544,
   0x30003c5070c55729a007ff0db8b339b5dc4051dbed2a59109e73804bdac8ee20455736205ae26510676d398fa014aa54e09e75823a400114413c0f18612a602caba91b54c850f2803b3172bdeebfb0a5405df6cbd84261069c201cba64b8a24a5f9de01b95215d4296d6ec2049cbdd52553bc10fe02b04934047e446d2806780ec6ab37755a9a0056ef50de4a9998f90,
   0x31c0fbaaca3e1a3c3008ee30792287eedb4053aebf256e10c422e04aba949a055d836940599009b7e91fddb900129a307759e3917c600176faed543cee54802c48708345c92c94403dd5626c240fcc1a405e4630e72d7a3420601eeff064fc6f13fe001a116603282e907c804758ff37cb8541a1402a2162ec6c0cee490068338a11ad8fa78c20056f0b28d82d7f0410,
   0x3391575f19ab1f5a5009fec1baa51bb2f4e05576b8dfb2aba2f2204989935d6726b56b60581cfc18523b6269e0109558a3786334490001feffa9766c9c91e02be5f4253178755ec04082aef74362dfe8a05e7aad06bf8d8c35a0213feedb63399dfd6018951ab4a7124aac0044cc22a7c7d537b720294472159c26df98c068ca828f53f3b6d6e0056f125f369755bba4,
   0x3566f135f670ea8d800b35561bc3f41a45e057358587117a1cf3c0484006c3627cc40280568fd9323632674e400ea10d443ea9746ec002abfa520fafd1e5c02b8f65a03447e00d804336ed37fc315da8005e995e8f1c817f7d2023abb62b5b4b4d52e0172a690df2edbe5580422adc9ff4d8440fa02865cdabc01e2ce580693fc29cae183f6fa0056f0fc989794345f4,
   0x1e433c4dc1ef23fea005cba4c175fa0f07603ad2aebb3b83a7ef0053abf80b669d50ecc063377f56c2897e4de02f7db2e606a41449c00555d2820e6965c26032cd5a6a72a4ee18901f01dfd87cc9d1848054e06dd58908a93e4009f2b78f840e6f38002ff385256e34bc0820605daa11be194d00c0357726230b03f253105848dd18dc425a6260056ec94502ba19d090,
   0x1f8f96c83a307007600570f1fce4b850c8803d17348f4ec3c90f205339c97099b9f3fb00630b5bc01e268b44202ce5d78d7daab6e1e00450e325d62b4f33003246840f3d003c5ac02161ad342baa338da0562beeb399c0b790200b324e075f107842202e05e6648c37b877605ecabe156d5e07aee03463b341d464dc79c05a1b3452229f1d0a20056eefe4aa1304ddcc,
   0x2031e1b3f2f714a100059223df3eebb3b8603f9b342e1389c23b00520f1566d01eb9d040633e784dc452fa87e02a95f29cc9597f8ce0035be4f99ab21c3740329ad27f3d600e675023c6162013ea0d9b2057d988b8954b4a4b800cc14f79e85d3ceba02ccc31826d931894a05d6fd750f48604dc4032a19541a4eba72cf05b747fe71dc9dc0b40056ed43af5feb1f568,
   0x2176beb5f4d8ff92c00584ee00a9a21d8b6041eff9b71f2c5dd0805153c6064aaad2d5a062f6aaf3d981dc66a0280ca2aac16395d520028b359e44f66db2203245cf46bd4559f20026473bf5e0e1c5f560591dfba89b5f4c1ec00e4565a79e442b82a02b065b0d260f45ae605bb736ba424bc69c6031654c6dd9d5d816c05d0df60fa3f8922cc0056f047055f3ac849c,
   0x230429b731970dcde0057b90d26a6c4a3e80443582afa6bb7c674050b363fb0487f053e0626d893ca8ae576a60256c8fa1b342a3ce2001dbacdabbd711a60031b350614d3c01cff028e18574eb3c11bee05a30a3b06cc22e64000fdb65dc9cb3ee0d40290c739961d7dc66a059c6ac74bd4a32282030586df00c399c0f005eb31cfce564ccbb20056f107c9122e440f8,
   0x2495acf2bf4861d5800596729b85ab4bf2004674d2503487a5c1404ffa0fafea00f5372061cd0ba245dd63cfe022daace1f9de137040014dd78625c7683140312db49005aa105e202b8405620dd8f51e805b31033498756aba40118ce02894706df280272347f759c1f5aa6057c29f0999f549b8602f47713e774e0cb7006039185258a9f971c0056f0fa41a7ec79ec4,
   0x2617c0ba86ba0f51a005dca9c47dde3b770048b01327a013c89a604f1aeefe0538518bc061221f22171a64e92020612e4be238f6282000e0533fbf219d432030c8ff38cf1a01e6c02e28e93aab6dfa18405c286e02e8a8dc0ce0135a9cb99956c5dd80255d84d0a0f595e2a055b6a4b9e8f5f8e5002e24a12da12ab5396061953877df6d789f80056f07fb1f9fe2f67c,
   0x2791cc3fe1628ae9a00649c8b0db5c1cd4e04ae53967e4e2ce4e404e1ce68e43f9b682e060685b6ec3f81a95601dfca9bcf9a47754600092da77c48bfcd660307c5a71d97598f0e030d0de84fd2d929f705d12e70c7694dc3b6015424a31e3902cab4023b397f610749752e0539f98f2faf718f7602cf6b768aa1398bf6062cc564862fde4d120056eff02f2c40c7808,
   0x2914603d1adbe4158006d3d58825811e7ba04d0a488842f3ba1a404d122534bf4811de405f94409f35b1d48cc01ba9d5f12aed1b6300006777ccd01ccce78030324c799554548f0033790428120260dc805de326db0bd2e08780173bf6a74d31e88860221633ac80516e7dc0517827d220aef002202bd125c2ceb821644063e6a40f3c5d2bf880056ef1f6625f23efc4,
   0x2a9db5d413d1c99a000772854325fa9234e04f0f91e0911ae77d004c08ab4693fd1ad7405ea68b9d098c9aeb601973b6373ac6c87820005ec07244cea16c202fe3473269a88b99a0361136baa1ac0c64e05e8ff0fe03034dede0193888a5100aea6fc020877b081bf2b940e04f4abf72bbd6c70c002ac248c738045db22064e273795f39625440056ecf17a91b9b44b0,
   0x2c19ec9aa5a36e9900081c1fe2f14dbc308050e16e23ad8aad13c04b0c04d6efbbef50a05dae1a42ed456705201771205781ba91cd00007486d1e8ad3de1002f94707818b484bc40387c9ec9d784e044c05f1650172a3ddf9a001b202b47d0594af4c01f18b9688a5b101c804d3263335eebf3ec0029d3177e93fd2e062065b7a94cd767faddc0056e8f10314d528438,
   0x2d875410eeb7436f6008cbeda4e8f7192e805282ff48c1d38247604a1dec5d2545b976405caf9e2a9ea2d3a5c0159eee8c45cd52782000a2e330990aebce402f45c221c1bb4cd4403abb77ab969ca615205f7b1a6c1d174a18801cf018cb94ffce15a01dc7f90095b97fd8604b31d50972a106a9e02901a6131df93e44a0666b21f8213a9d4440056e820db8646bee94,
   0x2f0e818b7ee3a9fc2009968bf636823033805426933bae903c8f60492117d6f8c61da5205b8f7ef796c719176013c68286afb472848000ede69a430f7b59002ef04140076aa7c4403d111d4fb5ae9afbe05fcc58f72303c1f8c01edeb0282bc117e8601c6f27e2a327275f00490e659a3283972b8028332de98f13af00406711e164e177ba3480056ec4cbe938719a64,
   0x30c07358a5c9dcb6e00a878249addbad246055d8fd89ab4dc9c800480b0a09b0d27977205a3e30241821c89ee011d88cb8db5028c020015dbb5f75147a15e02e8fe8c0001ed749e03f93ff5c8cb20aba4060085cf7d081da89002100ef3b5a83a564801b0253a314175bcea046b09b072c1a4d23a027623da9def671fca067ae3de59641a33f20056ef362ca8d9500c0,
   0x328bd0442594fdcc800b9b6176bcf26eac205787f070add769aee046e254af0e711dc0c058c5ca4c4934be2be00feb78ebbb330e3a0001f364b7d029ea30c02e2b621540488cd800422b92af9b2f2e0340602a13d970d3d447a023458b7ab822b25900199375aaa7fb92b560442ddde1b0e7c58fe02696074250446f7b2068347b71f669e76fa0056efe510fcdaef22c,
   0x345d0260b29f9635700cd489b1ce9c3e2740592e9516dae2e7f2c045a169c4394d3cfaa0573376dca22a5503c00e0db8486ba1713d0002ad2cb90d352781c02dd236e0aae7f4b1a044cade03eb461b22e06036a260335ad8186025a5f82222396f7480183515412d088969204196553d244ae9bb4025c7ee0a8d381b87c0689a352d4e5184ed60056ef8e3c6f9e80b3c,
   0x361f96e1670c47b2100e3c9071760b484ae05ad3e1b931a10171a04436bba18ec4b2ef0055951ce2a6d8ba88800c46d8825ee1c1fc8003890784f6afa05be02d9be3a6570562d36047703ff8e499c4ac20603aeda58badd7340028271f90627203542016fa616ede3d66de403ef39aab2e10c01a0024e52096485122236068d4d3acfa871460a0056f04ac373820c224,
   0x1a09a767be1735770007f6b66ffdc0b0e36038b98a96d7a566770051a940897e4b02236064e6febbcda2beda4033f8925ec3ccb3b7a006d539e11fb8c19e8036a7eb7e0584cd50881bde0d92317c390b60549f2342cfb7f809e00958faca317f8640c0351a0eeda1d4a34aa06359222b69f293ede03461638352799bcf60542d01729011c9d2e0056ece628683e69b9c,
   0x1b5f6c9538d2582e60075624c3e527cb28003ad4d9ae58f12c83f051871d0eb04d85ab4064c96ff19be53462803167c20ae019b554a005af48065cc74415c035e9cb07bb2e5f24f01e0ba13238d41d038055da2e6938afd192a00a4e5806efd9d072a0330e9ec8687a3c8df061ee43b2493110a2a033899510c5dcdba01056262d0f4360120820056e2d304939a63b5c,
   0x1caa1f720efb25ece006ca49eef7c55a68803c55b2866332584c00519e06c314c653c660647abf8420a9b2eac02f5fd7e403d4e2342004e3e787e5d68c7800350f3fc552906c41d01fbd1bfb2711dd9ba0569765b33ecbd7df000b03d060832a464aa031463a4b15c3af886060b1ba09e3dcf435803322cd24adc7e8c67057bdef9bb21a0c1260056e2780759d010878,
   0x1d865c8d030b9edea0069f005c0b92cc26e03e4052544644d956c0510fcac2e006668f806475d38136fe3546c02d576c91374fdfcd80040fa12ab367fbaa0034df0a2f7cb26194b021aac683e21ac9262057c393eb17406153e00c1a29d133ce337a202fe6cbc28f7ab04a605f7d951449c684238032115fb6e6cf75b880591a5369606c9fe640056e8342a14d9ceb90,
   0x1e2dd1f06cf285774006b61219b14e5fe8c0407634919dc8a7ff205015ef2a911b3a68e06491aeb359fc4c81602b410398fc16abb6a0033b1942de5ab2a7003511f71f456c0cdf5023cf716ef1764c9ec05932877fe892aed2200d7b8426b644b91f802ebbfc6fcf0a58f8605e3bb403e39a990fa030942a2f415ad8d8805a565a0e6905426800056e6c796c2c7161f4,
   0x1f3c6e2fc018738a8006b1cf7e21c26241e042966dca5403531a204f5ce469d37cbdb24064610ef7d7470ec46029001b38c295caa2e0027b29de389a30cac034dd14c8332ad09110260db7c6d26127ba605a64d3a0ceeda04c000edbcdfac6bee3e4e02d36c0d8abbdfc1a005cbabb084fda3b5ec02f648016b395ed56c05bbd888661a16f45c0056ec1323c4895ac2c,
   0x20ae15d224bf1ada2006a3134910709ce2e044c521b00bb94c9e604ec3b1071a33872a4063ea0485b75d9bf180267eb9ba90bd9888e001ca1eec3c459b1a6034574e2101ef9886402885fdead27fbe84605b748d7c9c1f2c9d00105976ee822047b8c02b57ae1764e89a51605aea647c1a569d6e802e5de195181dfc55c05d530909600e33c8a0056ef8ae02144ba0b0,
   0x22348e44a195995c4006b4438934ef93d5e046feaeeaafa9b439204e11ac033f74a30ee0635586fd798ee7366023f406596405544f800133e9a9a6969b88e033d400d8e89fdc44c02b1b50cd1fc8f1db405c78c86b4c00f0cda011fccee69061afc20029746038f25e4c9c8058f5e65d834d58c6a02d4f072547ab4781005eda9140293fb5c160056f078a0ddb0e95f4,
   0x23b51305d308c482a006ee51d54d07f1b240493635a24b5e03de404d3dc36edf3b2ca38062b0cae617d0180900217a914040bdbe332000bdf0c90280e758603369530d9ef96b90002db8a74de71be948e05d71b8c33dd55bc3a013be5cbd88004cbd4027aaf24c8b44ca13a056f26a25041b76dac02c323565b1cb7b39c0603e2f6364ba920860056f0323257b51a064,
   0x252f90b85295a058e0074f05c8751cfea1e04b6753d20b780e28404c4bee27a174abfae061fba1639377239fc01f1540349b2141bbc000689379a3ea1a64003314dd7e42b582b6d03059bc5e43d30e0b805e5c8c1c63e4fdeb60159a1d9de9838a12e025fbb2836c5425f9a054e27668bd15c5d1202b0b9e07d4a1324d60617d784be70e1a2320056efd7f87309c0aec,
   0x26b338b2459548752007d052d5aea28385a04d9134b603a57a6bc04b462d3c465cd8de00612c8472d69d6ee1c01cbb48258e603360600034092eb4cbc9324032c70d9abf6151cb2033039e0083081a0a805f32dc317da665b120178f7436f292a39e00245791cc8836edb3c052bd08a49f730a2e2029e5645f886bcd804062a198448423b349c0056f030be7f168467c,
   0x284aed46aaff31dd40086f4c06e45c91e8c04fb2d0d1de694f0d204a32bf5c9d6345eea0603bcaf3fe7d40d7201a6725a299922359e00021d4bfc1410ac86032754d4d1cfb33f86035ba00c2f78aed74405fef4a200d0a8ac8e0199edbe3d9cbbb5c2022b49ce9bcadac00e0507b1a909e2fb8918028c6b6317952e3ccc063afc680b5edf68260056f0f1a71c0489c3c,
   0x29f6329f10cc7a94e0092bb57ec24805f64051c7ffda67603303404913c2d81bffc9d5205f28ae22ffffe556c0181c611f4cc35bbf200033b39f57e08f7000321e99f3fc694cac90387937327e714210c0608ec94af40c0825601bc5e9cbf962227340211462feb72ad3cc004e1e772dbac16c4f2027b2c51a5839d8360064a5f904bd815cd860056f198ce8adfb6408,
   0x2bb2819b35649ab8400a0398df8627bb07a053ca0bacc653f1c4e047ed61335acfc0a0005df421c9052e37da0015e110eec1597e7aa0006aa2799425c86be031c1f0fac57753cc003b39f4814370adfb80610dca7f5addc853c01dfee478949b1a30c01f7a0754b35b7116604bac3822f312560ec026ae56c7b7d28df5406581a3325b451264e0056f1f6e6ef5a60818,
   0x2d7b964911fd32e5000af435d2eb887c6ac055b2a1fd245663b2e046c3abf85728d6ece05ca1056374a331b68013bb9a9db58fa5e0a000c63f344f44383e20315f71889a4d0dac103df41fd4a89f1f05e0616a2c228a0f073a6020431783adbbfbf1001de9913c51d3ea0d40492b25172c2a0da28025bd40222f3cb3df2066408447b5a0991920056f1d0223ecb85648,
   0x2f4ee2a3d0ce564ac00bf98b15b7d205d0e0577c615de8e265b360459bc737f52c9e50005b31c10aa0b93f48c011b062b89bcf221ee0014532f787a9f0fae030f5827292aca42f4040a0dafa90780abb2061a217ace4fe679660228bcaa7aaadb527a01c64bad6cbf7387b8046a0f96eda03d2aaa024e3d1570634ed164066e25ee81830627cc0056f0ff942f4c7cbbc,
   0x3127604819ef3f0a700d121f7d2bf771cbc05926252c10a0b70ee04475e8e21b2396564059aac79b9b6f32cd600fc264a3961d8c112001e5516e47230b796030871d6b0188061fc0433c4174bb8655bfa061b7981da18f150b8024d5acec91e52288401aef32b27af1f3ea204412dce314d92097c02420e88124478aaa606766446065e5aeebc0056ef7a156c9106814,
   0x32f60e2fa816bf76e00e45859e671e4006805ab8bea5332a6cd1604342e50e406ee1582058172cc6a91d60a8000df455ca774c14222002a3af61453e26f5e03026e8b74a5d00ae8045c84bf37800d2fbc061b6f90f32390d51602726a458b289f240a019962c07992c2d32c041867016f7ec8d2c4023638be9f5f48d176067c5da05adbaaca2e0056ed96afb651d257c,
   0x34938ab250917d0aa00fa7a239a34de6f5405c487c5fad57fa8c2041dc50eabab4ae6c80569320daad6c3b27800c4f9f0199df7791e0037a123d504f1048403004f9668adb8096204847dd20aa08e4db4061be3355672aec9c00298cc4ef37c86c5b00187d2efdecde4b31a03f0b56720f6f05c3002281773f6c67387d8067ef039ca22e0a7f40056ec850148e3f36c4,
   0x213948dd0ea0b8a9000818be169826110e00497e659fc36428d1c04b63c54bd026fc8440643440c151547d362022da4772179153bce000c6ce62b2560b2c403617352a239bef3a382d116097841389dd205e8dccba2b69d39a20140f6a54afdb93fe002a2c3725fd61599ea0584942bd2b19e70a002a5db1f3506bcecbe05eac613dcdac83cf60056f04d4cb2d374204,
   0x22b3d32878131f2a400869db96de0d0642604bad7e9bd58f1b09e04a7f92da39e025fc00638638743ed615d6e02071c168fed243b6a00065db3a7561ffe4a035ba4a5d57047c21102fac0869b03e7176405f7bc877dab67d1f2015dd902885127c75202875c1c5677d4a14605641afdc4f4ee24b60293d946c8db34db4005ff747c849909f7f40056ef3cfc200a25504,
   0x242da67c5a87fd27c008dada6da740b203004dccddbe39fc6c560049893a2207752b4a2062c3f7738350eda7001e2029d4dcac8b8e200026571e16d1ad54c03569083364b2fe7180324375c2dd0b23dd4060538cb81a6755c38017bd6b2e8aef79aac026d4ad246d1b903c60542f9c648bb97fc000281ffa67435b7a34e061204e327b92f7a020056eea0d86cb01c044,
   0x25b2ec1f31bb75910009684f0ad66eafb6204fe0c21fe75b8ee360488521fd36d2517ac061e6acc459e79686601bdaee0722f8224dc000072036c8de3dfcc0351932216a77a6b1b034e01e30ea40f96cb0611382e2fce8469aa019b218a8ea5b2ce020253c1cdb30889407205209977e1ff885d7a02708979c0d591c998062301a6f584f41e4c0056ef156fdb403e328,
   0x274a2d58563f12fac00a137555c260a77fa051eda77a04a31c9ae04772120f3c294e684060e9d36797e4d37aa0199b8a73b1e6c581400008fd4c92fc6a98c034c77f0f9466dd44303789487d34278f2fa061bba53d49760784001bc0db18d1c0e8ba4023a6027ce14b0268204fc856d4e4c8fae88025f6ae88e7f623cb206329efdb7aedc97c80056f01ef5a79ffabac,
   0x28f49df8b1f34466600adc4880cf72a91ae053f09eebf09d915c004651e4ca0074c84c205fcb8cb41679a987a01763c32f1a45cf4f00002dc10bd1fe9ebcc034720b87200db2c9903a3d2d9b396d3ef1206248fbe18562cdd1401de89649fcbd9018c022124aa417b9d826804d6bcbd10e25cf0ba024ed3a0b3e64a4d900640cba082b33bb2ec0056f1093e08b24a494,
   0x2aaf4f9db3628098000bc01fba811914c18055e1b0ce3115a061604529d4eab0014664205e8d15dbe76898fe40153aaf25a63ca95c200076589b620d85b18034176be8a2a30de6d03cf311d9dc525e228062b75e45f7fcb4854020223fbbcd448612e020847644c5483b79604afa20380a0dc5314023f207719ceec2758064d5bc0b1b3846c580056f17b5dcaa7f2240,
   0x2c78bcd3d71223eb400cb915800a2cc445a057b791e44afbcee0c04402d4ef02942d61c05d2fbd7996761b8e801326c371ddf2bffe2000e22c08564e78512033b3094bdac43f86003fa0db30bd36a525006301dcc39c96fc16a02263f43edb6ba5ab401efdace991d10d7940487a61174d82e933a0230dab50dfba1ec64065849d2587b15c4280056f1164311ee78900,
   0x2e4d2d6f3643b72c800dc0c4eee2dd56dbe0596a5749aa90bdade042e4e051121168b9205bb745f8eb2dbe64e0112e4a20e246cd2bc0016ede43ba061668203342413a082c74cb90423c4bec346c6820c06325e57939115ba7c024a36bdf9eb83416001d8030cc0b1e0f262045f5358aee1f56c3a02246ab30c7b5ef0bc066196decf6c384e060056ef9667cdcf728d0,
   0x3020b24c664a9015000ed487a404550997605af72e9724b10d6e0041cfd50112ecf18d805a2dcaf7f6bc8986600f58b1920a3d9f5860021803969ac3d127e032cc88ee3532f3ba0044bc5268cae016aaa06327f92ae113b2194026d9687ff9963d0f401c15359f73ced7c7e0437677a935586e3080219a29916149196a60669139ea71bf5d74e0056ece06353cac146c,
   0x31d14146bbda86175010011b4f0be3f28d605c6ab922f7997f3b2040a88ebffe7dd32da058ac5eaab254fcc0a00db0b6ef330cf6d26002d71546c1e4715bc03277b04bf85a4f4e00471e1151d6119347c0631f64d362b4633d60290c04bbf39f5096e01adabcf77d0c780400410f6b56370726fd4020e8f9a2aba79121e066dd7e353038b268c0056ea2346ba8d9ce1c,
   0x333f2d6a633a36ac201170c1a52f05f2b1205deef94eba5c78b3003f2e12d98dccf1230057447bc7a3598e5e000c31431325749f0b0003af780b2a8ad0e400327f73bf0c80e099f04980bd8299df2e04e06330ec8bc8ed0ae5202b68a7ac1f08ab1da019f28cad29efc0d8203eb794b5c0c86e27001ff439958f39a80b0066e7427a824ac9d600056ed972483fb99a8c,
   0x34f803bb1a91191cb012da12a604449f95005f487775714c59f0e03de53e072860bd1fa05595f195438af3d1400aacfc9fa729fb5b2004af42845240614600323a3a8d81f0f4ece04be45240d00ce9364062fc5cae8fe0cbfd602dc1f04bfdae1b36e018d7ccc1592e3b30c03c3383c91ac83a15201f497b281062d0f7e066f7ebced3ce771080056ef7ceb88b485584,
   0x2bff2d34f5f55f06400edee60ff6b7e6c1205a15245c3a794a80a040f1abfe3099bddb605d3a4f4f2390ed8fc01223872427e688e0c0014aa18581c1f886c035e36bb1546a31b10041f7e55c8425ae16c0647ea8b033bff99fa02529fc33f65ca307601fb7cbae9cdc740de0470eaf4c6c032ed360203d118637ae50ef8064d106aca53466d560056f0b3aa4b369f304,
   0x2de9111fa7245babe00ff1036b825e56b4e05bb2c119d4f65edee03fdc7c98eb175e1f805ba4bc71535887c9201034ab63664ec8d7c001f0f900ed418e3ee0355ff62f0fd83e08d044902aa26b18f092c06483a0864428bb7c60276df06cfc594b97201e34b5cdfb6b914dc044797c103eebdc1f801f8eb02b01ea0b192065597404fa2f1cfe60056eff7c7366e48328,
   0x2fc7c2d1d143928ba01121f91a4837ed03805d3b3c00d6e56b3e603eb5742613623b99e05a024480c7f33352200e66097ed78163394002b75ff48327999ea034ee73ed4a4c814000471b463ea1a7ec4160647390b8a8d6ea3b2029bcd247942e64dd001cd0a2a49c91b824c041e473381a386b21401ee24640f57a47d0e065bae6792469085ee0056ee0e2493e29d9d4,
   0x31392f9b6107865720129ba80cd1506761805ec91520cf4318aae03d2f22cd1baea53ea058957f25cafb4ce4c00ce02b56baf2c5f2800394295ff0a0e861e034fb5d84d66d13d110498a90389a4af448a06488021735a1922fc02c2774d2fa05610cc01be7aa039ba24678c03f81cba490307f17401de469108c9b320e8065c26e4025131f7020056eaec9a4f7bd4484,
   0x32b9b188a19087b4c01401e479f1eb647b60601fb87dfbbde449803bd8d13335330ed54057152fc0c77a614ce00b796a9e17507ec80004817b1fd67559c24034e14a8cf38726b2a04bceb7dde9a2462300646e40e298bada6da02e6b69f00c549c85201af9d3f832c68981203d2db92c06b9c68c601d20c3587dcce22e0065c2c0036b12531ec0056ecf3491cddeaeb4,
   0x34a983e62bf124bca0153236a797ad4a8ac0612e196f4478c9ab603af4a4f251d370b750553f730d7f0a5198400a04ce15ca42c35e200589b5b7204e313c00343be00750d8fda9a04dff6910be2692c2e063f30b0d5b67f7e540308205789ee85c6e0019ad4f0641a1dcace03ab0e20c6fd33074701cdfe48333a931f9c065ecf4b3d06d9a3ba0056e9db1bd364c8518,
   0x36a7f97a5d6f37d88016472461d122203d806203d8d54d1881c6203a47789c1174d2e030535a1107ee715b4fc008ae39bd27a7b7dc80069c9dd6c8e35d8180336b6bbbf9b4db3f2050012425104092ae60634b29d1cc84f00c80326aacfe501d4032001858c0482fe67a98803847659424a2f9bec01cdc9f03130d43e200661587c398aeb47f40056e675dbb9804c798]).map icosaRowOf⟩

/-- `s2/ahrens_beylkin/ahrens_beylkin_5772.hpp:13-5786`, `5789-11561`, `points` and `weights`. -/
def abGrid5772 : IcosaGrid := ⟨165032827114274700, ([
   0x313b29a8db52a7b0e002f955bfe2ee223b6047344dca92abf6014055a0150cc9fb9533a0591b974a4cd69f6f401b1e40883b78c7780002b9373879e9cecd2025df235c69e623314031a2e8ece3232c3ca05647f2d83ad06fecc013b7bb5546b724ce601b5e5f0fa47d1df3804e9ad2fd876d9a318035ce0a69be0e1b7058669e992996c8eb34e0056ed40e38c92e2374,
   0x3326ced288e567cf0003712e2b236462110048f8b79ebcfc433e0054f4d864bb4fbe7e4057ddb8f03ee49f2a2018df74213fbd5316c002cfe48658a9b87e2025191d6d9c6a613b20342bc6de8bd4228e30569b1a1588f9247e001592d2774fc75bbc201980bdc60a77fe30404c455948acf23c1f403530d1a1c2efe540d067b7c655b26d61bc40056ecf33f7062ab3f8,
   0x3529e4815b30bcd7c00402c45c3c9ea298404aa5a915049d0da7005447c2f1e17f8451005678c47d777f716d0016afe0b0adcc5ba460030e5f8363ad3e4ae02445bf2bee3f74054036b5548de95e9b8a7856c797d7489ec5fd40177e3eeaa26bad788017a4458986bdbff1c049d74adb0ffdbd598034aa59a137b0c1419068b7a259203df37ea0056ecdccce097739b4,
   0x292b0c96a217d8d50002fca8f1fdce147380423ea5c1a87976eb20559a5fd107495e60c05e177c6cae651e2720232a828aa529e0cb2002b8e340332cf7a7e02ade5bb0e654929aa02998b4fbda87858f20564bcde80a5a27e6800ec1bf5415c7ce9300236e483c6fcafd96c056a768f837db89234035c821488d6ef2867861a33be4e9e4354be0056ee938ce10fbed74,
   0x2b0327fc9ea58c81600309e572cf84ebf740442b0ed7869fa15420552b5986711e0c83805d2b16a5b9fcd0a16020b42d9f8352ca9500025f47ac3b0497830029ff326ac3a31c98a02c17381cc8aab4734056ea076d2fa388e9a010548cd5fbc5975080215ecb6617d3208fe0548aafa10e2cd498a03521b98d9bd97771e063209eb031df0dd7a0056ee91f5be9f49ab8,
   0x2cd41d4b752e8f4280033b21809a52957460461475ff76411c0de0549e7f21e2e7b929005c318bbf72a53e4fe01e4efa65c7e8894900022217114accd102a02936e392471933c4402e9ad9125745dc2980577e45581484c774801200c362fb2f4d10801f6804d5176e4c34205262ad0242fa584660346f0de6e3c7536720647d2b73934a33b040056ee1715fbdc0f498,
   0x2ea7a1dde11e7f6200038b5398481d08b6c047f29f208be90ce94053ff01f0d35d1f0c405b22fa59a139e18aa01bfb2931797c2bedc002045c436b2f3a31e02878844423784a416031203a9227d4c855e057fe91f9f7013636e013c131b63139a71b201d8220865669f8ec00502c969bd42b90354033bd30f97f2857333065bbd76399678bf580056ed7c3999c83f870,
   0x308bd9e4075f723fe003f4cc0b12a887480049bc0e7c1bcd5c2b40535a9831bf4545444059f3db4997f971f3a019b7922c1623b49ba0020a9a2901a93bd38027b2dda6e4c3593ba033a500c96b339a0f60585df0f93418baab201590def75797f7fec01ba1c40e27230010204de2c1b0da5918c820331ca2c8620a77944066e0dd001534016f80056ed0f0bba5c4cd90,
   0x32851d0d3472c949a004758703c2a6ace1404b6c18c7a5dcee9ac052b69062bea7ab970058a03bbd3fdbe5cb001785311a07bdcac2c00236dc9d8ebd1bf90026dff9133ca3f125a03626f126574cd8930858970ee2156b4b5760176d2bb76ebb690d2019c3db803ba75bab004b841e2a3edf5050603293f594a30490b2b067ecdf7c9ea5fa31c0056ecd337e6277daf8,
   0x348dd7ee61165c25100510ae7b9fce07e6a04d07cb28cfc632ea40520c1b8ffa3fc61ea0572c9920e45bb6f7601563b3cef3f1aeda400287733de2cfafacc026077deebe4b1d576038a8526ca66c15da8058afd14bfc93d66040195974b8ecb742970017ecef0cb0f00406e049120a3ed7009da6e0321b4f2f8088e64a9068de1d0b04275908e0056ece60ecae274d48,
   0x21655fbbd9ed17e26004a79a0fa1d84403203d43cd25269a15a70054578cf94bc0e737c06201bf3e36fb5613802b98a6ea7e1c0fa1a00428dedb359ec2b68030738fa012f4fa16a022326df11b8567da0055a35662f992b87c000b36e252965a39e4202c17621eea558f67a05da591bd0e5beb64803568bb7884464f93305b659070ac7c5e6560056e9ad5f08f470b30,
   0x23157b329e2a3bfd400447d186f4a496b7603f26fcda54d52246805438f9f15dd2b540c061695e8f3faa9bf1c0291c17fe1e1679d260036f50c49f09a599402f7b66686e70942fc02473ca578017bfcec0566fc9d8955b2a30600c6083f12e0027dfc029f498c073b16af0805be290e744eb72b28034d77a88e3f11bb9505d2a2d1decc9378740056eba3db72bc08f84,
   0x24d492555bb1033a20040500fc750c965c80410dcbbbdfe55a8fc05405c8f2de7f94660060b78144b07011f540269e10cd63a523f7c002d0040b92a1e61de02e86b8935f9e0851c026c886582d0c7763a0572eb9e69245b8ce200da80619aca8a2344027d30dbe460fd2afc05a03d66f96e1dc53403441d5aaf4832bfd905eddcb00f886507c60056ecdf7d6272eac34,
   0x269f53daf6dff6ef8003e06a5d9da924020042f3233217d344b4e053be7a66294af2a4205feca2f7fc533c42402424bb49d13d317340024d81fc3b460c25202d9743a7d41dc04440292b3ef7f4b0a5926057dd4de4897eb79d400f0adb808d3ab0da0025b7a3ab33a047c980580d02fb5bd5c3c78033a9de90c80df22070607bd3ea7b3f975900056ed7f7bc9ea86094,
   0x286c8a80ce2976768003dd99d55bd2a79f8044d7b9c2a4e9988740535cfbe054aff0d6c05f0ea90afc0d68bde021b5370e8394afce2001e7759de8518cb1402cb679329201705d602b9905e305d622e640587f9b79ffddbb4200108965b2c75c83b1e023ab5b45f715cc430056038b1e6121c31ce033094e4b8e31f3904061feebf533baeae4a0056edb4888edaa02f4,
   0x2a37163d96fe0a10a003fdaf85a695b1a4a046bac942204929966052df31eb5e453a82a05e20eba582c9e353801f530d7c644bbb57a0019d95aff52e4139002be8d17d6380f4f8202e0f03cbdda379ba205917394f5652191120122295444f98cacf6021b3275215b32bc34053eb417a34fc1a1ea0325ddc1f7f393167f06364317fb8afc59fa0056ed92f89b7b3cd84,
   0x2c04890f7395a336e0043d38531af2d1d420489692bd6e444223e0524c7f1b96b46262c05d1edc21dc2dd46a601cff0ab53388d204000171afe109a29370602b264ac7314207c520308a4ac6760e6d3580599dc944aa7d6c4bc013d278f0b2083594401fca932744d91067c051c32481efc4de93a031b007f6c365d53e1064ad482b3f1a030000056ed438406cc72068,
   0x2ddf4df7e52956d18004971d1d174ea010a04a62f6d3f3b659548051b049884fa72529a05c0015d90bb3ab7b601ab8f8c857ae9f24600166edc74e5d84fe402a6169485d23ab8c003307eb62e1550162f05a09164914c3eb90c015941aed7c353fd9601de9281e209fba36c04f87d4aecf2fba2620310d2c42c9b2f56e9065dd76ae7d7ede7e20056ecf8359a8d5deb4,
   0x2fcd1339c0105d286005081d82083a9e69404c19771e68af14d76051123332751e6316c05abf9ec040ef8b796018824045bc2fbf8040017fae9182335a85402991f294834b89e2a035847aa09a467985005a520989d55bc1d0c017635c022503cf5ca01c0aaf3642370364404d385b61ffdb037460307e6246eba883a36066f5e0a317eed7ee20056ecc9afc2e72a668,
   0x31cc712c4b2fed1c300590b91bab7ce51e004db9a6a0aa812b622050719c38eb62ce36c0595e3855651a5ee100165c149bb18c965d6001bc20d4d10703fda028b927c34ab8a2786037ff13edda369ac0b05a78d74154df5d97e0193ffdc7b5a98f5fc01a30ace28c0275f7204ad5bd74a664325fc0300326ec36d7f1bf4067f5792bd0055998e0056ece7ca56f972614,
   0x33d7bc4e1adee926e006364029369fdf89204f4bca7ff91585cd404fc455085e50cb2ee057e05effac8947ece014443f134dc9612620021aadeae3a6c3d22027e0d57b1d4a85ef603a7d36af528899c8c05a8561a7e8f396eb801b30aebd16dda99f60185fd151a0c27b5680485f5ad630013bcd602f904f4c8e34effa6068da55da9187b0fc20056ed6cfd0a6bb745c,
   0x35e9137f9d410e955806ff31072220a014c050d8f955a43c43f1804efec0576fb0ad46e0564a6431dce3baad00123857acf305642480029a3a4c23015901402713cb8b3925bc48603d054e49efc68473e05a7ff1dcc1556d80c01d3d69f4015efb6c20169d4e67f224ae454045d3e70e95e2aca9e02f198ee3735929e6e069a1efff4e0e513860056edf968b1cffc5a8,
   0x1abf96cfb1fc21a2c007839927e4b8140da0383a2c21a6ab4f5350527e4981f35199cba0646601213b9c02386033e1135636eaa11b3006f0008cf5858cfce035b3d09b5a757519381bae6796382d20a0805400b2e368b51e538008f46300d6523cc5603474abf1261d26cc606326dc770743b30ce03546f8e73fada129505482abf5d41e499420056e6953005a220454,
   0x1c02170167913b7b6006ebaa1ba038f84c203a325b4f3e7aec66a05260c52d282b3be1806448dd3dbb9d4a51203178fb3b792a19030005dca6b5b9e2d4154034febdab95f7a2c4501db8993ac9f065ac2055264acc70e08bcfc009d93857327f2166403287fea15f803d39e061d21e338525e62640347f4774637f750bf0565d56cea0c7893280056e6f2e43dcce00b4,
   0x1d7acee926a99a70200652631fdf930c99c03c07590bc69b74e3c05266b0e1db0b019d2063f5a853d6b823b8802f11d5c8249c80436004ea9068298260ae80341241c5f06c90c7701fc103a79be3b234405614b8580655c6d3200abc1fc62a3f3592403079a87fdaad2c2ea0605d0f0dc0f8bf94e033ef94ef50a4868e305838403fdbc7d4fa40056e6942ddfd9c3380,
   0x1f09a8f28a1759a00005cd0481192aa8d2203dd8ce9676f6129c4052651c926941feee6063857fd2f9382028402ca8a1a326858bdb000411302d34632f81e0331cbaa64c84296f9021d7ca7fdd0cdd6d0056ef1273a0fefc0ba00bb43515e57aa3a4c02e6475f70b4d03a4a05ecd3b23b800f94be03367a82072e91c33005a08217b1a59718aa0056e841feb4d4d5e54,
   0x20a211cd0d5cef15e00565d75b8c920942203fb98837ee53ec2c0052466d0cb61290a4e063033abbc1de8a4e202a37a0e9a303c20fa0034b8f4905aa0cbee0323348698891f3b75024090700719d90c84057c7aa52a13b2eda800ccf4dd32e1f58eae02c51e8fc29ebbe92e05d21db4e633856d76032ced47a619dfcc7005bca2b96de87db4a40056ea58c8eba74ce3c,
   0x224aa17f4e327458200519beb675d45748a0419f511a0373b3142052144b204775cc98c06267ea7d222b09022027c2d325721c6d36e0029e4d042204f371a0314bdf85d220bfd590264ecd11443a4259605893e864914cfe71000e07d4705f9a0685c02a3e44d7c5ebd10de05b5a4fcf15f619c54032319e1bcfd6d162805d7dd28c850adface0056eba33e7b166312c,
   0x2401ec759d789be9a004e841da2f09771f00438015c72f1fbb0b4051d3b1d77cc2962d8061b1d47dfb600341e02552efa62f735a0360020da115c1a27c2b6030644caa648ada60e028a01ac737fef66220594c80ed84afea13000f57ed2f2ae39736a0282d906a9cda54f700597b183e33af7c516031979b5c2b5845ae905f1dfdf0e603afb220056ec2fc3332917100,
   0x25bfd06b625f051e4004d4ac91af12bde1a0455ba16d5f28b090a0517f8d820bf55a05a060e5d71d5a4b000c4022ed3708cc5cf25da00199cd16af90e00a602f84ba01437f1dede02af9b90379c7b5c58059f4559522dfe8842010bfa4d648daf221a026281683cbded034e05789339fe2aab2534030fbe115ae75ef0aa060a56541a53f6a9640056ec73e7e9af13d98,
   0x277f69ce7ae24feac004e1bbdb7b5caebaa04735c2cbc043d1e0c051123ce0e8921c84406007b59d5d89267e002091df1ea699ac77a001419e0363188891402eb3a7cb13073538a02d5d2331aa2bef54205a90141c301fe39da0124197215d7db8eb602431fcf6beddd427a055860ac9095fc56d003058104a96950096a0621235fee2f74e6500056ecb489218076e6c,
   0x2944792417bdc5a640050e5e083aaeeddb60490df14e270acd0a60508e0a79c58bc897a05f14c58d66dd448f801e3f2190fd57324ce00105a38cae14d91f402ded59e7dbad926ae02fcb7683021ed1e6005b1dc2543c86e80ce013ddcb2d0f4107b0402247dc0c89f1458260536f47b21520f92da02faecc4edb7d93c0406366321a26b7f5a200056ecec4dec8ad73f8,
   0x2b1718f31da9aff5400556ff623f25d8ba404ade67cc651e7a17604ffb3ec440ac4982805e0679fd0046997ba01bf4812fa056d72dc000e85c83efa8e58ce02d27afb1798dd235e03242fa37211bc9ff805b95c2e6939b5756601590faa28ee8c12ae02063240defd3cbe1c05141ee59768c9327802f09e869c26c86e02064a3dce2dfec252080056ed1381d31a8fc48,
   0x2cfd157bedb0a7914005b864c1455e11e8604ca00e3013382989e04f61cda36b49ebf2e05cd78e83bb2bb3e16019b3d57e367b3d284000ec826ddd3c617c802c5a29973aab25c9c034bfd79447b505b5b05bf0720f2d6ffb46801756c6f02a95eb06601e7fb7d19e9ced94204efd1cbe1f1d7d32602e7307956bda41184065cc1225b8a3757cc0056ed37b5c796eb0d4,
   0x2ef749de8fedb6762006318328b58d2b6ee04e4e9032d3ade69e804ec4fcf0411bbd06205b8680df72e7ef7440177fdf08d60b4e0f600113ab2519d58b70802b823a5a629677d5e0373ea90c9ebd3847805c2a3421eba2db7a80192c71aa27a4d395a01c9db70c71c2eb00804ca1fd9182146118402dee6a7fb70f1e7cc066ddc3754eeb03a4a0056ed7f18960be324c,
   0x310203eb50073f0a6006c4e830be607a3ac04febacf1e7a350db004e20b7f404dae299205a1591e9a116ecc7801559d727073ae805e0015de37ca6226924e02aa4b06c9998c57ba039bfc93a2d480583a05c4581f6fa59b769201b13c6c0c7e71879401ac0dbdb1f78f795204a31bd5826f72067a02d78045ee89dd938a067d69b38269f91ed80056ee064a2adeacb04,
   0x3316b4a2fdcfe4827007783327285a467880517dff035e3e4e05c04d6b1e212b5566e40058894abd20b9cbc3c013416a66d2c016a18001ca63bea74876a2e029cbb436833570b5a03c470518d274942b805c493dff810be59f601d1299143fa824a8a018ef39cf53d1e4f08047acd055f1563e78002d057937f139f11a4068b35376c3b5136320056ee97f6d64f21828,
   0x352fa3ba3f83dfe500084f7f15683de87600530925561ed52f8a204c9d4933d125be5a2056e55ce8f5a967cb601137cbd015d1a32de00258ea44477f30656028ff12509808aebac03ed5b33449e5c7ee005c39ed7efc465c9f001f2c45eca075bfef80172e60a1369059b7e04514ab39943112c8802c8fba33bb7cb845206970a4dc2a1c4de440056eed74f1e21f25e8,
   0x1c6eb5f157608ab9e007294dcc8febbaba603dffac9fe9cc3f45405069cf4bf45c5d734064fef0a9e28ccf17602e4249befb360d354004496ce823c31f3b8035f274c8ac99ea6a1821156319f5e0d6cb6057f05d58ff054810e00c134fda47b0bcfa2031222aa3675eaa3ac0602ea6849d518f8060318f1c85275e5304205833b23e1849fe3f20056e7d76fad54607ac,
   0x1dfa907a1d3957a20006b212a2b095db5fc03fe720d56a741db6805050de478e9ba157206490ef5386006e8fc02bcd288556585dda40036f905f9f7ab34d00350d384870b7aad9e02340d3f95b8cb8bbe058d9a409de0a2a83c00d20e78744103103802f0faac8677385ed005e9361d37cbc4a8d4030ef862e878b3ff7905a02356f3331209440056e9dfb81c71e44ec,
   0x1f9212ad48f9b4d940065897235fc959118041d6abe94274550dc0501f6aa0c82189b0c0640d2040cfcee83c602954d977200feb1a6002ad539cdfc59a89a0342fedb669b9a14de02581d56ae966acad0059ba70e4e892400c600e4e35d85c5b4e10c02d001cfda013a9a2405cdd4f880628f090c0304606f02571a9b2e05bc04cdc44b73ebe80056eb1122f505f731c,
   0x2138ac15ad1bbb844006188766e820566f2043bf02408ee8ed12c04fe1aa409c4f54ad00636e2bd7ffe566e80026e2ae3ce2de03de400207ebe813170f3c203350e99122271e689027cc690cfd654041c05a8602b6c1a2209d800f91247adc215c4ee02af349bbb7e74b11405b108c0295a594a2202fa20cb675951cc9205d6ae2d36559a1bfc0056eb9a75a5d449940,
   0x22ebf04e6bbb75bce005f29d66da56be3020459e729d86aa5d26204f971f9aa45d22c48062b52524136f5f3c80247975011eaeacebe00180089eb7c2e7fd403271f8dd27e77cf7702a1e33a56bfc3896205b3bf7b9c731bd574010e8b18e788ea5236028ec09c94142831ec0592f36102cca6675402f038656c59ddd26c05effc88a6528dfeaa0056ec2b78eab2c6c58,
   0x24a8e139c1670e22a005eaa9134b83f2d340477c70aef02e69ec204f380e8c6c0bd8b78061e4dd7bb54edc79602215d30e84c39e6680011418b818460625e03199bce13af43121602c7ceb132d8e7c34a05be2a8c10b713376e0125abfb94295d198a026ec6369b8018b13e057378404325c36ba002e61bfd459b731ee00607eb58d965ba42a40056ecf58335e031498,
   0x266fe02325686411e00602d569203dd9f720495cb1227d045ec4004ec0f9d1502eecc1c060fd15d24705db0f001fb543c049585b624000c420eccf571202c030ca218da1651554402eec6afb672dcfe7a05c7c3925e2db208be013eb0861867cd0c6c024f3f83c9a3f2356a05526ec813fdfe95f802db93ed58419342a4061e7e1460754ab85c0056eda548083ca1844,
   0x2844e7d8a9277cf8a0063989f700f5d501404b3a9d8113736624404e36b1e8bf6f8c8b805ff9f7376efae78a001d5901a1b73c93cc6000925cdc7d773f03202ffdb780aa121c8b40316a7c64577129d1105d03738ef137d0c1a0159730afcb0c03a0c023002ebc3abb29ca8052fc6e72ffa3f4c9402d1035221794f34ea0633b85bc0d04512920056ee0fe05f98bb56c,
   0x2a2c2a503e1d097c80068ba41192ee6da1a04d0e396277163b7ac04da10a45a15f83c0e05ed73664f12bf054401b0471a3c88a9ad8a000818d3afd00d4f7002f2d10c8be3bbc6f4033f1ca4951c42adec05d70c1154af43baae01759fcefae387071c0210e887a5e7831fca050b8ae16916865e1a02c7029b4b2377f3a00647979fa52971db500056ee4b8132f6941d4,
   0x2c26db61ab0089d06006f70454b7a8d481c04ed0ef1a3f3e7992204d05647bf0a05879605d92e1192f3714216018bba5ace1787b81000093a4629e61b28b402e541bc0210148a320367cf2ee663beae9e05dbedbfac522daaea0192ec9cf17c18c1d601f1f059efabf9bf0e04e5dcaf808f5676f202bdfb2210aa33e3aa065a089e86a00320b80056ee7fe80995db438,
   0x2e3253805b0f1a0ba0077bddb0d7ec5c94c05080163eb5afc893a04c64198c9b967bd4405c2e315de9cff8ad40168227b835260c4a8000c94dc0234fa901602d744560fbddb5420039088bd3cc42a4c3105dece1d0c166b9a9e01b139a511320d31ba01d34b7a8e9c2bfdde04beea3a5d7b501c2802b5f915a54ab15bdc066ae661d8b67a467e0056eecba028f67715c,
   0x30490d23fc0f4a1720081d2501b7ad28ea00521dd435c2b3331a404bb7fda6bf8be849805aacce1d9b6b470b401459e7f2d1d0ec1680012226221310e6f1c02c9429718d39cff5403b9478901ba2cb07505dfe67f283bbab59001d0a30aa0fe57a0c001b54e6d2766d2e0ec0496d8b7e849ea39e202aea5e41a64b1ee8c067a0082ebc607b63c0056ef241bd21c4e7cc,
   0x326557c7b6ba06ea0008def7aa02c695a86053ae680e02e745fbc04af9daf753b6e4e8c0591292eb73918dace0124394b01f876b2a60019da01f3bda4c2f602bbbc0e7b0798355403e2295d717714673e05df870917b5a6e39c01f163e7f78e2f22b201984ec3ae673b4a36046dbbe3ea98bbefb002a788b9e652761aea06872795790bf8c6b20056ef53dc4860a3f38,
   0x3483d93eb13c6bfea009c330628d143ee3005532c4b35c690b8ae04a26aec8aef2efc5c0576193c366695dc3e01040a931f321bc09e0023bb91fba9354a9202aeefa782d9efca6e040b28dcbdd0649f6805ddcda98ad3db7f7802138b425511dc0340017c82074c5a2a643c0443ab9bffe6d08e7602a0715209a14c208206923a9ce457d5b50a0056ef2c24f173ec080,
   0x1e8b862b01b84bda600769dedcfb7228358043f32cfde823d950404de2f1ac7c36aa2ae064ffead99a183caf6028774b86a79a8a3f00022b07df17619cffe036340008cfabc4f228270848d849ba1ed9e05b9e8b57a84909e6a00fe86b2f39a6d650202db622848bab1574a05c820d5556178d3f202db907007ddccd00805ba054fc9e7be37b20056ec081b16b9fc144,
   0x203985d3c10e5bafe00734c1163fd398604045e4f9aaec78d960a04d99e4a743c3bd78e064586d858e0084448025fd2750e418b0d1e0018c092fd442180060355764ee07f57ccbd02961992abe2defcec05c6aafe4ac74d1f7a0113b392cfadc4fda602ba5df374faa343f005aa6e7ced5b53bdec02d0db656c8bf0be1205d4914a46a5df552e0056ecc3f8e60e7b06c,
   0x21f6bc220770088180071af321ba32d17ae047d0d31d38754bcd804d426c41eddf810be0639522be682cfba4002388a8b153131d8640010ad02189afe67680347a4c325c812cd0c02bc62515e02654e2e05d21f835f718b9f84012a5d990fc4690bd602998cbb18396088aa058b3a23d8f41d896602c6660b9ed28539ea05edd75b160762cd960056ed92e3ea2a905cc,
   0x23c0370c9c42e3994007204b28ed9650eaa049bb4f80ba3e1268804cd639cdfbd57357c062b7ec4d567d7919402118c2410ccd8e294000a74331b0c776400033a26dc87e3528a4502e3959030c2a03d4605dc863bba88b6e3d80142cc904a526e8a8802791ca38499c68d3e056a748bd21e4b7e9402bbca7b755f77fc4e0605bbfa0f034e439a0056ee3dd7fe00b7710,
   0x2596b27d25077ea82007453d2d4efa7af4e04ba333555c46b6b7404c55c7432f7007c82061bf96ac9f6ffefba01eae3923040f0761600062980b89fc4bab4032cf0a2c288bda8cc030bab781591ea006405e5c7169288559f68015d001b320646262802590de44c90d3831a054816ac53ff15d3cc02b11c4a991c77ea1e061c330eac5d8200600056eea63bcb9cc8f48,
   0x277d2ea3214728ce2007877a8d91b22b77004d82bed10b2aaf2ea04bc6bfbce2377b5c2060a914e47165c77fc01c4b7d6f917679b060003ebe219758ed946031fac5c43d39536bf033466370e394ac4d905ed8b0f69ede3f0820178bb344dca4fb3c60239439db8bcfb79300524288fbbffc2c1c002a6c94e003911d43e06313b4e027838a8ac0056eeddb1d38e2b0ac,
   0x297517e383eae1890007e4a587c3b75d33804f53a331a03e1623c04b2ea5483efdc913205f727c0bc9cd5a78a019f43821b28c479400003d635e199702de60312157e5c7a61736f035d73d75b5f17513605f380d041b24b6e300195b3ce1f3f6790220219b7a4b5caca1e9204fec9e715ed3e4b5a029d3a41b93d80c8540644c7ecc195d3f36e0056ef00389d16df534,
   0x2b7c8ba449bf881860085bc97e9ce7e772c051118a6c7f8a85d7804a8fd3ae70da6fe8005e1c75da93693f88c017ac90fa38c219a600005f57bedf0cbbce00304275ab6a72888220386886a0ea24291f905f78406acf1a3e41a01b3b187d98b8a01ee01fa902b9f69d46d1604d8302e91f93ff5ea02949ceb12579fed1c0656b946d2a865438e0056ef24824c9a9ed08,
   0x2d8f5ef2b5d61dd18008eda0ee508b4e564052bb3d54c174eb372049e905f2c66cc004005ca9a41803509aacc01577d2d211a40df06000a484047aa1e2baa02f617b588dfd4903003af7675aa3a1a7f6a05f9a2b448a21b5c4c01d29f7ab76382f78601dc0efbbe78d7805604b09187b5ce0c9af2028cdc145d81315dae0666e7999c2030b3b20056ef4f5e43f2165ec,
   0x2fa9573cd638f62ea0099c5785c813916a0054528366321e88c440493648405fc2ac82605b1ce97e8191bb15001357562af178480bc0010c777754b74586402e83775683c6ac7f003d83de8f8d049f8e205fa0afa189eaa34c401f29312fc0f72e4a801be7363964d493ef804880a861629fa28580285b425b0f12f6a080675301f8cc029546a0056ef69ff8a58cb2f4,
   0x31c772126c120ad1500a6a74a24cf4c0be4055d9ede7324862f1e0487358255c0bebfa0059783cc795a94659a0114b5089c6335d2f200197071ab2213d22402dace7bc1cbf689e80400f46d2948911b4405f8e9a6d1f567603c0213b2b541e8b0014201a1ebe116106e251c045ea131cd9f0c00ce027edf4ed9d6799924068177c5ec875aeebe0056ef506670c6274b4,
   0x33e80b5f0c40d751900b588551d5bdc91800575133240d416f8800479f668e319afff1c057bc947fd9e9628b800f54fb2fa8734e0660024448162eff35e9402cdf5023e9c88d2a204298be0fd0cefed9205f64567a9ce7bb1d40235fb18c766203eaa01869386b4f31e2bbc043467cc73f52b81d20278516fd015078034068bad00478fdcdf320056eee7c2486a63d10,
   0x360a0b3570f2f9bff80c63fc641364b3518058b43d729fee2e50e046be38403acbd914c055ead695d8a05982800d7766306b85b2be000313de4d79e4e44d002c19094c26266cd400451ba08211ca86af605f1feba375233439a02592521253f471174016c78447050581c28040995190b77f6e710027243461250713dfa0693cac0514db6765a0056ee183b6382c8ec8,
   0x231576832df196a7c008777a00b79d2685a04c212b78e5218dfbe04a58e3d79ac64a726063542a7580163156801fe78fc8bdaaf90de00055355a869b42c0a03595dac871d4b85150303ea4c2c828b734205fa456bd65ff504a6016409725a5de2f35e02809d46eeeacde598055c8241bfcee564d40290c9b6e2ba77f73a0604445a2ba09386e40056ee904976b18ee6c,
   0x24f6a0d9e8df81c82008aa08be62d50fc4204e04d3c762a827f6c049d2d8fdd8f95819a0624b130fe1d9fc39c01d7f50a53a07b229a00020f84c348c7317e034bf52207ed06c731032c622f410523762d0602b6b8a2eb4aa87a017f00265d155f98800260861176850505c8053942206cb59e09860286647939e6bea3e4061a1e31775c2e01060056eec485aebade064,
   0x26e793e971b571ee6008f89ea1a834890f804fdc277fc2a1eebd8049412c4527f729b740612363a3dfd5e923c01b21d01ebedec369a0000e73009f585ff40033e63897c22bd0aca03554350461e9ca5fe06097f9012107a9216019b4d0d29c1baeb180240bfbbfc7baeafe80514926cbe5650375a027c92892d5aa482ac062e78a1724ba7874c0056eee6682a2cfba8c,
   0x28e6c4d5d3993e6f4009622132935543290051a2ca847ac6aa86e048a6763d3d7cdd7a005fdd8ffa0b885d47a018d3034e787d591f40001e74fc4969d5b6e03309e77ed8feffad5037e4374751b63b586060e794e505854871801b8b75d2fe51e03dc02216af84c268c691604eea57fff4f224ef002738573c47c1a4014064137713f264e800e0056ef003fdead1eda4,
   0x2af0d3355c6a12c7e009e6241e4d5b6c1b205355c4ff5529d0cc8048037f55a60e716cc05e7b9ec181786812601696dfa87cc196d160005117694e7f8201a0322bf93208f533b8503a71f1562fefef07f06119aa2b787034e0201d7112baddcab454c0202bec5d7b9d80eae04c7b91ecf420b4cfc026b4ab8cf258c51f8065237aa73559a23940056ef17d7fed57b05c,
   0x2d02e9d1f62e6e45000a84b5c273c10b400054f4160a7df527c2c04757dc47c647382cc05cff841e004463bf80146fa40df4c782cc0000a6063f94d18eaec0314e7032ae26cf4da03cfb2d30b79da87600612ecf2966a5ed68601f64529c4ce814eae01e4e5390d3b6ff5d4049ff677c25d4941d40263d864f046f65cf00661628a47e5dbe68e0056ef24a26c0e35200,
   0x2f1b592bb02c63b9000b3ed7cb5e6009a500567ebe34d638ad22e046a1b6feab322999805b6a6b987445f7e260125da84f9efa840340011d0c56b60965e920307379b60cc76187603f8032465f188ea76061285b8e0274f9ca60216600ddc663730c001c7f73c4475127bf20477665a6aecfbc938025d0f09316f27511a066eaab85bb8c36bc60056ef0fbbc8e6226a8,
   0x31389131895c7e24500c163eda5eec8959a057f75e58be264cf28045de622ecc4133618059bd3f59dba80a44001060ea2554df2c3c6001b63edea9ff7084a02f9db48674b5f39da0420210b97b8e6606806107e1b273603578402377d389a2471efdc01ac0ea2109cc45116044e074f470be5bb7c0256c4a25d3acb844e0679ff6d9c488e05400056eec1d09c77da2dc,
   0x33587a0707ae6aa1400d0aed45ef50e28a80595d1a277473e8dfc0450da484436ca1f1a057f96ba823416d71200e7b2871d1167a43a00271684be585b824e02ece8f404cb3affba0447f0b19334d99652060cdba9078d6facd002598b8c5941b0104a01914ad6bdae1a322a0423f89d3b16f621ec0250f389b9a3f718a406834f4fdf201ead160056ee26edec847c978,
   0x3578866dfabe2f05200e191df713dbfa8e005aab255fa33bba748044342708ea2a3eb400562167fd9afe8554000cb061476c39183e80034d181bf43661a2202e04bc46e8fbdfe20046f0cedddb92f021a060787553eaa4990a8027c273cdd1937c16a0177c67228bdeb12a603f9912d93de1569c6024bd813de509de956068a982bac787592880056ed1b7e5f9486200,
   0x267271fbf35dc275200a8c26b87f8035d0c0523509340048adc0c046aa127e3ac870e9806172117a343da9d14019f2f431c10aff3ea0000446c0bef716230035c86e84eddf403670377c7661953f4fb4f0623bf6db9d331e4c401c038646f961225d20247ad42981942073005024771ec7f2891ba0252bc54823fd124b0062a9520475327eaa40056eebd3877b13db58,
   0x287315960a5e73fc800b03da3e6bf671078053ef5cb5bc83fb3a20460a7ba3d4d42b39a060202b945c7a5ca00017b1c6503f105661a000265e2969c660c9c034ee3c2502922e1cb03a079f003b874b67e0627c8123082d15a1e01ddff131606bba7d40228f426541406826004dc131d49b28971e8024a1404394b5c8e2c063c40eabcb798673c0056eeb935e88ed6dc0,
   0x2a7acf7d22eba808e00b954158e9fcc64780559476b4b667dd8e604562e7331fb89d9aa05eb5210b4fc564cee015862a497069703120006a0df7d641774fc0341498b673e38b64803c8d182badbe81b5e062a06342be46c7c6001fc8bafec6cab4de2020b15daa8424bf28e04b51e5ff600698e160242380ff3b0bc6530064c1943a1041db2900056eead14259297cc0,
   0x2c8987576bc611a8200c3f144b5da9acac40572338a552f7cd670044b4e61092b0df8ee05d3150e47ec2db84401370aed5755c77aae000ced4c67224a86140333a9b82168de830803f0b889e5e09847b4062a726dc707955266021bc43bdff3dd74ee01ee0ee5a60e17bf5e048d7a3bcc9166f49a023b3c866d39b2d2ce065a255081fca0cf5e0056ee8a26e00b326e0,
   0x2e9f15f690908998600d01d8461b0bd6f9e0589c97949da3ae616043ff85d99ade737a005b94e3f4081e0af2001170ca73b6fb32a060015497b3af37aadac03260f28c5d4b4372804183cc2993ee0dc68062917c9f0a1023c74023bb659a86fcb7b5801d1e0b0622cf5ebf804651fc6dcda227c5a02351137ac2811d5880666653c072a38054c0056ee3ed4fa00980c8,
   0x30b955f4439e2592000ddf904a5f3b5352205a025f3aa717d68da0433f9646495edb3d8059e1234229eb5d39400f86bb10e5fc38178001fb67c33989c1e900318ae9dec348108b6043f6e32afc8f39bb4062614c04280182568025c7fd501ac2f6f0001b6ae3980badcb074043c11cfb725117b52022f83c770ced8bd6c0670c2bd32a98104480056edbee35f66de90c,
   0x32d496c9ce68e97d400ed7e1498a6c9142605b53608dc6203dc9c04274d4a63a5fd4c5805818dad4a7e1410f600db531f6a200f153a002c26eef4b6d41a7e030baf2706c6f3251c04661e412363bc8c5c062179448e13204e10027e005cf4baedf71a019caa450e10040ee2041288cb51c724fabc022a87c655e0bc105a067926b863aa17415e0056eced08e8be0a664,
   0x34ee39e3b8bda142b00fe474cada3a735d005c8924e1668d1f1dc041a6cdb2fe814077a0563f55173efff40ca00c00c3b86c315610a003a6f8ba93ba09d3e02fee0034535bc8f04048bc4f8da068dce16061b25f6d2cace885a029fa53ee3468876b00183e3fc8b2b1c120603e8f94ab9e55edc3602267b403de3364886067fa28e69f2fbe0ec0056eb830829487bb1c,
   0x2a10d00189afa4ed000d6543215ab58d0e0057c1e50c518a35fa2042b40afc7419b2dd205ecf22ab1730caede01487943be1fdda3fe000a9f930540d52f0a035fe9c1eac07b7dca03eaa73dff4dc1a4c406408f8cbe5ee6259c02236148edfb8ea71602142de2ce8a612d6a04a1364b953cf25c8a0219c25cf5ab22aa0c06440265affc548d740056ee3d8cca89bae24,
   0x2c1e8ed54076f95fa00e18012c5eafe25f20593f431de0cf45b6a0420737c52e9df477405d4246bb1796c6256012836872dd0ce3ee00011e5c0ab0b5b17d8035247e39b0680920c0411d17af97f6d5328063ff65c1341802b2602427d57acba655ad801f7d0d948b07165640479ad615f235d3f720213740d36e5ec2a6806510b135498e9a2de0056edc48a82bcc290c,
   0x2e321265bfe3a0fb600ee0efaa5b6fd4f4005aa541d0efeadc13004155e8fefa8072fb605b9e6ee67d49e9262010961e4c202f11dc2001b22a7f02b9b54aa0344994e312db1e8f5043869092de363b7f2063d92c5771892d28802621a2a22cc5efd7001dc4e37778e53185804519bd7ae353fe182020e14b80a78c057c4065c56122248caf0e60056ed3021d4d8bb844,
   0x3047bce67a506ec6800fc3295c4b67a7a0205bf6bc77f3e79da820409b0ff206c29280a059e5dcc73084e827200ec02a9eb25092d02002655bc5c77a72c48033733c75b60df08a9045e854e2149b85d3a06399758424fadff00028264e8ff5836ee6001c1df835363dc9326042909886b0b4c00ba0209531b22b9388f2e0665c02bc34cb8ea220056ec7d962c8680944,
   0x325c96f5129644b15010bc7d5381779a57405d315136c174e847603fd8b8b08bae99bb80581b52ba5343201c200d0449286ec33f9bc003367055ad4a6086e032a206600edc19b010483e4e3282fccb51c063407cebd0425969002a31f7dea8e0a747a01a8a562642f07af2c04003a2808757822220205412705578189c4066d440398744e202e0056eb5f6434d395980,
   0x3470a818a193eeb8e011c1b67a805952a7005e4b5e6433a96188e03f1cc785db692acfe056416b453bfcffbb000b66ca50363af28c6004212a3389e25c1ea031cd5811f677b39a804a7d3eec4980cda20062c9eaa079ccfebac02c36bee9f7ad1da780190756972cb1e914c03d7b69ca723734e720202932da1df1c29d8067325c3c4933ead220056e95e5efcdd03db8,
   0x368065658045f8f85812d8101c7036382da05f4b45e0c9aecc31e03e5eb7bdd770db1320545a5f5e75e463e9a009e5e7939bb7853dc005257bb103aa8714a030fca5cd203bfcb3804caa294c71e7d01cc0623b1010359e635c402e3af7e4077ab1bfe017987bff08433656c03af635905deb9d3ec0200c05c6d43cc8cfe0677433f0db4105be60056e76da39e539a538,
   0x2fc7079bbcf1a2e02011b1230b5c514ea3605dc138af9cd959f9203dfe6987bd63cb4dc059e4ae7bafc502b6a00e263eb87ff2a67f0002e7fa302104f46520356007d94637b21d5047b38bedd8f9157ba064b416b514b796a0e02a736931f7ffafe4e01cef6793bb3eff36a041740e3624cc5093401e49455ba9d72d64806589d889945e83c040056eb310fb4fb6c998,
   0x31d8b6adc1b980766012a65b9cc1286d29605ee4cf8d1e57c524003d49e93457766fac805817a76591d2671ac00c7d47a118b536750003c0407b9cd4b13b40348839548d1c34442049f41112bd1c7c69c0644b5eba772d278e002c6f465af54dd4d8a01b6362c23d08f3e9c03ef2d0d341bf26c0601e1a6f48ca7ba40ca065f8ef13afef9349e0056e99b40a5bbf1fb8,
   0x33ecba8c968a0454b0139d2cf6cacbd50ec05fe2046ff5fb0159803ca807939c8de5e580563c14b3da781df5800af2b1d7d4e0e056a004adbae6d3a60d516033a377fcdf6552dd304c17318de90752068063c1f0a4e630fbc9e02e59f5a903c26eaae019e223e7cc06a814003c7ac09ec7197305401e0b52ac7361535fa066544255ccaa48c5a0056e73dfb648ca5380,
   0x35f93eff4d76f114a014ad15e93862dd4e0060cd8efed88b1511a03bf85d2e4da88962e0545491946df3b37ce00981e7688936a1a00005b60625e8319b2d4032cbddcfe077eecf104e3008af2a8b72dc60632636a17aee4f3f60304dcb76fade103ee01878f72bd967e23a203a01aaf066e3a5d6801dfefffde8ca1c44406690227f6054fe7480056e6a52649eb2d260,
   0x333a10e6fecbc944901566477bc5db38da80614295db95b7ce51003a4ebb2f731513a9605655050d9d34724f400abc0b97388f69704005380a73c3825ed8e0358582db9d310b77e04d68593aa39e8625a064ab408b1a40acd6003044d6a1935b8ba3401aea489f3ae8467f203bb9cad13aebac1e001c07815a210be20d80655b875d42ee4025a0056e6eec3f18f0fb88,
   0x35441019693aa750d01680eed6bf67eb02c0622bbb101df186eda03996caf204a57404a054696f357b776355600951c5eadc86d160a00649721bcf195d780034b4945e7500ad1fa04f814f7180210d5e20640b87050bda6775a0323f637e272c43c960198942a5ccd55eeb60393e1d7cd34c139a801bf88a55aef839cba0658cbc545cb85aa420056e7be86fec9134b0]).map icosaRowOf⟩

/-- `s2/ahrens_beylkin/ahrens_beylkin_6192.hpp:13-6206`, `6209-12401`, `points` and `weights`. -/
def abGrid6192 : IcosaGrid := ⟨184709754439331600, ([
   0x334ab36de4ba456c100365f136928eb07aa048dff289da9bcb69a0551569e02e6b3d74a057bea62ccfaf58012018de12d75338678c4002de46fed90c4a388024eecdb59c5f6a02603426361a1675d38480567896c419a934674015886fdaedc9741b801965bd0f0cbacf55004c359586400abd53c0355a4701942311e79067bf92bc432868de40056e913a81186b3144,
   0x352763b9f333e2e78003f80bdc4d2b5feea04a8b1ec5e832f194e0545cee6f49b394a1405677f395857fe8b96016c349b1ab720f72e00312324f2a2f57e280243a35c40ccca8a800369b4b5b397a3389d056b6af9db2f5eede20176787674c83a7f0c017a9233ece6e177f0049e6e110472157906034c1e20c7f984f55e068b243876c07e63620056e8ae1a2d4017244,
   0x2d48b566d61df9af80030561a5fb5b3e1dc045a9486a0f2901fde055239973c2556927e05bccf95e94268e9aa01e5ac7c96c198ff90002503979d68da7eb80289c9156c9a32cb8602e6dd39ffe5f52338056fddfd90f6457de2011c3b8361fd809e9601f0feff590e7262b40524057fd5b6a880d803510ab749d9d4706d0649718300b9fc99f20056eb70e7a7135553c,
   0x2ef48f50c491f3ca6003642d09d48da140a047a205dfc2b450fe60545ec0989a86534f805adf69448b4b1e16801c09cdfb21926b9de00224c214ed440725e0280dcca099fa1dd08030f96380ae398941d057a2ffbd6b77821e601390fe46ea19b824401d4938f008dc043200501ad593fa2d0478003430f57ddc3709c54065cafcca975c02c740056eacfa546710d05c,
   0x30b5d9b1693f6655c003d6e8cc8a4e680b60497a9e4916f4278a6053a078c52e223fb2e059cc99cdf89393228019ce46b871fff73f2002201ec3478487bf20276db8ecbd035b2de0337bd3826eafc82580581d3c9f765c826b201564f35e989a0dc2e01b8510c1b4c9d78b604de3f1a2f05a1106a0336fcfdcc06e3ecc8066e54d607f37c5b6a0056e9d50cef4c5702c,
   0x329123be3725d6892004589143a597d9ad004b29c541ec150a4e2052f2df5d6f88e9190058907cf0974994c1e017abe380d39289278002444fe4ff365554a026b344867702ce6ee035ee58cc681eeada38586455ca46e3804f6017384b79256cbfa2c019c024df79f40bf9404b9d5d499a3ad3d2e032d8949f94e58bc27067e6daf195bf51e080056e8c77239d2a35e0,
   0x347af599617b7cb21004f3d0aebaee4599004cc7ce2f3d8333d560523d9ea2187e35f36057368915f786277fe01597fde339466ba900028a415d46269f028025f49016ec95ce9f80386231328b0f97f430588e698cb6d9f86840191c45debdcb32d7e018018d34ae0e13c62049438633b8fe6b1fe0324e8e149c4a84bde068cfa3239022c9c8c0056e8ed558d0105f30,
   0x36603dd42dbea5bda805b69ba70e709e57004e6ef510ba8023c8c0516269d637feba390055cf4c767db09dc860138b3539f6d8fe218002ea3b053722c8e3e025501e6fc6429c1f603ae75d574b76500f8058b5e9fb2d043ba7c01b2366682bc44caca0165795dbce26d51b4046d6c3e28594d6c44031aeaa2aa826f5b210699b95392ca03e01c0056e9f06f56617fff0,
   0x2788e35ebb9d7029200357d6d083403d066041de570aff26b331a054ff8b2d3b65ad09a05f1e6f66be698ea5a02465ae446b6423efa002b1968c78a6398d202c407c897bcb2bac002895e353a0380b8d8056b2cb662a9a4be7400e5a23e9b1ee4e4560250bee8875fe25e24057e9e165b89c8a62803528c9b8e14404749060a8188a74adc1c1e0056eb9527fed6c2068,
   0x291a565624ddb50b20037175bd52d6b7dc4043fb53043d1a98eac0545860e21af57305005e7404da96c2979a4021ef353e3cb0af8ea00233e0d1a37a7865802bafb0ea23baaf76802b1c31fd4a997df5a05797d174f00d7cece00ff96a281ab6715040232cca29ec0cef056055f11e1a5f14d8afc03433ee06a022d67940621dea3892316befc0056ebdbe9c34e1f24c,
   0x2ab6c433cf1ab1130003a83dbfa796f23f00460d666cfaefa7362053a2781b9961aa85a05daec4bfc2ff726f201f8514d6d53556fc8001d69b5debb0a6c9e02b2138d1a4b7c634c02da82db5271e918220586583fead4bd7f08011ae381d20c1ac79602156b738911ba3f84053e44326af635032a03344602c6ddabf69d0637a14dace72b1bbc0056ebc4e8b48ad49c0,
   0x2c5ebf89a387ea82c003fa658f719783f8a0480fa2515d0f3e212052e1e7915dc453ec405ccd96e055c74677601d2a74367d7d78ffe0019af90356bd75eca02a9232c201802a7000303594b55b800507e05918294930967c7d601374d1a6edee140dc01f89e0c29857870be051c544e0ec9ea31340325ef4820de685c90064bbc034f4f4f20d60056eb57d3222774cf0,
   0x2e190a2e0d2a9a7f200462c1d8bd902eb72049f8600e0134cb16605221c7b9f5e98c7f605bca9df65d29a0ab401ae2284d8434fe88c00183b507eabb5cc1e029f7962154db2f626032be603104a884141059a62a8dc03c46f82015464b682611895ee01dc1351e5709cef7604f943cf35f5841c6e0319073aace60b6b93065e45e1a313fb795c0056ea7d92db7fe4a50,
   0x2febaf443d336e0da004d9ba71889fef46604bb91b558d9200c22051715db02c0e2cdf205aa046073b2a06934018b2914fe89a2ffe200193cacd33cc1eafa0294436cafdeb55d9a035377e64e81fb328405a031c752bce41f44017171c74fb7f7f71c01bf880f43d6e0094e04d5490307aacb14e8030e9fa8d1af25ae56066f4af57f3c18c1aa0056e91857112d3c79c,
   0x31d207e78db9af9fd0055ef776979c4012204d52ae663e5dd895a050cf136d8cd8de22805952c1e9525c6d53c0169d36f7604ead53a001c91618394bd11fa0287befb2241a0d65e0379f31460623e597605a321e2a6393841e0018e5fad0b1cb082ea01a331855be9f1c46204b09ea8cece17c34003068a04f4d746a7da067ebf826055816b820056e86ed506572f388,
   0x33b47669eba0e08cc0060751bb171af3de004eedb5694281a4e100500e7110bae24727a057f74cd8fef3cb996014937e9aa4243441600218da319ee2d4fe2027c8d4e650301f77603a10f5d47a5d451ae05a596804c1d6c9f9601ad0c5ed1b85d9df201881f6241c5c53214048b06e16cb2000c9e02fd94a4337223c0e2068c65ccc37854c08a0056e98cd83e37c4db8,
   0x358a62fb278fb7352006db320f38e14a7940509709705a17d758c04f1f949fa338d5286056949e7eb1d61a0dc01291e879939ff774a00280d07286799e5820273a06e024d8c300603c957e53685b6741e05a851194966c3108201ce210351ab2d5b0e016ec4a164607a395c04646e1b4d304f91c802f2aae558512f041606980d46237720c8120056eac450651eae8c4,
   0x2246ca28db47dbd0c0045c6305f87c0a27403db9143c2c2a895240549f6b590da8396b6061953aed81049ab8802ab1d261149c7984a003f709ecc10bd1e8002fbbd445b3a206666022eac635f7e6f4d0c055a8c07f61b78aaaa00b7a547b2757bcc0e02b172b7a4c0cb1c3e05cf09222196f4616003591cda0a93f8811705c22b5e773f4244440056e960fe0e0d94024,
   0x2396b5aa5d75d06dc0043d5a64156515fc003ff4189ce06a28f3a05402d29308c6596c4061456fa3a2741e764028324f30a4b838c02003283a775291d884a02f4d0059f1fa95f8e025571b58e14a105c4056d8582e4f6dd858c00ce689666d1d5ff1a029476f1d678b7637805b3fde671805003b80347563ff420a5fea705dc121822351e0d940056eab89a8ee45b574,
   0x25070ce6d0de3478c00432e1989ec8e35fe042243dce3abcb3fe2053650b9df0647194c060cdc5c1f0c913a18025b1bc6517a66ef300027981e441fa2e3ec02ecaddacc9b3557ac027d13551ecc24bddc057e893bd69173b0da00e67f604b6d843c380276b1c197475228d80596e042e9b8adf2da0336ba142a9fa895e505f537fbe6542871980056eb7b405c9066b1c,
   0x268f4b2e61cbc8df0004409b024515a3c780444842e3fab3b901c052c12461fc0a74fe006032ed23d9c1aa0d4023367f782bd67cd32001ebcf7a84d7cb02802e3dbe7858f8add4c02a54eda7697d16f08058db9262c3f99a4de00ffe48b0b9ace40440258b4affec14541180578079ab6cdd51d0a032702734be2d51524060d39d9830df8c7920056ebd7837cf693b50,
   0x28255eb7c0fd3ae860046a1c2ea37546fec046603ab9187036b4605211108c56e73712005f7b464f426c2e602020c6ad978d019ee520017ee3891cfc766e602daf98d02002d55ee02cde663fe73a37f1e059b550ba039d06328011a954946f8e0ea96023b1e63d137a70fc20557d93bc35e3c876c0317cc2259fa1a392c0623b8197a978d0d3a0056ebe07e45e1e2bd0,
   0x29c78baa48a3e1ace004aee54b90ddbc81604869676e1a3dc6f00051560d4d9404e2e8805ea79f5d81bd3bf8c01e65350399b63a79e001332c6f0c2646a5802d20bafb4cbc5a00c02f6a61db9f294cc1c05a749c5b6f41c3d9401366ca2f60856f1c2021e0ede01e6db055c05367d242536e924dc03092f37c6f5934eb206389ab0de86409d880056eb961cdd94eb0d4,
   0x2b7a08e3ca04f24c60050afb806067fa88604a5cc71e0818e458c05098213f209a90a0205db46290a580d947e01c146ac0aa9684ea80010a403e8eeee86a002c899463400a33d04031f415c7b4f1b6f7705b12e964dd006a4fc015313daed1292b3c20201526027c0f988f80513ff42fe1863e07202fbbbcc9daf1db7c0064bf1eaf62d4d4f8e0056eadb2bc4d9b5e78,
   0x2d413da10e11cf49200577a8eafceda75f804c2e288da3a3c953204fe42f20722d159e605c9d9661f69fb19ee019d9e5768bc7b8c7000106261f383ff6e9602bdf759f2daeb8fe603471c5a68ef9625d005b8639f1b7c257efe016fe84ff1605203c801e4b6842507567b6804f098905196661dda02f0541a844f70c9e0065dc8e004ff23ef180056e96fcf2f7ef8cb4,
   0x2f1cbcee5e88b4d38005ee75e7ea312dc4004dd27bf5cc58680fe04f44d89aaacf9efd005b6363b6cb8308674017bccef517d2cf7b00012708d8ffe572ea402b1c0ff0efd5962b4036d8486aa4adb500905bc7d125db405bb18018c3bb21065f3973801c843c04021e8bdb604ccb8fc9ddcbfe17602e7a3e317fb99fabe066e18ae2b149689380056e7ffadef9a99130,
   0x30fcaec1c4f03ecd50067c0e8d6022a776a04f6255e028a2101dc04e9ead80f3fe8635405a13de6bd7039551e015b51af68a80ada2000165f949fd1d1cb2802a5a234b71479cc88039377f4e70172164a05bef9351022af31b801a92857c5fe08cd0401acb3039ed863866204a84eb5a53423276202dfaf9211ab7bc574067cb39b356c1f4cc60056e8cd552ce677054,
   0x32d178c1cf17b9c6000736f32fb30cd9a1a0510495530aa5b596c04dc737c96d7acea10058bc68df32dfe52e4013b218257612c5554001bce9d0f50cd2e86029bd9261200e1d49403bae03bbb00e4550805c1dcc220c716181001c8bb57639d3e6f880192c21843412cc0e80482af80246e4926ce02d593eb3e4e813d9406896036eb241e437c0056ea8423a5463edbc,
   0x34a06dfe3a71b634a0081c282f2476e700c052b0349585687217c04cc7094f01b0c8f6e0575768650046eef4e011b77d9bbceef7dcc0022f98b701afaf7da0293dc6e65edf35f5a03e3646a67034e622a05c49716f5a3b328ae01eaa039ec139800ec017a40d13dfb62f5fe045bdae92811de9e5c02c9ff105901b6f75c069417436c13a9c9540056eb721f8474f621c,
   0x366e13e49d90877ad80923bc42ed4ec102c05455064a59cb1267804bae0b60b1c7f8d2a055e02d801efc2853800fcdaabfedc944db4002c1155ed4ce832ea028ce2015466c49564040c30004998a647e005c659e64c64214906020e051fb68baf59620163051a406498128c043425f0eded96026002be0dd8dc9e4c2166069cd47fd45b46b3a20056ebc1fd9e21f096c,
   0x1eb755d36047daa880057d9c8e7d009603e039d765c7913152a610548c9e0f759769960062b2ef7b9685b4b0802ff6d45e28a0de8e2005b8365ad161be4d4031fac25c4da7aa8d501e58846807c4be9ea053f332d7c8b326c9600959d2749cb470cc402fbc3a91d43fb644c0607467b11d1dc040e036949b191e61bb13c8582e3a2940ea1c1500056d38ddecbc2f74d4,
   0x1f1aefeeffed6a21a0057b4762d30887f4a03bb9efb4bd5e967e8053bc0391245781266062f8a28313794e3aa02e3decf7db126990e004e3d59e7aeed123e0323e203820a3367d60200ffabbfa183e780055488022769c0c4d800a67fba5726ec7a2602ed55ebc332c2061a05f8fe1072602386d003540bee0cbb3ca7120594029981bd7761e40056e37480759f3dee8,
   0x200361b98726507620055c60bce0ec1757403df12d1945a54d3900530139052a983e3b4062fb520bc6b32635a02bf53f720434a688c003f70b5fe4961038e03221e91ae1c09e021022458f352678f41da056a8bbddc640e901200bb26ecb645cbef8802d5a94cf008aada7205e33fdbfe57d34c94033f39c32268bfaaad05abc9c70aa5eeb7440056e7ae7364dbf5a8c,
   0x2137105b53a2d82de0053b661b04ece14a80402a25e2b5c4a24da0525e7f166db74f84c062c2b63d9fe66cc6002984e8658745a7ef40031ef4f9decc20074031c852aadef4afbe3024a1846c367e2748c057e5644876b36169800d13512eceb22254e02ba15986ad666932805c9bbd196e5826616032cb559ce3034ffac05c52db4b5d9d504bc0056e9e701dc5b16c90,
   0x2293fd191cfeb4d4c0052a10537922a52b60425e5d37e8628be7c051be3c85f851790f60625f721aecfd8ff0a02708a0cd3f64cf91800262a5ef095b482ca03153b8c0a041962d7027131551aa1e38d9c05904bf22f5385d20600e8b39792bdf34146029d00b31af2c2c90405adbc48bfbe82764e031b6b17538bf1b37b05de6d0101ad5667dc0056eb091e655ef9434,
   0x240e8b6560c0db6520052dbebf25b5b5690044882b2a0a134cb0a0511b560b8c3103a12061d67b6024a9b200c0248c735861d32cdf6001c5b452f78e7c8cc030ce70718480c790d029918939357076a3405a065e4b8f07d7bb80101815cf3bc3293d6027f47dc48ffa65bba058fc88b3302351d94030b2cbd9f12f033b405f6db787d065b051c0056eb9193260e7aa1c,
   0x259a8c4c87b007c940054b0a320e78686ba046a50325cd27c50040506f960ec22f894c60612e9744030521e9402219f31b7ab2de0ea001495ab3258b4a15603043d7c84b9eea54e02c1624602bcc5a4ec05aecdda14f38f8a18011b8942b2cd46f15a0261ba29a639ffc64e0570662161b0633f9402fba319a21c24f012060decf86c978ae4ca0056ebb8e937a6a1c94,
   0x273410dc41d6119e4005828b3ccdb0bfe82048b2dccdbdaf6555004fba4e26fe9f105000606a07540b79cad3c01fb4ebb0cbe8aaf3a000ede181e0bcf441802fb6c8e3134bec42802e9d79769a20578f205bb8607c43dd236e20136af4a1d88db996802449956bb8dc769a4054fcd3dcb10a56b2202ecc61136d945b95c062376146f66fd72ba0056eb87adebe3606fc,
   0x28dce96780df10fa2005d1695343e5c012c04aacb0515427a7a1604f00df20aad70aeac05f87323c0a2a0640801d5fa5a9d54a33194000b40ebb17105dc3c02f22d1e1883127d9e031237da6a4a53cede05c64cdf7fb729a6600152af55ea559656520227d0042021f98758052e1609c841876dc202def356ea218745a606377c5c439201412c0056eae1fd323cb5808,
   0x2a977d0778f9b9ede006320d0fcd2cf65b004c88a883785e171ec04e4d77ac06c05014605e83e83523271504601b1f2796bacb91f900009d050279e6c7ee802e802b972a756b5f60339fb5b93cc9cd15205ceab86b1dd692928016efe3d82c663c000020b42fa40e11c1ec2050b7ec4206c36b91202d2d90fc020e8d750064a05681b93fc5ac80056e9842b9735cdb9c,
   0x2c63dfd6a66d4ea980069d554b4b4f780ee04e3af55a519a663f404dabca98bbbe0c7de05d6003149b8d541b6018fac1e90895326f2000a8edfeec891350402dc78eb220fe2c2a403606693b2e823c5c305d42bb49a2995ee76018ae19ab7844d808e01eef2935675b95a7204e879d97e1eabf1ee02c9340493dc9b2552065b0f6454779d2bd20056e7c6fd0207eaedc,
   0x2e3c123bb441ac38400716f3345c87198ec04fcc89cf5d7d0934e04d1287383c92065e805c214889ba3caf94c016ef5b113e233b10e000d47258180a777ec02d02721050e5292380385cf9e39269fca7b05d75efbc5f36fbc4201a6b3279afa8e23a401d31dbed829fdd20e04c50b266ebf76392202c14e205e7b64fb7a066a94759d430711a00056e80545e5e45c8c4,
   0x3012d992ca2533e5c007b69ade50f20a54e05165a0f850cdead9e04c564c4b14d62345405ad300fbe0f913a42014ea576241835cf4e0011a8b28b905e95e202c53d22c6c0c7df9003ac4a9a663563cfa605da42c1445f34c18201c4a627343f53438001b866717d96f7f72404a0595e74e5c151d602b83f99a2cad9823e0678623959fc56fa5c0056ea1ca67ec85e31c,
   0x31e303aeebf8ef91000885c6d30722402800531108141c741335604b686d09648a8528205977f9caaa6e9b63c012e880a884af5aff20017be1e1bad3d7fea02bc7f6efebb23b8bc03d468a661c139628c05dd5d8b1e0f3956fe01e57204811694b340019f26599d0fdc3288047a268748fba2487202ad242f695c3f968406843ab6fbb1ff85d80056eb65dde8d83d620,
   0x33b0aba6ccde33d790097a906779f5b9b78054bb00238226fe99404a5c10579a0dea5000580bb9dde11417b92010f4b3ab5f1ad4188001fb9839b59472d2602b508097952b2fea003fd1a0d89411dab2605dfbfdb725a2d8d3402080ceaf71dccfe5001873abd9237c1afda0452ee51f6f6502ccc02a14d47bfeaaf861e068e146cd56564762a0056ebbebb808de36dc,
   0x357ce6a00838fa22500a8e411d0a9a6d2b805657bd07edefa69a00493ce0343753171b80568d16f8b9492f7ec00f15de20b1d86dc7e0029a7b9a000fa587c02ae58e67fe04fb23a0425ad9315de59686205e0e9848978a78d92022bc6ef42820ac21c01709a3a3bc6333e50042b12c3477a766b9802957d71c7032045f80695ed38e5f641db580056eba9166d4c892a4,
   0x1a2ac59fac4ad0be2007e138817f1cb1fce0389f95fe9730f3541051d1d9e77b3e8aa86064ceed6246bedf9b6033f65ea91ea1df862006db0cef2589717c80367a5c35fffcf0b5b01bd2f8e65e28355120548038c086af2fbbc00944d93ff6dbc4f7a034fc8a3b78351f1c2063511b67bef70e09a0348d966714013b6d00543ba6384c90de2380056eaa11c90c2b10d8,
   0x1ab88a884718e8856007bdc9bdd6253ba5403b14ec06a1bfdb71f050dfa86aa1478003a065306cec82a1a5b46031a7646ec0509a846005af86a43b41c303a036b86cfc92e84067701e0c0d1655204d72a056416e124a325d92800a8ea8fd1722ff38e033b5a7885b34112a30622da7784aed76e48032e2471fb7d73ac4a055becac37d28bc38e0056e996bdf383795e8,
   0x1ce91ea6cb258f6360068de4a8c03ed1c3e03b768829beb0287ee05251eff5152701f480642104b781e49721402fe239ecc2179e2e80053617dbdeb454f12034791fb27c44c7aca01f15665a98d2c30a4055d60475c45eb3f4c00a76d657d785dc85a0313a06b9a3a21a650060e1ebbea941e7b6c0340981f9f8316c59205792ae710df88b0fa0056e90dd612641a5c8,
   0x1dbdeddd15491d2220067272d05c86c5fc803ddfbc87d2cbd99d6051754ccde01ad69c6064414d10d8339856c02d7c02fea64d95d780042d0ca63634e8ac80347df6336edbbdde10216aa712a4e1963c2057676c2d96052d06600bd6ff80432220c3402fc16928cc9f7327805f84c00635f74eb1a0328910783646278240591f3fa7ed080eb320056e8d0edf6d6b84cc,
   0x1ed7d9e921a87b1be0065381b240b00a02204033e8139429ad214050bb5dbd336576a3806424eb3ed0dd7dcba02b032d67a87297cb0003410cf2549f6d17803442a3434baee8911023d05d2489b334a6e058c655b88780cb92800d3f2b5822ea7a38c02e15a227948334b5a05df7ea2319b1cab380313d46725dd3e7ad805ab97c2301b083c4c0056e9f64f2ed5822a0,
   0x2022169673d83392e0063c84912ff08c28004273befdf9a4032ee0501417f4e95df7a0a063d730adfe97b445602885174a1dd5513040027494d3411aa9ee0033ddeb9168a9a0947026403e0c5b92b67bc059fa2f28bfee5cc3800eb28a2374e00ea3802c4d07080cab31e3a05c464c24a29945bba03017a237de241d17205c520d451d235acf80056eade2a6af095de4,
   0x218dd4e40b410940c00636da13520833cdc044a5f6c9eac69626a04f6ff8ab3dea4d23e063617bc55c3904a7e026069fe0c1049c85c001c74a97b60e0eea6033628c2ae862984e9028bb3501b6b2d2f9a05b0ce84485563a3980103777b3daf60511002a762f5c5cfebfe2805a751ef6d0d52d9b602f0869901a6cd647205de025c762d241c3e0056eb486217aa35530,
   0x230cc684d3b0831c200648dd754349cff48046c94c6c32f5dcf0004ec61138dfddc9f06062cbcdf049273e7f802391ea8330428608e0013a888506db2bcd4032dee1b7c6926ec2202b3b0c5d050ced66205c02ac014da8d5546011ce0b4373f26a43e028a03f736cb128a980588d2babef45f8b5002e0783d5948235b6005f5993f74cf506e060056eb66e02f360b074,
   0x249a2e81ae49b5e300067349236629a4c20048db5fce3ad386d2a04e15840394e301abe06218e35ef7538c89a0212b7b3cc7ba5052e000ce9ea4a652125ce0325662d4979e9088502dbbb34a3526fd22c05cdbb34adb97d84380137434c51b46fab62026d025bb8791e2b8005692a645e746df7ca02d1444e53f0158c04060bb1a2409d7e87e80056eb35152e050be68,
   0x2636398546547c140006b418a3fd48cc5d004ad906e553d3ff0f004d6195b49c0c4ad2a061489fda5d628661201ed52b751257a74c4000838df3078a2d302031c6eed094ccb2be20303a112ead794eb4405d95f80ef8efbb19201526cb2a957f8c3f202505b62608164679205487672fd0ac1a1c202c31f2045eb9cd5fc06204d2ec2a01a85b00056ea961920f4cecd8,
   0x27e1f1c8811c1bff60070716453edc4528404cbba09de44061b0004cb150f9b05a25b180605a3a6d98e7dc04a01c9285ffb5bcfb72400059915ed78d602760312b870511e580dec032b001298435da9eb05e2ce5411ac2c88e6016df684ef5ef21d76023400ae61d0bdeec80526ebe4ea40e3b4ae02b67ba4cc2c4e22400633727e9cebbe76180056e9627ff5566971c,
   0x299f49197d27bdea000766423549c2f2f0804e7af59efd85ca7f204c0e45d4f1b68c3d005f4c964da80b7534401a675d024505433520005083e7fbd7b4f8e0307d0ed52befc824c03515fbe4ccf4d296405e9ab6ed8f6edee0e01895afd9337ee0fea0217d1b4f92f0812cc0504ca2c80f0c2cb5a02abf16e276118b53c0645371c6295db6bc20056e7fa146e66f077c,
   0x2b70a56adc2376204007d1dd673504e37cc0501b8a52ad7a0c4b604b76bb3e2573ddfb405e1f07a94fa000a5a0184eea066f8179f0200067159d6c16750de02fbb1b62bec64422603770effaf3b81957a05ee1cd9805f6efefa01a4cd64253b1e2dfe01fb9b1d0386fe85f004e1d9e16c949a4e2402a357f1dae49fc7a80655c7be30d0f4a46a0056e8177e21710de14,
   0x2d4c72d7459de97a40085b4a9ed0afc2a98051b83e7a286393e8804acc3ae8adad342ac05cd8eab4d031e27bc0163d9884e6a7694d40009af1afb1341a96002efe6ba5db0305254039d730ac9dcb9bad005f1751ad25568d38801c1d667c13b91005201dfdf17406230fda204bd87082fb51eeb74029ab0bd86db0ed7f20664eafb51032281340056e9f663d45dfa998,
   0x2f22fb6d89428044a009120b5c4afdddee4053624e74efcb4426c049f4c066d5bb9c9a405b8488016e908501c014321c6b9adffd910000eb2a7a9347d169402e60c9aff3afc169603c539f55294a394fc05f4c45302d79622a601e17af41bd347590001c58fd4d5296088f60497cbb9ecd76cc27c0290525c625d6e56e406721452dffa840c100056eb58e3ff9754b58,
   0x30f243d86a06d5cd2009f2e1bf20d9f9ad2055106114b62820a76048f6faebf330596d805a223567b98a56920012340312b574224fe00159306c7e11e5c7802ddf4d791485aeb8803edcadb8062f51e3a05f7b161e3220e746c02033c7d36e5b64e8401acdb465583c34aee047109c53fd40dc8860284b5fce29b62485c067d19252e379d88e40056ebb5ffa1fdbb214,
   0x32be45bbf5478c69d00af3927401667e416056b276138eafff58e047e46c270c3001cc4058aee776063ee8f360104b18320b6acc9be001e5f70c1e95de31602d6cb03c41c6c734c041643d485730730e805f97ff1b50e98859e02262a371e7673d8a401958b399ee3b6b2540449aead3b2b38ce3e0278fd22163f5b7fbc06861188cd5015f9e80056eb7acadd0564b6c,
   0x34870438a9c863f3200c0fdecf11fbf90a205842bb540231b211e046c36d40edca37bf20572aee82188f7167a00e7abff3dee80691a00290f93cdaa9f7b6402d0503a364accbf86043e44a424d97a05b605f9f98dcc8eb75c960249deae316fd09c82017f9a586163a096c20421f9064ca1cb0620026d883a4220f64d04068d05ee72a1d484a60056eb0dab0d3f95140,
   0x3644f28685501530a00d4e197bc48686bce059c8bc79834eb2c6204588c59cb7a4344fe0559b91c617fa8db1600cc29a340673af5ac003593971d8aca334002cb3e19416a2746e4046611d2ea7aa18cc805f99d04ec5d819fda026ec2c3d961cb4738016b77a3df24d946a403f9f2a6ff3a5adad6026199f05a3849ddb20691bb8687514458f60056eae518378ef6504,
   0x1db0d45d75e7ff55c0076a1b4b860ad8ee20425d0fea47bda74c404e6a3ac1d81fe6792065333b1fe591a750c02a2d449da1d5b11f6002b2b2bc4fe997074036678cbda5bde131102552751aa18504fa005ac3440e39de2f8ae00ed9f8f8d1c89e53802ee4ad2cd7f6f306405db05b8f17caba18202e9428f09a419a5bc05a9180fe59feedc560056eb23892b495b654,
   0x1f0d626b4da52c3840075b78d948532fdaa0449b5b4f9a16c3d3a04dc2a199e2bc20464064d207359952e65d2027a9daaef71997ef8001f36bb3bec8df0f2035f7b6611bc7774d1827ccd39aee3bd578205bea1fef0cdd1a51a01058fd5593010469602d11e7d480a3ea41a05bec38a8fe2f58e0602d76587e2547f539805c28333bb6f44419e0056eb1df917286cec4,
   0x207de96e226de20920076292958f8d01762046c6f2d8f00c030b804d18f8d9042ce9bd40645005344ccf07bf2025324d28b034eb06200155401b432b943480357cce1c167d66eb502a48c48d50d89dfb005cf126727ef914776011e669466d58f740002b3f9fa2fc965847c05a12d6bb32e7f6d1a02c6aee8e9773e287805daa22042e5a4cc8c0056eb0d6f69a0bd970,
   0x21fd1897706b5fd200078119f715c91e1fe048e02009f2fd2aef204c6a188c439bec6c8063b0c002a9b0c064e022c98eeb3cb96bd44000d7c55bd3bfc08dc034fc104bf99b3d4c402cc460f68f3d2a2d205ddab586a4771459c013821bb800de4d03802972e3867ec2c966605827933d2ed84b46802b6e814ea70cd41e405f146ee870ba775ba0056eaeffa8d5152ea8,
   0x238c8c3703deab306007b4ad9fdf24ed7b204ae50192c7060ba0404bb95dc1e0c044cda062f38602afcad27fe0206f9ae468a30466c0007a7e89a5f3f85c20347269f4c9112097402f3e354ccf07a1aca05ea535ede51a3068e01529b66ea71b6275c027a9c9faa1d3f985c0562ae608888dac0aa02a842097fab5a983c0606895a6e1e7b06de0056ea9716a2e0939b4,
   0x252e311efb3a55248007faa223a59db173c04cd3176a8c9e568b604b0ac9af21b85d5b806217586f1faa74f6c01e24ad47345e8f0380003d1b0ccd75c5862033dc30e4ff6986919031b45efc235d07da705f4e7ea32202fa516016da68c994357d982025e2345e0c867af120541d5be82cc767f6c029af9bd09dbbed712061a8176be878156d80056e9ef5b2f16441d0,
   0x26e5eee577e793ffe0084edbb659378170804ea6416c841e6e8b204a64f436005467c5406119d62187d52bbae01be8e3b2c5d0a88460001f8cef5546f556403332e82a1b2e0c8f2034243659878645e6105fd28a7113e3a37bc0189004ae1386c5680024183279c9c133180051ff2071366851a78028f78239b63feedd2062d56bf4be94365060056e92548c172f6b08,
   0x28b7a2eab1a5a3f56008af8a4e6ea4f28ac0505e14d00808dbb2a049cabbe0b2913e8d805ff8a5b330cdc2fce019ba167597854c42e00021c3e7756b8889e032726653d99415aeb0368ec44c0e4be9c760602fa3a90870efc7c01a4a0f09b795c43c802247dcdc90beb7ca604fce1c3be7f863b900285ea84c69385a4d4063f30702f4bb7a4020056e8eb4e1832f34e4,
   0x2a9659546b9b7cfc2009286c9150b5ada4a05207acd717c22846c0492811f912bf6d37805ebc6f3b0bbb8018801797c621b0a9814f200042b21a16188f7cc031af121e96928d6f0038fbca775395d414d060733d933556e33b601c14954367fc17c380207d8098eb469f77004d8addb5606f91d26027d0588adde448240064f9f52264a2f57e40056e9cd2de236c30d8,
   0x2c6eee449c1e58c04009c88a0bc26a884a2053b228e0fdc341cc80486353ef5b5c31dac05d71d758074eb750801583ed99e440b3fde00081066ed9da0532a0310497b603da9efe603b7297e3296e769ab060ae812ad13cd1bb401dfd65a211bea6ff201ecb7136ccd1389c004b38b0d8d0455051e02732200f388e81b06065dfb3229340d3a740056eada10744988470,
   0x2e3e0e9dd9a8e995400a91bb7abdf52f87a0555ddb3b1fc93a86a04779d32686f83fd7405c1abbab7409e18ba0138085ecf0ce47ec6000dd0f30c93e92c6e03076ad786c207299e03df257abe51eb9f50060e2c87e8724ae7e60200520be23292d4d801d353236e584e633c048d94069ed6e5525802681809fba68cfa04066a1e4b3e0e2dbe480056eb3f0cd4d527488,
   0x3006901887207883000b7e03da00ef3b0f405701ef0cc7d2a4b4804675b28a050d902b205ab514f4e25ee272a011916f946be8f51b8001573ed23b86728be02ffd4f211d6f7d81e0407375e31b3c93bca061095d5c5e92726180222364313d7a7740601bb8349c3151bc1840466ffa6ff64121090025c8e3e331c284c6606741d7e9070194dfa0056eb05d58eac3bdf0,
   0x31cbb12c1c653f9b000c84b02f53c592b6a058938fc3998c740940456466ad7b4d314800593f440f4583d346e00fbb1e36d8af72f36001eef69399dafe4cc02f8e2a90d36ac7842042ec1e8943b4a5d420611a8da65c872e5c00244cbca96d88d256001a50d7d2929a075d404401f15104b314a6a025155c509e8f38dc8067c22cc34efb055140056ea63f1c3996beec,
   0x338ae1e673ce29ab300da4c282e2c9685ee05a12155d3da4f3c7604446465631f615794057bba6b779153c90600dff133e63efe8e84002a2f24c5b25c7e5c02f2a9f8c960004ef40455a333e341242ac00611767e479ddce2fe0267f3dfbd2ec1bad201900e374eb938961604191ea9fcea8c1028024667856059a87c28068229205a9bc6940a0056e9cdcd3c58057d8,
   0x353938afd8166e2a400ee94728c56ad4fd405b89b1b5108e8fbfc04308e92787839ae7c056314f88bfad4104200c5c4fd4adf711c9200372a9f4c2afae2a002ee4cd03bf3976016047c586d919660c7be0610bd484cb8e60a8e028c691fc0d5f9de9c017d2ed08b0b2389c603f1f6f8db12602188023a97b84848f011220685cd12ed2338aa780056e9c3cfa85bea4d4,
   0x22cd68e8fc09e07e400919a596955410c5a04d2b992037595c0900493a363259f38f5a00638fb42d9840ad48c01f662812e84c379700003ced561ba4eb6e603673901667b61db0a03124468395acf56570606dcc0d6d45c7eac01732bcc88d1fa777602842e05361fb5b67a0555f046a9285eaa20027deec132c3b8b3fe0603005a4cb6e49dc60056ea213b1e0ce4a08,
   0x248069f81a5a395dc00963f6bbe256959c204f0953b706d7525ee04895a5b219284e8c80629e3ef558ab15e9401d2121002ddc3a318000109c2af29b844b2035cc6c0375230ab65833973bc61adc45c9f060ffd21109656aea2018e4263433943830a026747b911d974b828053464e83011f55e660271ef7dfc55c936cc061692fbb5a21027200056e9a2503763ca3a0,
   0x264d5908e2a080fd6009b9defc2f6543c14050cbee353ae563456047fd480f9300cc54e06189a21507c991f3201ae8a9b3bb823b3aa000033ebe27e83f29a0350db76371503518203604cb07fb9bd40ba8616b5a4cb379254ea01a9963459cef026f00249f49f1c2ff3fd240511b34a359789c1100267e57aeace34b9de062936c9708078f9a40056e8d0f199e67ef04,
   0x28210ce3a2a1994d000a2453f47f6bd8caa0527790856dc8d62c004761ddf755aaaa5540605e2bea552de1508018c5bed36888ec16a0001414e13bc2c6cb60344cb6310ebb1894803869812b4fbf387f4061ba915246715a9c601c55dbb8e3acfe7e0022d5fde6ac31fc8f404ee7739ff2a4c54b4025ed556618c101b82063a3a4cefd94e08140056e8832297feafa34,
   0x29e9a5b45d066935400ab0728f307623af605419c39e93c3baea6046ac811e75639f8ba05f27f2a7ea7e0340a016ba6a6a2215d564c000416fe3b90551cae033a29b8955158653c03acb6ed542b199794061fd4cead27f9fdf601e2569d486ea6cb54021296d159986a749404caec4342eef2399e02554008ce033700a2064907b0f4348b8ef60056e8f8703beafeb04,
   0x2ba9467b1ba62718400b609155062e81868055b806474e8b6d2a6045d936f078b33166a05de5c338d213f9c84014c1e1d1e8107bfac0008b1da4069f4bdbe033108ae01263dbc3f03d30d095f148f9e6c0623634bc4de53b6660200d5a3d8f4c1906401f975582e79fb4b2a04a6c8ddba74fd1a58024ae3f92f03bcd3180655b738a01600017a0056e9698b010cbd320,
   0x2d63989d53943bc6e00c324d567f125a9ba057500c62084537d26044ec3569e69bdcc9205c9522f957860c56c012db6f598a2a059e0000f1779af42f3faac03291a6a210b9c7b5b03f98e28a55f2e121606262551273dd9d1480220bba4f3695d903c01e1c4515150d208ee0481fc16c5bd965f34024007fc0c37ffaa5806606781e2902762220056e96d7fc16b98350,
   0x2f1a6031d7d3aaefc00d207097310c0b096058db4b0cd2b317b44043ed84e760d3c279605b3539970d5553a8401109dfbe597bd923c0017417b5dc56a4a2c0321fe0807882bfc31041fd9f824296dc75a0627d1d19204c5a65e024199914e92b1ddda01cb6389fae3141110045cb91b64303d4810023528a5d5b1b7000c0669306466da83a2da0056e8f4956558224c0,
   0x30cea6bdbc260f75d00e2441cb664cbd54605a526845e3d40a934042e695055b3e32d04059c64755f68d2045e00f508ce84b2594c92002118c73c13c310d6031b4bf7396fb3e3680445785c406278da640628229634a503e0b00262e2b0bdf319ba0a01b63423ff0361f89804374ca224fc803bbc022aceaa77bdd2292e06703339d79339d6380056e8424ed4eb6d7f0,
   0x327aec34189a1aa2400f4237ce41e152cc205bba6c5b89c42ee9c041cf91e91d7f05e8c0584c120742248fd8a00daf85c45f548de68002c93b27f5b0cc590031588027be2740f71046a948b58897c5bda06276eb10d9ad377740284dddd5b9965cc9601a28826aab851459a0411c144a2f82618d8022076d2c55e0f4e4a067543496e16494d280056e7f0e57f6097b54,
   0x3411daf1062890fbb01088b3f60f187b2ae05d20f9a642290826c04091e9434eea93c5a056ce6944ae067769600c26defd4edc9e87e0039bd60a6ec986cba03121538cf74052e26048fbb6dd1385b646006268a31afc96b007402a870602eb13eef2601913bce8ef2b95f4603ec0d2a0a5f1b942e0214bedc1b88179a440677d193bcb34fd7300056e802700695d2a94,
   0x359cf353fcabb0394011e0110ec9b19d2ec05e6fbaf116929445803f4ed6785ae0f73ba0554a891caf691bd2400abc9b29bbfdcccb4004845635bca154714030f4d07db33c1901004b3a308e2dacd648e06247ce8b98f26482202cbe47790d554a3d6018185602c90e1402203c6e0ea1c53b16d36020988c7394dd7b77006788c7bbab94e9fa80056e689111cf739d8c,
   0x2a09764f8cf156f3c00cb2ec93cc3448bb2056e179cf8d2487504043b242702fd344a7e05ee8e6dc0b816031e01509b4138198f734600087a205bec616b660356609c211d707db903dba1bf792c1752c40638e32a6431191d7e021335227860bfe06a02134fea18f07262be04ab7dbbb88b17ef76022852405c00e81c780645df291f7192a7180056ea3000f51afafc4,
   0x2bca389508bf72ad400d873f80a516269480587d933dbdecb68ae042c31c3d3144187d405d93082f96b3015140131d8a526f7e54de4000f007f08ce23e4a6034e47e0275ea87227040297ee998a588d3c063b99a21d95e16ede02337d18084f0565be01fb4c1e287b23eaf0048634c0fa87ab693e021d6835935f889d980650ae5cd2952308ec0056e9dd1e242820674,
   0x2d872c230267a5f8800e7689b19391e212805a0955905b8887618041c52387b8330f3be05c2db5ca5563c636e01148d55ba41ed8138001753d10ed7544b200346e75ce231709d000429217854f2d59c98063d15b8aab15606d602548c8f3831f2c13801e4a21fc4a3b76faa0460961f87c88336180212ade4b7918ec2f006598af6a4ddcf82400056e940ab9b68f32c0,
   0x2f40c6245e895ca6600f7bae9dee23ced7c05b8011c408ba0dc0e040bef6a6aa9b03c7c05ab9aca247d0ab20400f8d90435b64d95fa002159a7d34c9e91ce033ff91927015d95bc044eec1fe92421d1dc063d306a197ada9fa00275fe29377a556ddc01cf3a46414bebd93e043adbf73ec798ebc202087cdd39225df88a066093ebced76700200056e8481882f10c594,
   0x30e91a77e91dde7fd0109491dbf9db3182005cdeef39073514b0e03faf69bd87a8c559e059425d3513517fa8400df457931e0f544f6002cc89f0ca0ef7252033a12563474e11c680473593cd7c178a734063c3eafe4a6eacbba02975af7c0b656d5ca01bbc5f7e4ddb8eac40415d975019defd2a401fe9505832e4f2fb2066588f48c8ff3b9160056e62be1b03d82590,
   0x3263d119920cef1bd011c7f3f2cae460f0805e2c65b64fa10b47c03e850844ddcaed202057dd55267697073aa00c8831e4a24371b0c0039383b5413c634dc0336f7f6b7b9cc7dd00495fb2a247e585130063b55a0b1d4b7f0c602b8a1fbdcafece95801abca2222beb6c46403f2a77dd26e5acdc601f39e82510060a2fe0667ba44d678d5867e0056e45c12d0798a298,
   0x33dc105e08a6720b5013112c3228c3cb84a05f6b485231628023e03d4f831a3fda80fe00566adf956f21d211000b2fd280916eaf16200472aed8bcdbbd1aa033464219d206fd95a04b838a15146aa3088063957a2ab786beb7802da82d7d285f9ec52019ce4fd9fd56bd80203cf2ed559a719074e01e8e4ff6ba1a6f29e0668501beab5e62a880056e6853a9a432ffc8,
   0x30a0c1c6caaefb446012fc66b731780c2c005f0977a21ea896d9a03c91927c90e883f3a058f4568354fd0db3200d1630f2a282931c800393225de42df6cf2035baf38cc0967923a049905540d0e6b519a064ea6a4fe46a519f202c66d0523cf7ec22201c7f754befcca879603fb8d84284333c4d601d463633bfa6e62ac065654070e9b27946a0056ea5b25e5bca8430,
   0x324198464be1a0a710147abac652acf863806076a31b3b6b6833a03b267cb656f2847d205754c9dbe2f7d1e9400b947d588f53691ec00492ab61fbefb047003599baf46fc629b0804bfe53961498aae3e064cb476a7666d4daa02ed384cf717c787aa01b7c8cbce610b13b403d379ba4594258d7c01c790e5dfd27959c2065675623cc7f4d9b20056ea6683a1f3b9a30,
   0x3505018e3b38db596014bcd65b785ba7ee6060d5daa4e5ea9f41203b9bff9d6b000260905514d9bebdb82b4bc009fa2e27e100717880057325379ee9120e00339be66c7035313e504dc17e202c28d66da063a22d533562932e203013362ebef5114f201943df4bba7305d2403abcd29e07f5ffb8a01d794d1bd4eea4ebc0663c10948b0c017aa0056d96a4b4dbbf7000,
   0x36a6b5f6b2297b56f0164a14072eae3ded406205ffe177399c07803a43a1052560475f00535a49383a882bb28008ae05f5eb3df7d980069d86702c045254c0336e9391a357c9c6d0500328773e53b52f00634ca11cb4346d0640326dbca3dd5f4e8350185a938cede7e37200384649338518450f901cd9572d39b465f1406613d738d6bb436680056eba74423fd87b78]).map icosaRowOf⟩

/-- `s2/ahrens_beylkin/ahrens_beylkin_6312.hpp:13-6326`, `6329-12641`, `points` and `weights`. -/
def abGrid6312 : IcosaGrid := ⟨151639785193716800, ([
   0x1b2fd386c795a6b740073d4d6ccfffdba24037b49cab1b9ad2c280531c9efd0be9618540640513ff47e1f9a92033ff49779c3c11ff90071c9853d0aedd39a0350c97be5203334f901b64bf7baa256ed5e05372400aedca280c80089b6b51266b0ffc20341ffe909b8d0ff30063187ad1916bd589403600ddb8e34ed7d5a8549b71fa61a595ce60056e4e73e48264de98,
   0x1cd0e3c7a0246ea2a00669e717179885d9a03945a58794281433505380026a49769f75e063994b05235794148031a8fc3cea848302c00629ee72ed0dcac7a033cd686e75117a3c401d3865bdf31602756054277d04c6f2ee5aa00939ca4cbb573e37a031e8f4e1150f3dc6a061b4d777c355583b2035ce47b772ed0c5450568fde4417c0146c80056e7ec0bc70242824,
   0x1e978eabec6b143d2005a1cb3e86da13f6203acd6f77b5c4feeb1053ea81a4cdb6ee096063069543cf3ce691202f4ad9c7dd39c4bc600550a548158a08d940327296d490385b71a01f1adba6355b221d6054bef49587f7088d2009e84b12057068d5c02f9bffbe4e89cfd940602ffe2d8d8e5a5c8035b27cb37cee911a085882276ebd9d4c7f40056e9284894f251710,
   0x207a74a50ff5b57b6004ea8fb8d5bec69f003c4228d4ee57a05fc054599b3c24fb7f8000624eb455fc4d9cd9c02cf33d4dade2872c20049744e84ec4173dc031037a610c2dc30390210139aef7c3286c005533ab1693c3a358800aa3a40f773d179d802d46881e34dd3814005e91c21324fd0fee6035af04a3de112ca2005a65fa634d747fdfc0056e8b92dc81b419d8,
   0x2271a249f4b8bd4e800446dcb0ed1b6444803d9b1aad3f6323ef4054cd0f6af26eebcec06174116e51b87dffa02aadff913dd910af600401da17050fcb14602f85247178f542442022e14b7339484a51c05581bb2e1f0a1202200b672b167e944f03a02af3022b25e4a9df805ce1ef27fea7e59b0035c62084814f13d3985c32606a6bf36fbe00056e68c9421185bfa8,
   0x246bed1a8fa444f18003bf83375ab554bb803eebec512cf8b36fe0552e9a8e5a96219ec060863a013522228a20287688dffc2d3040e0038865333dfa1481e02e0ff38ac9f8d5bf0024c51b96de1d4de6c055bee70ec5ca6acda00c3e87d6a51427f1c028ada6e418e8707a805b23ed5a8411bbbf0035dc9b31776596e3b05de4bd31c1b0350ea0056e50d3ec06165c94,
   0x26571e7028dee0f8e0035f1aadb0556f696040535460b47d20d2605560aef20c1cc009205f981c372a669a71e02640616adf02f2c9c0031e7ba401217769202cc16d3714dd69db4026bfada2b74833a6405609dd2e49ba0c3d600d3c0656efbff83b80268100748e36eaca005957af74a3c01b60a035cd3a7b37754c60705f7e39a4fabb40db80056e5840d52e95440c,
   0x2844c32f5c51b8bb60031d51a8705ecc9f0041c4e83daad51720805575a9031b4334f0a05e9bd7b3108f3a8a20240a3c46ffdfb283c002c9045d1b07dd3a202b835fadbb0f67292028cd2a73e12207a02056525d92f56a733a400e5822ecfffe55e140245e89925536a36f4057770197aab67549a035ad6269410e511f286104c7930039ac1120056e71093912ba9c38,
   0x2a49ca019cb9d3050002f29d86cb72cda6c043338ad0915d7c0e005580a92165e5f339a05d80351fb01966980021d1e97893ae4974a0028eebebfba534e4a02a3d08f8b5ad943ec02aeb18d4883a0c16405685a98f2133c386600f8cad0ec72410f2a022359b13637be0b0205578c73a5de7b4900035947adada5e682740627e6a443164cf47a0056e8fb0f7670198a8,
   0x2c67f614d18648aca002dff654d6f720a2a0449bbb6dcc84e3a4e0558332622158e49d005c42365de0dec6dd001f99a97b2bfdc91880027346bf2371e7346028ec6304f1f7477fa02d17d19650bffa62e0569fbd795417ce3ae010d9387f2a182ad94020065910df83010020535c2c69ce6a805d803585ee2c46a4edfba063e9242227ff26bb40056ea737aec4370968,
   0x2e96e943bae6898da002e8173c6218f06a0045fa4194739d5ce960557a156d993d6e93205ae64417d67ece88201d691e78a2dead8a60027750c3fd874701e0279891a672b91d6b802f4d62aab0ee1c010056a1554cf3d6aa6ea0123bc8aaab4603eb401dd9e4f1077056f280512797626b36068880357f5046cfd70db3b0653e8d5446fc2b7c80056eaefe9fcab06a90,
   0x30cca83b3335eafc10030a2eafac5031c8a04745408d494a53a8c05567d48437ecaaad405971ce3371c47b94601b4cffe2d0b62b4cc0029c392a4dca33a8002646333558360d5d00317e931cea730cf6d05687b4eb4dafc8a5c013abb009d135e5ca201bbaf5682f3c27e6c04ee6906648ca97a4c03583decc0ea17e2c5066774b63bb585ccf60056e9b40883a6b0884,
   0x32fa2b345a5614fcc0033dc97c8f311f4040486392b6d3cc871fa0555b337f61b4908b6057ed71de23d83e51c0195e8d4d605736628002e317ab9a0dfbaa4024f571aced2abd9200338cea6b9a6cf380505648a48796ee953d001510e0b4a7fbe1434019b93f1e557a5d05c04cb13f4f8c27dab84035a30a7685c7c1a3806788fc886fa277ab00056e4c0d9fbf4c6694,
   0x34ec180a8b07cf4a100384ed32e72282cec0496178f200c740f000553c90d58535749f205685811d4fc19f660017ae29f05b4f1a51a00337902d1f617ddb6023d4a4a271058234c03569453da9564c911056071b0e6b44f63d4016633f715a4a1d44c017fb86f623101f45004aac637101cc3c764035b89c7aa79022a96068684019c01e140880056de0e95c5fafb72c,
   0x1c3ef0182937090b0006f07f5e85570563e03bb1c408ae1443d4c051aff56f19528083c0648bb35739b23f57003025ddccf390b0eee00533a8e5f73d0cb9c035466907f92aa445b01f0eb354b69eb769e0563c8f2434d4278cc00aafa340df72b08e8031e2b44581aaa8aea06127fe94c232443520336606713876f08fb0572befca0188245880056e9352c594165608,
   0x1e1304838d38915d60062dff772ef8c75ca03d3ad352cf4bcab12052196d4db0674d628063ebba5f0c4d37b6402dc1bb185b0615f58004626bc67a8e68636033e3f028756760727020faa0f291c41daec056cc9d6d695d38ad200b67756b83fb9314802f8d4ec90f7074eec05f9518ffa6564d9220334e2d3ec15313d5b0591e76f2b9d47813a0056e91725317ee89c8,
   0x1ffc9aea27e2cb9d40057b534842f9ebcbe03e99ce3ed1f91724a05291c6e35086c465c063257043b86f09e5202b79c67a5d6c21a0c003b9ac304619907f60326af9de358a56c27022d42893a6c89ead00572afba4cc4cf13b600c1db0c1523407a4002d3b6d925a4c7ced405df5e3f7dd3132a800335e3c0446f8cd3e605af5cb745ca13b8a60056e702861d352d550,
   0x21f1b1bd6d752d25c004db4c43a5489abe803fd0b831b8961009205312a143acf6e76ba0624023e81e950f73c029523eb40c57f1334003379889924140b02030e5a67dfdff0a80602498c9578545ad52c0575d6c97d7cec1a7000cd2870d84f8b0b9402af5f26e1f5f4b41a05c506fd83ff54efc80338eb213ae0e2048305cad8fc79fae5774c0056e4f082e849a50b0,
   0x23e2228c038a51f580045fd110d0f64d71c041216b8e815a3ba1e05367962e5e9a0e6c8061544c554b7908ef0027237863a349cd9b6002c4c175e1e73d97402f7e53b85690b660c0267b3edc60a8f29700579bc219aac7c06f200db063569d62d7b28028be87fe9258defc805a94809b8741318ac0339cad5d68bfff85905e53380f1a15a887c0056e61e9df3d2926e8,
   0x25d3b1e76d23b7f3e0040c262344a327f600429f08a160c2d97fc0538639122aa408c700606185c9e2a1febba024dc1a8a8367fd8d20025c03cc038f352bc02e37e23f6166883840288ee715627be55b0057f1909761102a7f000ec542bf9e736d24e0268c3ce1c47bf0576058b5e06c45b7686160337a947fd0867298e05fef7805c5884246c0056e7dc8f459b4415c,
   0x27d7594c9b2b938e4003d4e34329b52c5dc04425fcd3f509852da0538ecc903521dca6a05f54cab7d62bb88520228ce966ddffe74140020b2d29fdb3a6ae402cf3e44d3a0244e2e02abbf0f9127894e200583d1a55d8706530800ffb60502cde8a554024569f800a016e776056b785eaa62ae219a0335132014e919e8530617effb6644cc04da0056e956fc2063e7678,
   0x29f0b0d66843076fa003b5db62dbdf6f060045a2da1f1a8c42a9e0538f84e1e7f8cf0f605e2748356b84174920204286a2f10c220ea001d9b0058045113ea02ba759ea8184e4c8802cf326271cfc92a140586e258ff84cb681c01146c076d4f2b3e880221eb2004ca67e4f60549ea04b36a5b0d0003333545d1125151c8062fc95533ca6733fe0056ea6cf66f2696908,
   0x2c1916fe104caad5a003b005104eaad7fca0470fa2aed62104b10053888ce93de22aae005cdc0654f3981a39001e0568173ca4f395c001c9462f838f3d67802a5641b77c645235a02f2ca9280bf92727205882ddf404aa4194a012a31f3093d1a218801fec26f807c08e2ae05271eb957ef4562e4033223783ca32238770646265ea4e248f5f00056eabf9533a3b1540,
   0x2e46e11481f09bb36003c2d5a90945ab53e04865262aad1eeb78e0537af042b0ce2295405b78e3c4a7190e05001be0092312fb5e6c4001da1af3b74bf91ae02905efbfea8017d240315da8ee3bd8abdb20587a72d1bcafe5e060140977709e8c430d201dc8c3d864f5122be0503bb7dd218e06d800331f01d40bf6904d7065aa4cbf980e6c8780056e9a52bc5eb48644,
   0x306c72c613cb8e7a6003e76cc2183cd42a604990383bb3c72716e05371a09796d7ea70205a0666d888118ff96019e69adea47ebbdae0020bff90ffd9e7438027b809ecda6fc423c0336db461fde24b4780584e4f64995194242015666e1eedc26e5a601bc2080fbce1abcf004e1064fb6a83761e0033348811dbc7e332e066cc0f2584c0700060056e5f4b26b12b947c,
   0x327bce1a0700b977400412d3fde23a6213804a7ccf95b1c265f040537b2e0feeb1d57580588f2b9558c8ce01c0182ceebfc0bf9bf820025bc763d972b3b940266c35e57524919be03542339f9962c0fb7057f8a02f89db8b7b0016a2cd4bc55679a98019e3fb59c9874a52604c06f109ad2b86b840336f6428337c987bd067c233f7da9599df20056e24c4ccd5861bdc,
   0x34842c90b6bee6ba00045e294995339dbe604b76176d80fef7b1e05362658abb9cf94f4057118c59bf0460416016765ae65ba4e9f70002bce32236f7399ac02539ebf58e595c792037275670dc1d98480057a6d5923f380d7a4017fd30e1f217914ca01817a10db9e14e1aa049ef4171ea8c51e2e033929fcda07fee720068a2b34a76bd510120056e36a0a112bdeba8,
   0x1d829c4c162210aac006dd1570f366f05e603f89095fd9b8fceb8050380cbb143ea2858064bf65edb082f513602c628c4cfb342a7280039c56aec2fa1507e03566b1b0de0b4598d022c6053f11bc37b18058bc34704045a4e2c00cef9660d6d471f3602fa34b0f2ba105c9005efbff4bfe18b56aa030f260baca44794760598b4c6d2818ff7100056e8276404137d384,
   0x1f7186826a954a3f00062a0e87dabe64596040cb35bddf9025eb2050c0bc6ef0da37e94063ec12f9dc2bdb2c202a2f1fe1b14dd9edc003035a6a0da39d1ea033e057d3f10b9f3760248acc9ae25906ee405900b6a535b8bd59e00d98c67a27552183202d55d3ff7e68a128805d618f256988db4880311c83954e1ae2db905b56287f0a8bbdd460056e5dd700ffe07f38,
   0x216c554540454995a0058cb07c3289e5eaa041fdb6e33d5b70edc0514368ac864ef90aa062ff74f6b81a966f4028091fcab4a3919ec002876676c1179d1e0032565bc524c5dc32d0264f8a8ca5370e10a0592be7f95cb304cba00e4f53ac38946e0bc02b0e69d02615da6b605bb78301b96a9480c03152946660ecdc6f605d0b55e1fdcbc871c0056e68f81b9ecb9c7c,
   0x2364a4f95597841580051d6f72939e30ac604369d2c8709f9713c05183339babdc64f240620f9a73bf61bad38025c404cede245464a002132e1c7837d84dc030f740388d214c1c20284fe348ac34cfd1205978b3411de00785e00f47373722f8cf618028ce4624f98aacc34059e6a0602bcb1a9040314a8b5e6f4155cb005eb73cb6569d5a7f60056e8744077e63ac94,
   0x256526aa21ceefc90004d578776cc9d3a68044f966b0744a484cc0519401b6383003b82061106f7b929f49eba0236a430ed58565196001af8b3493e8b90cc02fb01e45398a7f18c02a7d2b016b055b0e2059d1f3505a478b1da010732837425461598026903051ae668139c057f08188077b4c0ca0311dc5567ca83445b060579eb8e69bad8b80056e998287b40f3b1c,
   0x2776eb65466baf99c004a9f6015d37f2e2e04688c55e2dbb3eb58051933ab00329d941c05ff502b9ed39dc5d602110d5e3e175292ec001685dc5ba2695fa202e692f0d84932f40402cbbb439c9eb7f20205a199bc029bb07378011bb5976220334afa024526e1f8486879e2055de41cbed2d3334a030f100d9425ed079a061e636606b067670a0056ea5448ca2ebdd54,
   0x29971099cbcc80a9a0049790512bf6f2a540480777d6cc5af5a360518aea1c0a0a2558e05ebc3f1191a9932c801ec578234365a00f00014248c239204241202d1e05b4f7c1e5d1c02efbb33b11556bbaa05a44d44c4269bf47601313f6eb3f9c97e480221abfb2363c4eec8053b8f90ed023fdcde030d1270c8055b58b40635c984510867975a0056ea8c15629ba9200,
   0x2bbe05c67c0d599680049cdfd2a7d4698fa0496d296a2116c19400517e06d07c234967405d6a63ed72e44fb4e01c9240516f37a229c0013dfd30acc87572402bd17a1254da194480313233456b350114f05a5116f16656e43fc014755ced08009706401ff122f36a43964720518a0cce884dccb78030c19c2ed6b6f944e064b5668cd75b6afb40056e9cf592392c4648,
   0x2de3aa6b8818361ec004b546437362fa9c404aae4d16d84d741080517390dce8c2d6abe05c04c1d3b6f8eb5d201a83299c2fb357a4e0015b02311eedc7f6a02a843e69647d45f96033505e7de4b07e94705a3a890199d053c30015d3859a315c9d8dc01ddd6dae84288a4a804f5df118d6a42fae4030c9159b694657152065ec1445fb31ac4300056e7b590f6887e4b0,
   0x3008568f3d91b5b84004d774233f5525c8004bbc3062bf6e13c680517a84fce5d361ad805a8b2ea282ef1ca9c018a10b5dfe20526200019943e92357b2c2c0292cd917fc65a271c035479c7451aab6ef7059f7fb1c15e9d65f20171faa9e1ce72502a01bdf3b981a1dc6ede04d3d9122a0a742ac8030f683c8b1c59e2c906700ebb1df62d57400056e5c846d53ff5018,
   0x3239f80c859eecf97005087122c995748ce04cabafbb948ba70f205188b11f0fd32a46c058f653f3999f02b6e016d59c1516058ae22001f6b3ce34e6277c8027c8fb689d55d743c0373152809713dc40205991c8e7b5f76899a0186c99dc03932d050019e75969aab4d7f2804b14b1f4a6fe04ec40313e6f39b469b0b95067fe972cde803155e0056e715808d2a9bba0,
   0x3486671727c10bbb800561f71416c2e196a04db337a43ad67c74805172562f8e5eeaf520573ef2ee12c36ca28014f5db2588bafe0580027132e146464ffba0266b205463a7afbfc0394867816a0564a71059251acca11fd7296019eea0d7bb3e2c702017e69f58593791272048ba71f208534e09e03173c943839a47147068efc4260356c769a0056e8f8b5262910530,
   0x1efe35ab5649ae360006e9cad0d1ca81876042f742df6219ea88a04eebf567e7c556ad20649553fed67d4467e028e22d505ac70c2ba00264cf6da2ae49bc0035495521e269255300264e3eeddff3455be05ac0fa0da08b259e600f26489f3ee992be002d6728b389e343f7005cb327907df763f6402ee5c06b3c3508da205bad6e9984009faf20056e5e914a4a65d5e0,
   0x20f6d7d57de8ed29400659ec95a3a7678cc0443dd284714a3045004f59029634e400aaa063a9eb04f40469a8c026b13587e774d2384001e9140b14302bc48033ce0decd1cd304b2028264c60a5cbd2db805af94fabec3e2225200ff11ce1bf9bbd90202b220e1276ec0e00805afdeb2a99234673c02f0655229dfbba4dc05d610b6ce04f90efa0056e82ae341fcc6350,
   0x22f3853766d6e22f6005f92830fdfe10988045bc4daf0b6d519c404f853ee92a39ad22c062b4f75adb89f39ac0245f88b72d31dade600178bdcb110cc900c0327855de13a964cf802a3c2b030d3f11edc05b4e4f1abd9322f24010ff41cc569b7c23a028dff31d1a23227620591c9499e203b057002eed23e21f7671c8405f0bc2ea6fc85ebf00056e9b5f4a8a1b9520,
   0x24fdba18c524a1908005bc7f04a243df8b0047504fe3ffbfaea1c04f8db0128775e9498061a9ab0e9a39c4c7802200d5f01a5fe231c0011f0839817fd47f8031306065769f0563f02c75603b8f0207f2a05ba2cd0072175dc46012398e6fbb60e01400269e4cbb3b23eec3e0571797645ebeaf38e02ebe238afc0138174060a83648c156f7eb40056ea535f08f51c8f8,
   0x2715ca30470bef5e00059cbbf6842ac5546048dee6b0c8a64730004f85bde1fc1954c06060830936a2bbea31801fa88622708583a52000e3b1b61f38c36b002fe9fb7f61080f85e02eba0ec4800b042a805be30cb69a0a6cfce0138cceb922006a9b0024619062d57787152054fa9e1a172b61c0c02e9185198cdf8b3380622edae4fee0fbf060056ea76e739a950884,
   0x29374e20a9404e02600595a5e45f42c4d2604a5886994ad2f1d6c04f773c5d8108e60ca05f41f0b82ce34b1fe01d64125ea1f58a280000c9b8f730022759a02ea1cceec6476ff24030fa215fff5cd427605c05fc8a0666095c4014ec75e2b4f67ab700222fff4bd136261a2052d0231537d20147c02e72f66e6fc21a29206399f94905fd396a00056ea14cadef4005fc,
   0x2b5e93c45e6df5b10005a2cf392d17a525404bb2ece3adaefe30004f69bd983b345801005de86a1ca7e042c7a01b3c427c86ee8db7c000d185e33256960c802d556fa80f19466640332a139e94b7e980d05c0686c86c3f5c9740164ea9191a26f2b5e0200d8bd281af9e572050a086471a769931e02e6a49d38f94ac092064e6e0ce2304b4aa60056e916fe805c31d08,
   0x2d8fd7f58281fcf1a005bd13b6744c6b43404ce44775bf810461204f6940f0b8ee79c7a05c7390f2eb9565aa201934b50d4864757ee000fb89af7d8a2009802bfadafb9a032f66c03541dd045986a5f4f05bdcd00686b56f162017aa0777772c82e4001df63f143f26c0b8a04e6ef50b90b8f575602e83c49eeed9f771e06617beb8b290de28c0056e83316ea5f2bc3c,
   0x2fd42831f503455aa005e2a56b31f1e1b3804dee9aaf2c468e0aa04f79061404c69685e05add98e110dcc58ec01746b2d13a58ad4c00014818993efff83f202a8a749e7cf0074240374717521f8ab15a305b868206223febd2c01900e99aa567e649c01be13fa32d4a9847004c3463e5c1375693802ec2da8d9b573427806731d7156b2e849080056e8dcc1d5e395c44,
   0x322a70b75fa68640e00621e61a4f9741e8804eed42dbccdc995da04f7f6709d221fc7b405928a48ffaf0d2c660156114cb5a0a8fd3a001b4d1df37542651e02914c0fc84a974aee03953ccf90d2c3841905b15d78697eacc0e601a6c4b0d3e521faf8019ce2906724dab6a4049e20c99e8950981c02f0c6d6c1858ed8a206836e037d91ff45240056ea5e4988a39e894,
   0x348a571565af76b980068ba028451bb503a04ffa91a35b1416d9804f5f10b4eb5f74b3a0575b32e2c6079d0ae01377ed99ebf16ac080023f8d56222a2f85c027b1095d4544b20e803b7e4be8575979fc905a9f1859fffaff22401c04554bb75fa65f4017c4006c0ee2f1c500476e29f18fa5dcc1602f41d4dad4349c95e06923d8aa8094eb8d20056eafb5418a9d746c,
   0x2087246e27c53a03000747375ac09f21210046851eb6c23e119a804d52deda80204395a06441e3842b6012c7a0255a7d344d14fce4400162e2a608e676eb803553513126209436c02a0fac45ccadf550a05cbfbb66dcc1a918c011b237af0545e886002b3ed1e904cda719c05a2d643c0a0d2472202cad41d620f5e4b2605da233e37c7fb53020056e9c02ab9c4454d0,
   0x228e910a5c7349004006f1da1eebf0b4e4c0480e4e6bd7e186ff004d73d96f020f2378806341d95b1ad7245ce022fe4db3660bf346a000f9bdf42a1c7678a033fde9cc40e938a5602c3719bc27ac8ad4c05d147e4b8f1ca3b92012d242b23c1f5efe4028f669de27e0302c20583a596d01ce1b47602c8d40fbfaa55e2b805f4c5e2d14120a7780056eaa79dcaf530664,
   0x24a31c94f7c1b4e1a006bfa0a9497d33bd6049a290a8d83664b5204d76eafb1c658f238062290bcb4bf34cbfc0209d7565216995420000ab8bb1cde919000032b2e2c6cf91e251e02e78e7b19838a0dd205d60cb0f387095dc60141852ace040df3bc026b18a5c9cfdafff605627b361195f1c42002c5ffe912567b4048060e3b1f62ebd525200056eac77006136f990,
   0x26c2f09f09d4c4606006aac2cfe5eb950b404b2e0dbfa6063c82804d6a1b70f524556ce060f5b9cb4735373d601e4723a7d1179d67a0007cf8dc81f3886180316ab2ed67422bfa8030c253fd2767e208605d9748c276af7e380015753cee621b266aa02474ed9b350fa88ac053fff4791502b37f802c36664fa84b83dea062625f82d54bf1ef60056ea8e7acdf24c5bc,
   0x28ed179f32c3d30be006ad1e482626f96d004ca22623e265b512804d59651b3443ae90405fa736531a766304401c05c299192d2ce020007012f5feb9d89d80301e8aed7abebaeaa033052a02dcbde260905dae82d105aae0140016dc6f6c1b40ec29602242cdeb409a4dafa051cb7950e051f442a02c1db74a1be490d26063c5c19150cac3a2c0056ea1a36c2e88d774,
   0x2b25a98e2699b2fe6006bf85a77dd31238804df3df21464c00fe404d5157ab867abf77805e3a63b6396fa061c019ddf059f89496e4600085ccaf7666fc45c02ec41faff16415a78035385c0bcb207251d05d9dc321326d961d401843e222f6d45ecaa02017a9520000ae5dc04f8ded58480c3a9ea02c2317302157e0d3a0650f6d1f06e82075c0056e9afad6eb0f0124,
   0x2d70e849f06377d48006de0f7aa72f85db404f1ec160b1e3acc1804d58a9c7cef2679a205cac63a5e11a704aa017cff37fa9b43a9cc000be884d5d65a275402d54a972c26b57ac80375938948f2b57f2205d60813fb7842d8ec019a78000496aadb0201def7aacf37e2110004d4734e0122d39ae202c4d79632716c07ea06641a17abaf775e240056e9ea48a08aecc54,
   0x2fc9bc3db509045c20070f7786299cee6a40502de73ac6aed247804d62c8e0e0008bc7405b016533bb73bd7bc015d770ff626eb335c00118985de3d3e807802bdb130c1f320a5f6039704400c9639bb1b05d002fcc3a2426e7801b10b5eae4a41a4f001bce5027a837b998804af4a24f44796b2e402c8f41eab18409bbe0675ae66de0d0bc8820056eaceb04713515c0,
   0x32288920c6f71f1180075e64ff57221e468051320397191a9294004d5c6319ccf0793ea0593f65fba3d479726013edff45fb3efe9b800191e7bb54d9239a602a68014d3517f7b8e03b8a7d6587236f00605c8ad4a28f65c204e01c8e21a4a815162e6019ba7c89fd87f7c1004891e1386c44797a802cd3d56905b2505f4068589d03202c6bd2a0056eb46898c9df260c,
   0x3488b48ab10052eb0007d4543115d1e5040052393fbe08144247804d354b20d05ce741205769c1786ec8ae9200120d64ff952bae21a00229a22341d8d10be029084bfbbebbf51ca03db3fadb181a36a5205c0b437f0b6fdea5401e2d1833840e73536017b8170d6924c219c046198c8a19317d15c02d0a835d5ec4bc94006938c13112928b0f40056eadd609cd09ba7c,
   0x224a97591d1b9981e00803daafda2c3dd1e04a68b6ef8e68a989404b53f79c93f6e43b4063a9fedc890c0dd080218d9aa100844d17400095346c853ad6754035780fde9d59ad01f02e512488682f4750e05ec92b0f33fbf966e014c821ae4dc4dffe8028fc40e45575b473e0572e2fe2412816a2002a2f3c7e7acaf231005f86e4de5c80edc480056eb1ba540440ef60,
   0x24692b30e3c0372ac007dc4ca7d590c32d804bf92de32d7c7850a04b5366addfe731f540628291a45bfedb4fa01f2e1c0480843e8ba00054a33a87339e6c803429149e6bb10003c0309830e9a2d34937805f0a15d3ed5768c3001618076feed175368026b5c571cee164d340550f4277bf2f41a5c02a06c3f506cb8df3406116cae347850a45e0056eaf89b75983f12c,
   0x2694654754ef5dd08007d175423a55e42c604d7ee1d77c491018004b44e52142fe3ed5a0613f39f825926d77401cd9de982f18be9100003496fe2ac30ad68032dae58c9a09b1f1c032e5bb0bcff206f9905f331929cd93c217e0177daf27e12d7aee802476bcdc3eab996d8052db1147ca3453ba8029e473e94adbf79a40628dfd4af968aeeda0056eaaacab004054f4,
   0x28cf60b74568ca86a007db41ab746f9406c04eeb30b851e6b3b0404b3741cd4590d1b3e05fdcf866baf71cc4801a98acc396f0bf4a000036ce5bec9df6a460318270646988114070352cfb28ed48b08e505f394f8e7542562f6018ec356678a608ce00223d20131ec25e33005097a81570316a2c4029d82f3c1dfeb8e6e063eca8d7d198e6eac0056ea6d414cddfcf84,
   0x2b1b575858de22f4c007f423a6459ea94bc05034c6563d223b57804b340662cc0d8eca805e5ab429f5dab36340186fbe3105b0763a40005bd5c9731f02a16030190e22759abcaf0037654a98ad5e3477f05f16477ff30d46d1001a5ad271ea629df8e020080c0dd8301ce4a04e49b21558701398e029ebd66d715e8ea3e06533030b43512ba8a0056ea81574e46de70c,
   0x2d71c9c3ce9950a5c0081e0845432352f1a0515d476dd1684ffae04b36cf9728de584b805cbd3a74a437d65ac01661968ff2fc9dc78000a267caf77f0219202ea5790c217c894c60398d5667ea1c962e505ecdfcb59005f192c01bc9e58b0308b08d601ddd370a3ea0f1ad404bf4f872c15c3d35002a1a3d09aa5b5917e0665e4d573468084660056eaf7e12fa7aa4b4,
   0x2fcca29242b13b46e0085e7834ca12025ae0526d7e3924ae09bd804b34dceccbbfc764405b096a43ad2a2a5aa0146bd9e1f8dc86e1e00108b81ca6a58f0be02d3218cab15d8cb5803baae62269931ff1805e68e095160e1f5de01d406ca80574fa50001bc199fa1c48f8aa404998eb731815964f602a57861d9efcbb5560676c91782a8f3121c0056eb517116eaae3fc,
   0x3229024b0f20d637b008b867fc20a4a54bc0536aa14ff0a76f5e404b284bc6921f0601805941b8bf19087f04c0128ca9f5d7a350db60018dac381259c3e2c02bc4570d73ce8450803dc1ab88d98ea7ba205debb0c86ad7b829a01ec283da3d2291ba6019b765b9e5ee33cb004734c76b8b282e7f402a9d206ffb70cf40e0685d2368bce7d3d920056eacb1c00e03bbf0,
   0x3483ca5df7e635b1a0093431bfd71652370054619dbd6311226fc04b02ed0ea05ec24a0057687d6ec318548bc010bdb5ba0db2fe83c00230989dd6c16445002a66e580d45006c2c03fdd211ea3353140405d5fdcf14c02ab7c80205c6cad73f3e83b6017c14edc0e07ec75c044c2e6c9fcd03a3ec02adc72ed1a8fa4bf80692ec11e3d91464060056e98b3982d9161b4,
   0x24510676879560da600910a97b7621d6e0404e4da4ebec5e665a4049283cbde75986662062b43ce73642469b601db6eb8f9b8657f6e0001c6a3b5d187c2c20358f1cb4e6857bf50032cdf57bb5b2a8005060996b032e80272ec018344579839842866026ab2acfb48fb2ab0053d04b02044c7bcac027b8daa897c15864e0614017fc0dd94b39c0056eae9224ae8edb68,
   0x268ade1a2928faf960090e1a550e2561c4204fca023c9199dd8c80491c3766420db0c6e0615e0b614d9ef851c01b657c9f4aa2db16c0000c40d5a2de2e1f0034365c0895e5bb2750351dcf8459a41ef6a060b1024fddd008694019a079646e996a24e02467561eb5ea0ebbe0518f05776da34b712027a2d84395637c02c062b06ff50dc8ee5360056eab36cb5900d078,
   0x28d428dd03d60670c009208bdec3d41e8a80512d4067497ffed280491089ffc705a132e05fe9166b070b440fc019272484c3fcb6efa0001e6b0b05440ca66032d3d89c0500c3368037678db1080973615060a60fa789c9229fa01b15e1c488e56b78e022294558828ccbe1004f3e832784974bcfe027a264d9c1ab31fe00640800b94aa7000560056eabe71f50bcf680,
   0x2b25c02ac2d15aa62009462994d7cb660fc05271744dcbf1a5cc4049076f74c74c88e4405e5a3d0c08b52e53a01703af846ca7a0bf6000522db33ebfe0df40316a9cf31aa1f54dc039a2422e849c2da9706077ed5a2222e313e01c8dd85344d2e524e01ff7ab6605b328fd204ce74b7ef3c66166c027b947aa0413ce0e2065431a14cd5f8eb080056eb07130211c1d94,
   0x2d7ae860bf32a690e0097f0b87dbfc1bd66053971dd3dea41bd78048ff1df0e4fc25e2605cb56efcfc0451b8e014fd1b6848646baca000a5e5e9f46f924a802ffeb0d71221cd8f403bcbfe123caec7f260602959404a04cf49201e073a100d350e22001dd641062ff0f3b1e04a8cff2c19d377db8027e4b3fc486280252066607216fdc1a03340056eb42437c05b3dc8,
   0x2fd1e48a138d9d448009cb56f91f3767bda054a04c7a05d4a9372048f5e6103cf72216405afca49945b07fedc01312a76be7f66cb58001182092f36ae58ce02e9231e49f094932003de5992700e1cd7ce05fbcd1135617d47f601f82a35f3360eec4001bc5ddd213c2f06ce048305086ba6a28af4028221510d88a6fc7a0676068dc7ced2b4d60056eae33e120adffdc,
   0x322804635ba8ad14f00a286cb4815ea46f40558ad44b615efc372048ee2821c02893be805932ae7f388c130e6011469e0e6c1cca666001a6fff56d526fb8202d255185f40c1904403feb2a1a114a4d24005f32ba9789d667734020fc0a9308d2cd75e019c80acd8028ff1d8045d567c6c4a8f927a02872a3f7103cff7bc0684332bf5ba8f17c40056e94769b469d9058,
   0x347948a8754c451f900aa34009a1094bd100566a486facb8028b8048d2643812b365ab80575a5b66350a6278e00f8f2952986c6571000251f86d37400f92a02bc7d1c210350e49e041ee87e23cb2da2bc05e98eb0e43e33680e02286772f1e19721e2017e070ef0235a1af604372fa93270af5de6028c08a73fe780b69006906e2f9f98cc6b060056e774705b2ba1ec4,
   0x2698ed69acb238ee400a6197daa5cf15b3c05207f5b4fb762891c046eeeea1dbd28158c0615a49097dc2ad540019f7076dfbab1898e0000446a0abedaac060358617365db323cb10375e15bf803cdb1b0062116831a93e8e78e01bd672a7e18534d8c0245458a7f58c838c4050288a7b159c0dd8802570a157f253fdd34062c11aa9116a09ea80056eac63fe67b071d0,
   0x28e455a9eb79a058400a82bc3f9d3c4632c05364f6e725757afe0046db22d50607e595805fda5714ca8111d72017c137582483670a6000261addb22e4aa660342749a6a1deb6aa5039a8617a3c0299817061fbd007419ed89d601d55481711c5272b00221dd8ba0f916110204dd0e6283833badd602571bddd7555a6fde0640a500e659ec09380056eb01c67c7bbcdc0,
   0x2b332aedf3b9c011a00ab846912b8c47336054a4608c6689639d6046c6b131bbe2982e005e4447ab68ef1223a015a7ef29f896a9456000684a8478e017ec2032c6c48ece9cbadda03be2c0a0ea766dbec061c642f1654b76a9001ed6e163198adb89801ff7eb36ab42d88ca04b756e534595315940258633facf21f252e0653548105c8d5d5200056eb3390510583b60,
   0x2d848cad9b51603dc00afe0a35e60e3c46e055c297f2926da51b6046b68232904fd325c05c99c99f874dd571c013ad3f6a77ccd8d5c000c8fd07e75578c0c031620a27a77d700af03e088e3e4ac6720500616f90f13e7da6ec802055cb4cb3e47ddc201de24c9876859ad540491a0c10565600150025b1c81d16698e38c0664350775cded84120056eaf5b173b8f4870,
   0x2fd5926325c8de8c600b4fd1ae2df2cbb6a056bbf70f5b2dd6fdc046aeea81aa8c0182205ade3163618f30ffc011d4430ce8330ab6c00145b7a443366545c02ff83963c9a35cb66040141570d4206d564060f78799439ff6bce021cbe505d8859c43801bde5d16d2ef72ae4046c455166adb45710025f746a0178712bcc0673517e33fdb387fe0056e9a43d33a6e125c,
   0x322251062638eeed000ba5d73435e719b16057890dbe04d77d0e0046b8b5ffa9ea217840591640e8b5a5a3f22010228d31e2b074e94001dab2b51a2e6fe2802e864e6f25ae1f2a2041faf558a9489e4900605c7ed148b27c29c0232df6c559274b69e019edb1b0fe69203ec0447da42a8e60a506c0265d255b42cef0a400680bfa0fe8e2fcffa0056e6f5f87791f0fac,
   0x346716fea09fc8b8100c1db5f4df29430260585233df9ae67a2a8046a6a0d92debab8e4057429f16e6f4931e000e82794f73a7fc3220028a91c40a71f804402d2a8b5e003f36206043e51eafdb50ed41805fb7ccbb3d541bd92024a6fbf5df79d22ec018159d80485f48b6e0422db1392f14a42de026b7c1fc8b2d7ab34068c30b0b02f3843220056e5b0733b5a87398,
   0x28f33221453bc4d0200c0469c53d4b70a360558ec06f9d731b07404492d09cf48693ee405fb89ba32d8ab578e01670f17c612c27a4c0004dd2d763b539ff6035873bbaa4f785a7103be704022252ec4260633d396bab33f511c01fa6c9993b49b380002227886a3ac25e48c04c58e852c3558da5602341f7cce8c7788dc063ebc75ecc1b0d6ee0056eb273c72d2cfa90,
   0x2b3fb87a5cf78357600c480490c778ed908056c6c37407c69b2e404475fad6cf0f4385405e1b1893e24294c56014632628c5aedb9f40009e600cce94d63760342d5376e3dce340403e1e9785c3f9ab090062fe7e662ef5810960212f59d3107cd2ec40200ccaacbe92f2f86049fa8fc9bcf8a567e02356eaa25edc784e606506f49d10f73eb380056eb15f4a3cf78004,
   0x2d8dde4f0ad5ffb6800c964789857b953ca057d8694b772d99f6e0446434e7289140aaa05c6b1663076ca5d3401276dfa46bbaaa9820010b3b61052cd2544032cb943ec7099b5e00403b3c553d01335b80629c9f15db0b35b16022addafeb67bcdd1c01e01ebccec096d808047a16df12c6c76bd4023886ba793b36c5b006606d484d9e03aa180056ea35d025b940954,
   0x2fd8e6e4baa03ccc400ce4650a4c2e87a98058b8dbdc7f649bb740446a308df3b96732605aae77c30b2629bb0010b3e9f61e24ca51c0018f9bab8ce117c280315d131f9176131230422e792680703b87a062148c2e78d6d75b602412adda46671500601c08b354dd723bbf60455a17f85722528f4023e0376c000ea144a066ed42bcad3f647040056e7bbdd056fc85f4,
   0x321d31bab86558cba00d2cb141d89220066059655d02e3b21d4200448cc47c801b5f548058ea28cff87129a8600f1c8cc6b601a0a10002272a86aea4906be02fe110640b24a9aec043f2850af1914ee96061679e87e334e7cbe02556bddbcc780c27401a221381dfef303b80432b2bedcd3bb035202460765d8cb2a8a9c067bc57d19deedc9680056e529ad36b99fc4c,
   0x3458953ada0e57d9700dac56950c9358a9e05a27a00786b38527404474f014defa84a48057181a838b730d91a00d8923a2cb74f8e2a002dddf24d22020b5802e8ea76ad227c63b8045d4d1e16cb928fde060bfa42bac1890074026cfb57e92f504562018579b1305e8325da040e10e2bbf3379b3c024b98d073333ce18406866c66e9fcf69cbc0056e5671fe13d81448,
   0x2b47f9adba9abdab400df0d9624f7fa5d1c058d14dc5852149ac80421b909497fc8459605de179dada8e8853e0133b8ecda17106294000f35a052aed416a20359c898f642f8d3b40404cbe49f39bf115c0641dd48df5901db220238ede1cea2fec9d4020390e2ac603690a40487dfe763c6264bf20213105118cdd6c958064b714ac573f2f8c80056eab8810064aa570,
   0x2d948bcb94be87af200e41377345e236bba059d114d3e16b3b5b404210892552bd9025205c2c2b0abbbbd69360115f2dcfd8b2610820016a5c1fc07894e920343798d03bbf6b2c20425acac0a0c24e86e063ada36de42af5c2202505a745dc053044601e3609235e1bffcd60462a9b5dde186a9860216f8ab8b9dad9284065abd44b6e4a2b8060056e919d93cf70d89c,
   0x2fdd83e9eadb76a2a00e80a506f38648e3605a91057be497e3d4404232044aa46994d6a05a6e844e7864e81b600fb3030cc36fa13a6001f27838986ec54f8032b95fa7a60c90d7b0442e28e38eab2968606310d612a350c9a9a0264db406b7280aaa601c412fdb1e872347a043f65481f0df7a644021e524b4220eeec0e0668d4018c322d8aae0056e5de98f5f27ae94,
   0x321e93e41013d7e1500ec59b63f2dcba25a05b2d960ba0c9840d20425e43c951db0ddf6058a990416750e4b2a00e2920b44651b5fa60028e4d1363332d7da0313961f7944f0010c045e2aa3b29c58f7e406259a870fb36524b60278619713e1e1311601a606f04d5fb42a26041d09d4ea8fd287cc02271b356ac2ce83c00675610272cc5f1ec80056e55e78b19837520,
   0x345aaa9f4a227837b00f59e4f2a9619a7f405bf6801a31d979ef804232a036b6784a6e4056cead1b9bcbae0ec00c965d142b963b03a003529897e2dbdd93e02ff2c8607f4ea88e0047d11363a9079c1c2061b05555dbe32b652029134f044ed6b78360189da96ef21bf975a03f798e2a0e98fd6fc022bf60e966f97bf48067f356a3227322d720056e6794756926c520,
   0x2d86cc6553fec738e00ff4753b22aed419a05b9ffe0bd723c47fc03fc4b6de3d67fd6e005becb788300e31ea4010760bffe7f02f4ee001dec6131bb9e1efe035ab63158cde66a4084450eb03254ebf92c064a484a415ace978402748fa712cff066fa01e8bbb27eee522ff4044cd0f9a9214eee5a01f6bab0ff48ea61f80652eeb3c4ead21edc0056e741bcaddf79080,
   0x2fcd57d52ada5ab3e01022e142ae32ba82e05c436fc8b469b8f240400173c40d9ffe03005a30b9755db5b1e2800edce3f8aa6b406ae002669fbc67e2e419c0341dd10a4609cd9de04606c3c65340c9a26063f7213b7c5644e140287445d7566dfd0c001c99257ef0bb185aa042ac0dea0866fdd7c01ffc5dbc9d78311180660f19defc2b16f540056e559e05e0019fbc,
   0x3212f2fdb627e35ef01079d641a8c888b4a05ce93836bede837dc0401befecd1b5493bc05861f24c0e0433fda00d4ed663a5af53f8a0030dcef180cd13118032a5fedff0ee1c160047ca8f68b23bcd2880633f93a7f5c4a65e8029c13d7a79ccf508a01abaddb3cdaacb22604076d11feac0e26dc0207e2d42c9cab5732066cf5e75cab52b32e0056e7394b81df73108,
   0x346064564c76bc59f011202b51cdbbe19ba05db55bda94983ee4c03fe57325509c2ed1a05670fe5d7594d024600bb65d0d2e3be408a003e473c578a8439b20315b60017d7212aa6049c9d54a7db02f2540628a9ba5d6e940fd002b6405f24761e27fe018f21499834f8209203e07b2f57b723ee6e020cc58b994a52d5bc0676505521f55cdb660056e855db4f10ae194,
   0x2fb368bc2f9522b7e011d9d7b25fac29fa005de3761b52506a21403dc64c2e89c5387ac059eac869268e13d4600e20eef11152bcddc002f1b9cf2f96c65500358ed66dc05b9dce6047d20406866e87028064cd055c10b4006a602a9f663cbc089076401d090cd441682082c04164fecfa79a9688c01e172e636f053bb5606573f89c1637029c00056e6f0f68df561168,
   0x3204f9eea3b1b49e10124a0bfe47603a9a405e98161f5efb9279403dc8a1d9a0882b8680580a4a7e91a2607c000c88b1ae26ffb2c12003a99c5d9d6328b840341e8ccf1323fa52f049af99e0e016efd6606413b16c86ea7916002c0be8cf36801b31801b29214ed0fcc31c803f14defe4f7b2a08e01e8b29bb8979645280662aee4b39a51dffc0056e8dd96eac5d54d0,
   0x345ddbc89e6e0a6a2012fcc51dc917a6af405f60766e3f8d9b41203d8d8971b856b263605608b9a2c42c6155c00af15fa97fa15f9e40048fb21169bdb9b26032cfb512c7656768c04bb560e1ba49df7ae063522197338c75a9802dba5ed1e36cb4f380195e72b5defb4e21c03c977745dbc245ebe01ede4494aa02c9b6c066b836323205af2b20056e9653f75ea1c5d0,
   0x31f78cf62e6e9db9001432fe1f04db1a4d406035c150d3f47322403b6a156919f5038da057a082a5ff41f711400bd7d59d82c29b2300046231728b00fd7ec0359db7173e3e715e804b8ea5563b0a2432c064d1fa75a06aa6d5e02e6229159916cf1a601ba8a249fc9cb7f1803dab6dd8bda03f2ae01c9eb14db94319d460656a0d0c280ad57760056e95be9a7a850de0,
   0x344e7c5b43ecba8e9014ecefae6dcddaaa4060f4d9b70fa4e753c03b2d2f82abf3d6c360559a0aa28c60de52400a4b3a2ca9838ed3000552287d5870be7880345130a334501860404d8e2c28e6c75d9ba06407a681642b96294030113886a23705cc4019e6015dbee0ab04c03b2edb5d16f170cfb01cf619e02303fbe18065ec3f8bf5ba1eb360056e9276439cc508f8,
   0x3430d7f9dc73a2658016eab63c0ec44e81a0626e0dced6b6c4218038cb01bdf9741d0f205527b26ecf9291fbe009c669e118425a65c00628d049bce811bf0035dc9efd187841aa484f4e0b77ee092ade2064aa1b2e5ce5e41f203261146acdc035b9701a884fd36a1e98af0039d363452138e943001b18962fb4491823a0650345df0a4c421b00056e7e71ff4082dc70]).map icosaRowOf⟩

/-- `s2/ahrens_beylkin/ahrens_beylkin_6912.hpp:13-6926`, `6929-13841`, `points` and `weights`. -/
def abGrid6912 : IcosaGrid := ⟨153816758548057500, ([
   0x30197c18e57011f60002c58ddc2ca13536804631adca9f08b6480055f1c557bc5bd3e24059cfea90ea8cd227801c70526a4b351afb2002b71f089a8da2fa40265faebf514f68e4a03030d673b7f75ee66056178e8620f6b30ee012b3032573b7b942401c7ec13ddd48ad37604feefd0f76861800e0361e6f52f3575307d065eda9749585ea2a40056e70ca2b297a869c,
   0x31df5e65c3c1f493e0031bc0f5f5c91a6d2047c67df62049995520556de29c96c9f450e058b2b5f42df20eb7a01a60843004a714ef8002beb59f1f717909402598ad3c5ddc8924c03275eae5dfd3366d3056617a738932d54420144f69e779dc73e5001abd8f86dafeb4ccc04dd7983eab143be640359f3d2da9cd5e26b066fe96e4f134ec1f60056e42f783daf163d0,
   0x33943f66124a0341100388875c69d9ba9d404947c8b98f291b4ec054dc3dc9fc6c416bc05791f14d1c64aea6c0186ffb7f7f19f6e78002dd11388d617d3d0024e4aefbc05fc9440034a9ad9bf99d69fe60569d2223c037e477e015ef104456abf88bc0191b71a35b9235ce604bc8b3f4b7971b312035205b77de8b3942b067ee3cd5c5b6bcba80056e1312e9701f8630,
   0x3565fa53cd74c59c9003f9d61131347454604a92698c7eb1732b40546b2d9b1d984acc005646acca29cc1622e0169ea5bbde78b26a20032356dfd216bc1480240ab92d9521ea774036c10a80f66d2b9b70569cbcf9a5ae686e80177ff6be8ae98db920177524ed3d966aaa0049b11889d2409655a034dab9809ce63a012068c7cd79d66b1df740056e016ebe18cf0364,
   0x249b71a14c5d02234003a9d8c51ffa6293403ecea5d0ff8b9eeee0555d7405616ff03000606191fdc0d5d40480286fc3d8150ef9acc0039430539e0c020ce02dd5a1151af19697c024be7cba592e9416405596278ff02fe430000c2d0c76d7b900fbc028856c4996fd5bb9c05b115d323ce1979fe03612be94b90d0cff785df650289b1ced9840056e2f5f61c3ec2f30,
   0x264462d69519fd30c0036da0703beee56fe0407e75e898d75adf6055399486f910c3c1805fad5513f8d28215e0262b57484774399b60030ee0af30627d42202ce52bd66ee2c90c6026ddb179058a78eec05631a2ea750da7ad400d578cea035b39a820268a17095300a34fc059524046dcf05c5940359c7b0b556e2505505f8240c1cc09802780056e63d8f07d7621a4,
   0x280f89860ed9a0c60003446b90078e305e20422eeb16b9bded4420551092d82463f653805ed41c8101b42d70e023db2a8cacf9df5a0002a3328fd2fc5ac1c02be2be634363bdcf00291466a44bac363cc056b6a8f695c85fe0000e9c53f8c6dba805e0247c638ce18bb36fc0576dc1aa9fdc2498403530ec8f890c0ab0506109b44118434397a0056e77ef1a40272a9c,
   0x29ed736a50ab834fa0033359b387db2c532043d840ef8a08e49d8054dd662c30d8de5bc05ddd711b3158244e00218ed4bdde772916000254674e54beb500802adb0120f354b0a1202b562fba0f2f613ba0572514e12279339a600ff6de9018e8f99e00226dc72311939ee2005570371d4f9714158034cd0d5e075ac23b10627fdd6df50322f940056e7fd43566232d24,
   0x2bd502f95eb0350d20033ca004dd20496380457769062f5a0659e0549cfb64d349acb2005ccea66483453b9b201f4e0c44e17e52e8600222fe41038378d08029d57cbb9a86e4fea02d9cb39bc337115940577e4dcb116d5683e011649d996cfedf2a602067ae08bb1b237b605360d7b1a3d97a17e0346e190b6157c4ec6063de9abd3cc5118540056e7e88c04eeb628c,
   0x2db9da56b2d91037a00362724bb1f8bae5a0470c51f9cbd3a5d1405449c0c8de7d6b4d005bb09e56b1ecc793a01d1fbc56e2281c30e0020cf5e5c3f037796028dd46f49e06e279402fe26383a2edd69c8057c7c65bbc9ab210e012e37e31c9e53ed1401e7538bcd0309e16805148901ee4168330e0340d4080d5c9da105065204914e472711e40056e715d8c996282a8,
   0x2f8d41c78964ca8b0003a5cfef00039f9aa048973798a8b01f74e053de3d865efdbb63205a8ed3e1a4930316601b0b5f5b6d8e7af940020e72aa82ce435a2027feda22deb8012a60322062e307da4e26705808bbe65aa89a7bc0146fe095659fc2cf001ca2bc9feac3d739c04f32b65eb09ed925c033a2a89247691bc850663fab7141cf395160056e51b385326c336c,
   0x314cfcfd03c0b90dc004018bb0ad607f45a04a106fd4a2bbd777405361c5eedb55d58be0596b4e573cd0bfd0201916ad4a373419a0e0022668972a55a6fa202737105a24529f15c0344dc6b6bc07170120583db2c216a70c18e016010ebe0732de71601af1d063ba3ef1ec604d260e60d2bd142d603334fff40d98420ca0673c6c15b8330d0320056e24f83bf39cc6f0,
   0x330e0d43201d2e4c700469cef203483e48e04b66b0f6a83076642052ed105da6486bc3205835a314bb9635ae201741797475c33ad200025a6661a494c9fa602669a858f8ffd57da036636aa6d6dcc6d1e05851d651bbbb761e40178b4daa86e6a1e5201950e204d476ad99e04b1cdcc0970d10d7a032e06c4a0f1f078260681df7a6889a422740056e07d547f119af08,
   0x34e2080f81a60d4c5004db78dc2f880b03a04c996bf3aae63414e052885b43ca07b293a056e0fc8fc5a7e1bbe01582755fb773e05d2002ad9ab208debeb5c02586abbe2f514cbf803868ae3ba977013690583cdf9a1881f1e16019113cf7ede651440017b05389de1d2cab00490aa45b7473c1a76032af23819e0dac15c068ebfd89af0f4521e0056e19090075d1cfbc,
   0x1acf63397b03b90f00077897f6ee01f4ea403810754a8f1518f4a052a0ede0310fec6e206451d5c8874f642f0033f785eef2bda875000700d69b873ae332403594a411af72b940501b9127dec70737902053da73e0e3da7e2de008db823850715bd8c0346f474a5984bb1760632c790131616590e03574050879db209480547b997cfa466514a0056e28eca994371dbc,
   0x1c1862d78c3279db0006d974aff694aeb0c039e9eddf0a13d0e180529a9ae1e9a2e19ce064298c985c7c0def4031a2cd31d03dd88d4005f906143c6fc8c52034cd379a8d321aa4301d838659dd9642f78054e62cfff52b8d97c009ad2a4580a4fb2d4032833bcd8a62bc7d1061df90cb59acafc82034caa62b747ad81c00564ebf132dd810f7c0056e4a9316811bc284,
   0x1d58a84e5de131ae60065ef6ee866e6e2e603bdca835e58287c40052674ececc66d92c4063fdce24ca11a829802f4955ac42ed1582e004ff88170914978c203426fb658aa1767ef01f9149b6c4ee1aaea055ff5f0eb0cd9748200aa6669f28b880d6c030a8c483c046ec2520607f9742ffb71df6c033fd28455ed1b74de0580e2d56ec0ac0f040056e4c652c7789c330,
   0x1ec739890c1aed7e6005e8fb824c9cd453a03dbefda6c2f7202e605246ddb44ae9817cc063a549556212d063002ce76056da8c8c1fe0042030d264825b5c8033587b29e8d104ddb021aa544e440b596c4056f2c3296af46661c00ba964cb619add11802eb02b06c2a70517005efcf9323be8cf3cc03352aee88dee33eb1059d011ad480201ab20056e4eb87217646140,
   0x20ca287c937d27862005307618ae067d2f803efa28dc14225bab2052ddaf807ac1ceeb8062c25983b5e0bc91a02aade99d1cef372f60038c72e15f6f5d2a2031bd05ee9e0897ec602371c0b46b53bced0057294aefa12f814a800c50d20fadb31a5be02c51ecd46b8655ae205d574069835e7a0540338e3175ee080b35605ba20eaec905891000056d66b238f821c2a0,
   0x226b684325cf1a2380049f52cd3159a06ec03f98fc2fa3545ae0a05384a0fe5cbadbf40061ea6fce967ae0dda0292ff205b584edbb8003488dd795b7bd3c803053f8ee01f5e14c602496050fa3ba331e40570602c07647d821000cabc059732d7696802a86b6fb5126d0edc05c1d2ddbe5abd07f00340b2ce147f3872c505ce7d3803a3096d4a0056de35a42bfb16324,
   0x23fe7534ef3b4429a004593d6b55be16cbe04132bbdb424c3c76e0536d00b4f6fd96c480614605e7c31947f240270544fa61db49dce002bf87ca03eb34db602f6979a552f8bebe20269561b8a6f01d6e20579da2da00855380200dbc79f78058cfcba0289efa9bb3ae2bcd605a7b86de23ceb50180339edd2a0e29c7a5e05e69f2e2736b333b60056e5bfc9436e7bb98,
   0x25ba9e138ef5dee9800427ca64b56b12c98042ec7cddc341ac68205341624e5ebe2f2f80607fecac1b56aeab6024b285c2218040fcc00243e6a77ac643b2e02e71ed630ae324822028c9913b96b8a0bd2058343933a125c1a0600efa99d77829501b002696697f5c2510136058a468c86c989bc3403326d685be1bdf8bf05ff8157e5c213d1e40056e72417047db6c10,
   0x278c64c4a2456b5de0040b8a42e517f28cc0449b1fa482fcec04005310da9e2a89ea41c05f9a4d8073a9a6c72022648347faa9e815c001e5a921619f69b8802d700e1592e2f7cd402b061e01a8ef87e18058b074fcb4ac8e1300104aff181ebdb5bc80248a64697e226f636056b4a3d45ee91cd6a032bc1070bf34837c6061763094e7a83645c0056e78679f6e6e8230,
   0x2968a1ae1af724bd2004079bd354f603a000463c184be77366f1c052d6b6e98a5efabec05e9bd5c72eefc771202023d79492886cfaa001a528fa3dd9a7f7202c6da7ecbe072b11202d445bb21d981c9dc05914e3c6a41c4e484011ab77985f6e6ee8e022864a6da9a4c8a38054b478481a8d650380325a0fa9c33da8e2b062dd0587abf3c33720056e73b0a532c4911c,
   0x2b425fdfbde3dcffc0041d74106ecdf22c4047cc0b5fb1b0b9d620528f762e31f7b9aa005d8d3ce2bdbdc243601dfa27b1d51fbb1080018140ad8d6727e8802b74e74566ad15f6402f7b8bc6691da288605964d577be9847efc01317825f793943454020965b14b68683cda052aeb0b20d9733280031fc9dc71aa4da29406425b7e01dc9d38020056e60a652deb6c9ec,
   0x2d0b145ea1c9d70260044c963c5eba6fa7c049474af39400f4e9e05238d5d679845c60405c79621454e71b2f001bf18c9940470cdcc00176e3cfa3b2b08a202a902ea2edc2ead6c031a1482cdcc8b6bb0059a4bc116f8afda7801488651571d50574001ec73f05fb4ecbfa6050b072776272fdd940319f95df8adfbfab20654a571c47a6b14a20056e3d159a586423c4,
   0x2ebe133a57a7d367400491a12891402af9a04aac35a345056eaea051d4f0f6263dd4b0e05b653c81106d7fa6601a0ca2953e9efe99400182b58f77102432e029c113fbdbcf0aa00033b0dde4d28f079cd059d6a739bb550dff8015f92184f636f2e1801d1b8e2e58cf03d9604ebfb6b38d6d7a66603142ff034af76c1890664b5ceba564a1d8e0056e1b5033a96b0074,
   0x30730974ab33e5966004e905fb6c19bfaa804c019c031d74091400516a911bf4f92e04805a41873b6125fb6a001838f6481856e83ca001a5bdb27aff5e4f2028f4c38907611c9b2035ba8d5c533168388859f55d4c8e1113b3a017719007d294c763201b7c3e9109714998004cc90243633629ed8030ee45c61de11d59f0673663714c8e971880056e1ba41944c71fc4,
   0x3248d83bc91aa8f6c0055417b86c0ee950404d5110eca8a17889e050fd656c5a540a702058f792af59b9d6a420165fc116115ed63dc001e5cfe63edb11ea602815e0b9ffea1e6dc037d5eeb4b8b527771059f8c3b777225fe12019011725219de8eda019ce08e83e92ada3a04aafbadd986265da0030a8b334d64421f4e06818acab3d16e17360056e39fb19688154b4,
   0x344278d0b82d74414005d765e3268d5104804e9c651adca21d0b205089c03d81cee51e6057833ed92bf95306c0147f772d3a12a7fb0002469f94ba3362e4802724db0e8ca80284a03a075f50296065b10059df6d0b5f5bc327801aad3b01d0f6dfefa018103d7ba66c961b00486ea14645bde516803070e32e54abae904068f05baa9892622980056e5e499edcdf8cc0,
   0x1af6c05ae5890cfa8007af99045fe28d5d603bdb34b6f950e95ba0509b385b98f9de2d00654276f0bb3f82c62030e37cb01041dc1cb0055420b60e8bf78ea036bc464755436fb6201ec72faf570990aae056c71ffe5bd0f7ac200af98bbf41fe4270e0333ef4fe6198714f3061c525a7c79483cac032655a59545e1c01805640a364cc6c2788a0056e42a350b81dbf70,
   0x1c3fe8b57840f6da800738b805c31b2d46603dc046f65ddfc9e460506e9329405b57dfc0650981550e6077b4202e91bde2bb4000e040046721e5173347fd80360c6fad0b9d04e6f820cf75dcaa18a1f72057cfb6711e1ae845400bf19f2daf3474ef20316354036727e53ec0606065ab69eb575c2031a63c869406f4954057f91071d85c834ac0056e2d0a96e2942b80,
   0x1d97c69b15c02b326006c9205ad26a4c8ec03f5b2688df62daf4405065add67d263d454064aa12feae951d6a002c76ebbeafef129b6003a9ad1d3d7a888f40353d69abbb20c95c8022a550368f96cda6805892aaaf8beca232400ccf09f856fec50a202f965efc44ded514405f03084f3853288580312840124c07fdda00598b0ab196aa79c020056dbff6701ee11178,
   0x1faf7aed306d5fd8c005eba35e678f97e980402f34db3e7963a7e05154616d8ea83b3fc063a8f408a4d2d471202a7b11759946535e6003320094ef6321b660335ecdb94683ccf6e02418475cb180d9a8205876d0a687e82cc8e00d2b6bc267fde55e402d34b43f1172c991805d7eda8e6fc1d1a80031ccfd3e44cb2657b05b4dcc9b0742fee7a0056e0837eca7c2bacc,
   0x2198b05d73be48f68005688dd18fa86e5f0041b54faedf9ee1ee2051928d23cc13ed958062d74423ad8d5ebdc028225aed4690dbefc0029c1309723944dde0320a084777572ccea0261ffa302187ee804058e651be974cbca0600e1b990a8bf986cc002aeed5b5640003ea405bbc11919a363711e031ae7fdb1814f916b05d121324e5d42f83a0056e6d6900691b6ea4,
   0x2350801f13e2e05de00529544343616b7280437939860ac7756360516ba7601ea18ff0a0621eb6665761c4a12025c54e63cb28abc120020ee07e37d56442a0311240fbd4e48f29402855f3805c459ea500598b8e86729053e1000f5250567cbe381f6028dfc228d6b4b16a6059ec37935931e77e803130564c7d7be16ac05eaf1738638a655400056e6f9bcbd470fc8c,
   0x251160947225c8b1e00502c863a0e7155fc0452fefb81bac51efc0513a3175277a2f0700614e67f6bfb6f0bca0237607f68d4d6eb460019f0c0536d5534b80301b66ac9abf67a3002a8d673f32c28030605a19f47e5228aa20601099320f8ca306c1e026d9c454f75f30c8a0580cc59f1c56b9e24030b9c3030541e881806034577f7d47e0f6c0056e68ae3def9875d0,
   0x26d60eb350bf0c516004f1377cee57279e4046cb80009576fd7fc05106822a8d051ee560606824b1059c05740021414d063c096a3740014ef0970bd3a617402f2392802e148d12402cb746f2a609d55c605a8a014fc4d369776011e4a6e9db6c02106024e393ec1e8cebbe405628261cf6146420003054916e7093d6f500619c387d5c9d7c6520056e52986cb5d68f28,
   0x288e6c9750bde1014004f62614fe038b6780484a459c6e9ea57cc050cb369701fc4641e05f77b2372caef1de201f30f8fbb72c778120011b9fef0527b2bba02e380e9e64d3dd45a02ecaa7509f974b17c05ae1f77649b1877da013301bddade7b6b1c0230b7f21b008502d00544b22ba77e364c5802ff98ef4770535e98062dfb285aabc4a3800056e31853a5b2d6954,
   0x2a38f73a79ade3b6e0050fbcc0c081e36e2049b080d559a8b9c0605087345f8bd470a6405e8085a7286fdf98c01d41cb3b5b1aed5500010104ecdd30c582202d5a78ba23132306e030c9a59a875b6418c05b269a937cd30ef420147bbc1470fadf42802150830f3e6c0b410052768ffc43c8c7d2e02fa51b4db8312124c06401eb871f9e8a66a0056e2420747ca1ae34,
   0x2bed23f424f3544720053fa281dea69d65004b15adc353f06a46c05034a700a2506723605d7612eaa5a84535c01b558bee03b4b62d6000fbf77d6536ba6c802c7febbebe70429ac032d37f163226df41905b5ead2728f3d404e015dbdb92f34884b3401f9936f27d249925e0508f5e1e645c9bc0e02f4f6e8bb8ab16170065148b163062316a20056e3c8e17e47d4a6c,
   0x2dbf3d8f26f08cd8600588fefa69fc9690e04c85db663fda4e28604fd13ede397e73d7005c4a15732f4a19c64019594dd169a7bf4a80010f42cbad7d0787002b9d4abfd36811ddc034fd142af1f61d11505b88d1a8c10393dd20175f54842778b5af601dd30a0026274fdb004e7fd4b38209594a202ef7f311fad90f03c066215096b37a238600056e572d4ee35fe1e4,
   0x2fb0a06c218e67420005eba20494fd3307004df73c9abde94937204f6275255afa40d7a05af8841e01aca86da0175441c3d21bf33aa00140121d2e3bba56602aae5c74d0cb3b74a0373f1638bdc432ef005b9c7ad95df18583601901850a26466206e01bffd1ab38dd6beb404c49f95469beda6ae02ea753e129a8d58b806723e8125304ea0ec0056e67eb1f743be4d0,
   0x31b8b5727d447c8d90066770c0eec4f1a2004f5f7c37bfbe30bfc04eeae29946e61704c059852e0fb7885b0de0155306fe7901aed7000190d2b9fc3cde222029b6d522e06eacafe0398cd56a9f2c056be05b95a0985b55b474601aba8543f61c6ee1e01a29a5056b89c3dd8049f7fdf242a370b4e02e61a9b5a3f71796e06814952340c5a7c480056e753b9bb5824504,
   0x33cc9564afbc7137f006fdb897df7e80a72050baccf9adca549b204e680195d06d55876057f711fbfe6e71f920135e8b8a9756b22c6002011a7503172412e028bf00e6180e52a0403bde31c60d707bb8005b763c1a0a88bcc2c01c861dc0eb02d8ae00185b29ad73be0ec0a047933ac35a1e2e19802e242d4c682a9558e068ed04e1b8590a2280056e7f71aade17675c,
   0x35e4dbd29686d90a6807b3e5d9ea77930300520fbda3bb2e029ac04dcfdec23087a85ea056537b826e62501fe01176e07dc82154d600028fbc4c898621e44027d197ae92fb44a9803e36743bf8016e9f605b45a0b8f2f3b129801e69b0427ed5847f00169b0a0b2912c90200451ceddf0479d5ff002de4314464640b612069a9d2b825d70c8000056e823e73ab1b9484,
   0x1d992520774f9c366007252a4f4eb32a9c004111484900e85af5604f409341ec3337954065025653b0160596a02b3038c44003610c6003197e93f47195292035f1b6f538ea9134702424e547cb23b064e059d7ff249a48e443e00df4fd2f2f7b501e802f3be47f9a44f67f405e4c83de11706be3402faa0986720a8a4ae05a1c11dd273cf28aa0056da75183990dc66c,
   0x1f4c027918188cc8200695d4ebc84c64eb204246c6a7339fbce7004fa02b128fd16535e06449d47458a886a36029301c7fa6b9258c8002912b3e251ba93c0034a9dfb25b164af24025cc6bc977e09807e05a253e1092ca2dab600ea2283792dcc623002d34c62d49e9e13ba05cd4baef477c1c50802fb5605d661694c0405bb1280bfd92821ce0056e142c65057fe388,
   0x20db2da158708668a0064b2a8c151211a2e043e03d7908452640804f8b31158a02c0258063aac286fa3180d8a0270630cfa93bc0b5e00203618c4043b435e033c023654964f38cf027c83224498f01b7a05abffe984fef98e1800fadd55782aa3bfd002b4df9cf7e0a1e22e05b3898f12ed6ac80002f48c52ad4c0232a605d35a4e0cc6944df60056e3db1d4e8b056b0,
   0x22728b550f3b9965a0061a9929fe21256fe045818b9726b6c288204f5fb6e5d4c6e9a7a062fa6ea2b099ee756024d9e473e9c3637820018951b995f2c05a8032df3e1ee8dc75e11029d67a3f2ae32dcae05b54ed40589ce3224010d513a2f6cae46940296b2be451f1c88d8059865c6819af431da02ed1dac3aa370d21605eab78cf359f0c2fc0056e378fe712d171c4,
   0x240c12c9a78da7efe005fdac362c60b208a0470e17b3ce865ede204f2f64bf610f2e942062381e6a140c378dc022c360358ba79f80e0012a321c2baeddca40320000f27a8e4a32a02bdb1dfa64333c26005bd1ea0a1e66988f401202802234569e2f002796da4f8c597545e057cef7c725d761b6a02e66be7d09390bc9e06007b2c569b6ed7240056e2a99fcceed74a4,
   0x25b1027a390016e22005f18fe29415a6bae0488bd6bda62a8108604efc650548f2152b60615f98791906ac9f8020b85379cdfebe092000e399f30b28ad2ec0311b5eade73db41db02ddeae9ab1be14c6005c3807154a9d0b14c01339a702eb748fbdc025c6496956ebb60ea0560a833488b4af53c02e081d8d4d20a3a2c061527215293df633c0056e3a4c5fd37e3ee8,
   0x276e32f3064104b66005fa57d4077e2ce4604a0eef6a6af86c92404ebd5040eceb0cc2c0606aa8a0a3ffcac9e01ea346ff99954a466000b2ba6e4982749120302f36c6e59f57ae402ff928630d1fd0a3a05c8fe316b1c5910340148be02aee9c41236023eae46557910420405426563f15f175b5402daad43dbeffd412c0629675fd9204d7ce60056e58ab066255fa20,
   0x2945a2484daa12a380061add3300ea005d404b97d7e5f4aa8b08e04e703b1528b1f852805f566a272a544edde01c83bd750cf2dac600009a43fe3aa7c54e002f3b7dac655faf3b20322ccb4a55b4d337d05cd7fd4bf6fef10fe015fc52366973b056e0220456a9d33515d540521f43249829b578002d4ea0abbdd3df44a063d2494d577de1d4c0056e6f0884ddbcba2c,
   0x2b322fb7c02e52cfa006556c70d5e0cb4d204d21045b8d20b3a7604e1479b2bdbd8a61a05e24261ee109397d601a6179bce1412a5ce0009d42f26c861063802e43c8e1f10b6343e03473401b4942711b305d0db394b02c614ce017887da033c8240ae02019a33b4a9be546804ffa00783a99b9f9602cf4b94a3cca8277c064ffb46084ff9e0900056e79e45dfdd39e24,
   0x2d3126484600fa22c006aa0c5a18ac9445e04ea3bde35f54ecd8c04dac8be97bd52ff6005cd3f696356d522e601843470d33f2c29a4000be421afca784f3402d483942883b46744036c5bfd385ceddf6105d2cefb3d7a8234300192c3650961dd045601e2f114c4ff7d1ece04dbace9ffd29dda7002ca130228610bd8c40661a801f154b7ccec0056e7ed29cc3180504,
   0x2f3de014cf2cb5934007190035c8d1b6a900501b1f280a918af1804d393e43c3acf74f405b67f941a728083c20162f831a95d2c946e000fe7addb1366da1202c4b2fc9aa1b206bc0391e1652e080d6b0205d33f9d9ec9c6125e01ae3d057f5e95a19401c4a0872ad6e124ec04b66d1eaaa7afa1f202c55936fb48a7f3140671e93be085fe240c0056e82849217de5c14,
   0x315279a993becd6dd007a2b69e995254cb405184514f17c8c494a04cb9d0dfae1c4e3b4059e3d9c5a4b5875000142b8dd60b8c05a2e0015de04ec85b64e0402b50c6b678293a94a03b772803c6fc9c5df05d235589b2510bdde01cac67f01a458974e01a706425dc82f58de049037735090f3f3c002c111b5392a0d0c1c068085881000672cfe0056e85981f47ce5354,
   0x336bdd6732a07abaa00846a8982fdcf5316052dd0ed5e4d3448b404c2edfb17c22c6d0405849a6bf774683b2e0123a9ecc687dbf7f0001dc33f9289fc162402a5a85a9e144da6ae03dcd69ec65be245b005cfae0d5b67da5c6601e837921479465ed8018a5136b6fbaf4d4c04694348105bc9e1cc02bd43d2892c0f65fa068d624d99b176b5b80056e86f99c1d344ca4,
   0x358678c0e55e498ca00908a58b54c57c07c0542a8a62893f8fa6404b91a1aa2f8b932a40569bf78f152c372de0105b782a9b1ca32c600278d70ca714b00bc0296ed36ca41311af00402474b5d942df34005cbf6c1dd120f2f8e0206d97c16a759fb20016eb46a948cd6f286044186acbb9e69320a02b97cdb8d1fa0aa6c06986625ef2ec8149e0056e8500adeaaf1f18,
   0x1fbc9ab18e27298d200756988faab36163c0459879f88d828182a04d7e298211e498b8006494edc081dd9894802683f59649187f32c001a70fd65facbecf4035b5bca266b25b34a828efb537ab9823fa205c60ccc17a5c3740201109c0212750a051e02c337e4f941f234de05b12af6daf4a6063802d02af27a86da593005ce0d9ccd9887bc140056e587563cb55c178,
   0x21663bc11baa2f8420072916f59726fb2080474c30f7e93fcc65c04d4ca58e021af505c063d9fbe2869f8782e0244094f37e6c4ae660012bea6ea8f0bc9c0034cd492a57e7e2f1802b16f600e2de618f605cfa8c54b785659580124251b8cc51ea88602a3dc17a6ca2896ae0594a74329b5a2e4a602c850f6dfeaa6df4c05e630cd8257c216b80056e5b737c29b39614,
   0x23223d9792f7a966a0070efe06a98e2ccf2048f5c5dace454926c04d162cc694613858a0630355d0820a41a640220236028201282b4000cb37ad12f2e88b8033dc8a2965b9cdb2102d4533e6a49e3cbf205d7ce96f3ca30ff4c0138b33da1b5991b2402845fc5c189c6ae840576cc80334ecdf9fc02c12d35eb4380ca7805fd628f39cc7e17f60056e66a5a83324f4cc,
   0x24f28dd7d3213f77a00709a3e6badfcfe9204a9807173cd614bb804cd8dbaf79263b1320620f9f209b79335a401fc6066cc3c12befc000853dad6b63c92cc032e37959907a6280102f7e14b3c53870ba205de8c8c4bab973120014e77b16e25b3f6ee0264a6ca6133d3432c05576926d1e3c0449a02baa42d1d3c76ebd80613b1918f01dafcea0056e7472c266590f64,
   0x26d3cfb88a2b18b9a0071c763d73432173604c349dbb3193c066804c900db8a4645dcb8061005cbc6b6d6d76a01d8d6bec6463fa2a60005ae3f2f88280712031e7094c18d1eec2f031c25119ce12e707e05e402164630ccd1c001659b80064379f5100244efe36df2499a600536851a731c01832a02b47484c81f6d1b1c0628ee1c610197e3200056e7dec70297cb0c4,
   0x28c4ce385558d0f4c00747d5cb99485cf1804dc87c4c9a6b0754604c3c9bdbda4ba971a05fd566c3d096b06fa01b5b97226f4930e420004da00437083bb88030e772e1a4006d6120340ef443a5c6e498505e80f7ae8cf9de272017e052a30b94a493802255cce9d189521d205143c0cbfe1f952ba02aeba3a275708c838063cf4e7aaed8124ca0056e83286faf4248dc,
   0x2ac49e0d2fe9cedfc0078c8dd5db028fafa04f5230745fb836e3a04bde521cc1dd4fb0e05e8ea37dcb749f846019326820ab413cde60005e86c9ebe12130002fe567a5e0988dad6036629bbff55be5db805eaa56db7670d441e0197aed9085bab813a020606f2c9a62a9d7604f09ab04853ebbae602a97cbfb006c88680064fab8e35bb6e81b20056e8593db98d73420,
   0x2ccf684a3e4e6f320007ec0ae038c70a6b6050d0812e89e6420c204b73765983e58c34605d2e17223dc77037201715383de08f07eb00008e2beeb6120067402ee45854b0afdc292038bacf806a7242edf05ebcbc8132be6a69a01b28e36f7a19a3fa001e73172f634411ef204cbcd5fcf05ba5fd202a4a627799bacbcee0660e2dda47ed2cb9e0056e8701507d7e2844,
   0x2ee0d17e5774238ae00866f76fc86effe1c05241bc2feae5efc3604afaff12d966493da05bb66ca3b72696ec401507c93e07e1cca62000dc99db7b9e271ca02de79a65b9b6f6ce003b1437242382f157205eb8c24cf245efcf001ce88c5da0a576e0001c9226d254b2a56b404a60f91052224589802a026407f9cfd233c06706f194fe6d977a60056e87b55894bc4d94,
   0x30f6e3d9b52fb5567008fc79eafe78e7eba053a36930e88fd05e404a763d65cdb48b5fc05a28e365c319be1ec0130cd251763105ace00149c197d0caed79402cef93a2fbb40791003d6b94fee0084fed205e9da6de263b24d5a01eb7611af37c1c50e01abf8aa4a3df032c8047f8da676b44bb40e029c118889b0605906067e3dce8f065bbbe00056e87326bd795cad4,
   0x330fb3615bda88422009ab3d92cbcbab290054f30a4b50baa6ef2049e6ebe9208d79ea605886eeae01b92176401126e43c0890495ac001d53663a3d966f6002bfc629307a62c9f403fbd85b5008bd701405e6ac56bed310bf220209277012eb56de52018fceb6b30828f1460458777862a958264c02987f75a212d50a4a068a42c86ab697f52e0056e849f279f046178,
   0x3527797b2fdbe483400a76bb70c6660144e0563550069a076100c04946b867b893713ee056d352f2e14556ff400f5529c57915b0aae0027e448803c6db7ba02b1444b5e1ccb6bd80420d03f35d53984d005e24b9c8a8aa4a83c0227dcae0d7ef9e0300174da0ae3bb4d4ed80430caeeb3b2d73a8a029503f359866eafdc069463ec08cbc33c640056e7f81d8f3209c84,
   0x20fa335575bff1ab20084448842bd3c8eb6049a1253874095224a04b1bad5e7cf889b920645c41acf1e6373d4022eb29f51ebbf24e8000c529c2057fbc1d40366ac08357db60a1b82d1b66f38f93572a405ebbffbebd1ffd8d001430854cb3aa6e41e02a6a48b7450fff1ca0585bc9e0df1ad4aaa02a14960fac0b3a80e05e8708e92b233bddc0056e5ede48c1de5e44,
   0x22bdffb77a589058200835e26b762f9049e04b46a5ed1140b33be04ae03027aaabe4a240637831e572880beda020afcff5843afd18e0007260507573dd822035784aa322d8fc10702f4ddad121f94d03c05f338d5c53085415a015833c8fc0d5f0be002873521084f6afe0a056733952d4a5be102029a5ee941e3de354605ff10c66f60df7de20056e69abcc58a04d14,
   0x249358360601667cc0083d6770c06e4286e04ce480c19e838b63804a9c36872d6d4883e062789d58e10299bf601e78a5ca2fd4a7cf00003a916fadbbf8422034803b1bdb923c94603189aab6e1a7a47e005f955f091bc5d1b44016e948838660e3a5a0267b7bcb4286f213c05473de0847f74f8ce0293f772cea38611460614aed9b0612356e00056e74242b27a026bc,
   0x2679d43c0a69193560085bd02ab33396b9604e79c065d4bc8a3ac04a4f51b712d6f58a80615d10896a16660a201c46f30593f12a41e0001ee0933f3c9d75c033831706576b5cc38033ce28b536dcc67ad05fe095c7b3419c88c01862d74b4e1a87b0802483e29d07e8238580525ddc201a932ccc2028e17534996af245606293486f21b4dfc540056e7b83d4ca225aa8,
   0x2870a02a7805ca892008916a73ae7cf492805003f8fcd7e5f40ae049fa3744c224c6f1a06025503217bd7773601a1d2f00caecccede000208140975cb873803280f0f8005bccc93036190d90ad6a0bdb0060138dde0ea947026019eeb08fa9640af7c0228e1833e20d0c1a205032776df96eb60100288d5c47907a5f1b8063c86693d42c1afc80056e7fc850dd039424,
   0x2a730b51263c1f778008e0e5914f147d230051836ad662a81a3940499927fc27f2e86b805ed3e3f0373e0137a017fe526d6c0e1e028000400c4b2505e3bcc0317effd3c073de5aa038690959938c3f6870602fff4abf51a286001b8dad73c1cf5f7ca0209f2bb3961cb8ef604df40fd00ce6da45c0283fcba5588e7f4bc064e6c924c4bc642b60056e8271e8956a2918,
   0x2c7cb91e49e327f8a0094bcd9eb2b67173a052f77043d94e4169204929dd35c12aeffee05d6b59d6426c00918015ed8c05c9b8f7a780007dbbf515636b9d4030815dc72f43d07e803abbe2242964f2aa50603717e53dffc1e6801d3f628b28d30b7fc01ebb9daf670bfd7de04ba599be7a342c0a4027f6a0a7e65cd3eec065eb83cbd49a8fe160056e83da983f55f164,
   0x2e8c0b0acaea0e9b8009d1807acb03702ca0545dbbb5a07948426048ad80cb0cb6c198005bec9c21b4f35de86013ed55eaab26d7ee8000d9b3c34fefbad0c02f8852eeba182c8e603d0eb99c1eaa911da06027fc13db8af7ef601f01a5cb2a8a6499c01ce522a2263a8d4a6049496bd52115bd1dc027b31b1c721e1f048066d572d2e75169da60056e83606b24e822e0,
   0x309eedb3d9eb14c9000a70da4ba7fb9d9c4055b3bd529d70a7f3604825a2905edb7ffd205a591ffaf0fc383860120072353408aef8800153ab50783828fb802e943098d31935d4a03f5e19488ef43df0406001fd2043a81c3e8020d19ef54fca2f68401b1da13063cc2212a046e2909281af25fd0027769e1910d576d8c067a39635366d8669e0056e80b4da385cfe98,
   0x32b2afdfc81f089e700b27ea080a334c89e056f6789a82180385e047947de6b91ae3b48058b31f407a792308c0102a0a691b395f832001eab9c4e5dc230f002da53f9abecdd1194041a5a47658f0734d805fc4a2c06e437853a022ab68b1a2158694e019673aac3f9087776044751a51fb3bdc74202742d517350d34dbc068552cd37554473a60056e7ac0d5992a26c8,
   0x34c3d087d0048413c00bf9de7a75f2bca0e0582a3a86603667faa046f443f140b37c1d2056fd2c7ae1748551000e69601ddae216cd00029e369fd0f599bdc02cc141479188a1f1e043e8111f91092a32c05f742c63a6b54609a02492a7786b4d6031c017c507f87fdf3829804200f32bcfcb1d0f402711891604d9f8f6a068e8b4c9db0b4417c0056e715faba28151e0,
   0x24781f867c2d913ac0098f7cbd2ed55d7d804f516c85e07351cac0484bd35959cef2308062a578842c7a64cb601cf8656b9178288120000d35f6c91eb5858035ff2b93957121f6d833dadd7e009e1e67d06130d81743f62644201928d8cee3b368d6e0267aac31f72ecef2805320f9228e3811750026d30bb6416e125dc0616776317463a3fb40056e5c4fc9bbfcdbb4,
   0x26565f156de407a10009b900925d2882b06050cfde71f6d894c6a047fecdb909caafad606183fbfb7cfa5daa801ae0b2445a8d93902000035c884a368afd00350732e0144440d010360c3901da51a4d0a0616a4baf892a4655801a9d714c7b30814a402496564e6d7f8b438051131f69d635a89320267fefc159710291e06298e27d3ac4a47400056e647f3e0136d350,
   0x2842f954f108c5e42009f9b00d7aaed40dc05245977fdf31666d8047a7d54496540e346060489abe69c1a0ec4018d0092d58391206a000150de165c2a40200340c811e1e91d521103844dc6b4e228f6b20618e5a87085a0815401c24dbb37f156a6f8022b4ab596d254212604ef0c4f9b8550e04a02633e69768c4d62ae063b7a316afa6d31b40056e6bfdfe48ab849c,
   0x2a3a10bebf8aced3800a5470a8a7f5574bc053b3391986edd89be047430fa14aadfbabc05ef5347bd9e546ea6016c8bb74903681bc0000431f639576fa63c03313db76bbfbfe84403a8440ae643907ac10619e90d601da90f7201dc08ecf568631790020da0cb9a2b4dea4004cbb65bec09e27584025eb99be2130679ca064c07f0d0bbd32c100056e72564984ac7d80,
   0x2c3a5d96c55f4280e00ac93a3349becec360551686ce64de4d770046d13c610f53b70c605d8a258bf1532591c014cd398d2e94832000008e4360606b86bca0321d961175335455203cc7f0482a605c46406199c5e55da818d8801f6f0080ff6b3433a01f08306017e7ccad604a74bfda94079dea0025a836fc60dd863aa065b1f981ae53648360056e7591f0dc4f7714,
   0x2e411099f4b74234a00b5793e51fd0ff3e00566cb1be567c913c404653466757baaea0c05c091212e86300c78012e10b5af8153de8e000f6a14d35c38ea9c0312adc4a42555fde703f0c18af17be82e220617f411464cf616920212d895dc6617fe6001d41fdf2e222acf680482033bb88304db880256ac198a2d75f5280668a2e77e858a163a0056e751404700333f8,
   0x304a34489732d0b8600bfe41379c2b1e7b8057b29b69361c81482045ca83d715ccbca2805a74d5840a7e1069c011084fce197280f120017b8f26d65a308e60303d4d0de0ca906be0414bd7535c8bb47f40614ed8f2a0f68e568022f860e2469811d6801b8b01dedf436ede4045c28a5508f6eedc20253426a30085bdbfc067475592860a9deaa0056e70d6b68375e384,
   0x32536685043edeab300cb9684cb51b72dda058e36239a412cbe4c0453bc68712b06527a058cfc841f5e29eb1400f46fa3e3d37a0b560021ba39954302184802f5366e0e51f718ee04380d790a0c888c9e06106fc4610256114a024c93c2532644be2a019e4bef19e22f20e8043612052aee61f30e0250858a22954f56c2067e95f12f0e4910c60056e6622e8dde5ed8c,
   0x34599e72985f2883400d8ba1603a87bc3d405a02a8ed09ba64102044a233a8016d42b180571c324aa35743ee600d9c6b6021d1ee1e8002d636960d31cb38402e7209fd180061b24045ad53370106bca46060ab5336976ac9fa8026a315d5510d90cf001851d62a4f27e0aa2040fbfe77da7ec2e64024e214e95d370b42a0686f12e7454909cee0056e5374277d09d3d4,
   0x285e7cf67031f93e400b8af2b488318edd6054a6b5102dceb764e0453b26b751305c3d406025f11f242f6e534017517d8107a5b5ef000031a012659de80800357b1a25e6825d30a03abb662ed63225ecf062f16291d9c430d2c01ea28b74cd8dfde64022aad0232a395cc4604d55a71c67e66de70023d8e0755fde73c68063ac1219b920721b80056e55fcf61efb879c,
   0x2a4543ff09cb9a87600bf16c107a9d90858055fc4dd0447d5c440044d3df4549dcfd56205ed273e980f2954b40156969040f81a7946000702717dcb3630760348e164c35b18534803ce2cfc75a530f1e0062f2b006384e9f6ae02036ab3a5b521f4b6020eaadfcad6bd38be04b2f0b99f8ace48d0023983de575572b6960649a6367c87bb81380056e54fae5833b3428,
   0x2c327d47dcd51377e00c6ee238da29b42b405745eb54d5536ad5a04461fa7eba26937b005d6a8d65360e743480138ee75926b084512000c94296a1effdb0e033a3a5f04a598971303f0adb8f388b11b98062dff8684e1646b06021d9643db164ca0d201f3486fb5eea3acb8048fb6e704a9f26a040235d6b666a28a1be6065721c25c99b5e50a0056e5721e00c3c8eac,
   0x2e257b2b17a1d128800d0461cd4cf2cc4be05883ee7d22450bcfc043e438f8d2717778405bee61adb9f59ad72011c253f68ff702e5e0013d65c84a61749f6032bcf9cd4109c74a104133d414eca20c6ec062b98de7aa030bf1a0238b8a97a6c7e1f5c01d894ffb92885a926046bab7dc0b742e4680232770c3f0de64b9c066325dc82ed7e4cea0056e590d875e850024,
   0x301d4040a23f6da6a00daf7bdf77b50868e059b2798ab576a08200435e333a73d9db36a05a5ec363d6f1e335c010068dc98900ec88c001cc39474224a5898031d8759588c84b02604359596d1f30b56140627d8eff265b85d0a02548e92431bca484e01be9d061be914f682044701e300cbae6ff4022f9b08148ed59cc0066dae3176371dbb8a0056e561c4734a2e37c,
   0x321a1843559cf361c00e68b9281f05b75ee05ac9022712f3f387e042da50176975efbd8058bc8d494c67bbcde00e60091f65c37541c002740f63f521e1ff0030ef7cc3a58ed4da7045725a0e587ea5a0e062273ba6963b77f8c0270747dd42373586e01a54b2e38fa7491b004221c369368031bc2022dd87e2c2fced24a0676d8890b68b41bec0056e44e95c87c0a118,
   0x341e5f166e493f8e300f329de087757bd2e05bcabda7614949e5404255a6519269e8f54057059281906b7528a00ccbc6a1295a5ee5c00336114079fee0a440300266b452024f74e0478363768860fe7d0061b73751b9f8424f6028cb053a15698a898018c8534136d0f88dc03fcb7f0e753a1cbae022d0c54dabc6e1d48067ea9a4b2dd492da80056e21d2860eef70bc,
   0x366c96d5c66b3c94c00febffb7d1232791405c95fd22f6d40f9fa042106f87f8ea6a2340550a312bab50a0b4200b3985ae709a3f7ea0041ccedd3479b7a4602ec06735b69529cc00498836f84b6dc4eaa060fb40851a96638ee02a7d0252656f2744001708b6890d43b278c03d52807f01ff2960e0231a298b40dc1807e06870a2fd29dfdb4980056d8ca8903c2670a4,
   0x2c5e5b9bb4d8854d000e3df3d9f26acf4e20597c91bd36c25902e041dd94397a2f1e15405d0ea1cddc393b6500123da2d86ec9b8e7c001321f2cdfad2cc3e03516cbfa08c56ada30417a514a55e564f22064055e952df9a044a02478e73c5090e440201f49778581875e7f4047414d5954fb2daa802119d3ff24d1c1e18065245c48eb12d59180056e56973228bfdedc,
   0x2e5196e43f34c47b600ee10045e7dc1602205aac343c3e954e9a80415c1fa70313252f405b870c9c02eb9e8b201080c2693792d1a70001b87c0631b4343e203432433424e9168910439bf6b960ce05df2063cf03bbdad449dda0262ee694aa6ae152001da946a8edbab4f1a044fe1010cbbd3d68e020eb69d8a4455e9c4065d28a357bc9d24320056e50688227f0afe8,
   0x304b8b734385380ca00f902cfbb21e4ed8405bc3235497ac27c56040df4943163905482059ec54b0ed81a825400ed8405b122d60db20025715e6280ff5ba403346b7fed9c158842045b0bc559f271f3820637d913afbe947184027e46f8cf9dd7d7fa01c1157709c3bbb7fc042b6f422affc0ca78020d098cb6a3cb8d480666ca2e9e8068e9420056e40ed60236cb608,
   0x3257f5d055759860a0103202ea1c69f08c005ca9dc3d3d376b6a40408b0ceed95d59e220583a72f5df172833800d4965363bac4a2fc00308b49b64b5323dc03236ac3235a27934b047a39c9584dd7c194063000202c079fc8540297cc72adc0dfc21601a72b384f3610a04a040767a489cd5b978a020ea22e89676bd31c066ff1f7e50b623c5c0056df24e2af45627c8,
   0x34f0bb9cf0e227e1f010a9f7aaa0f76416405d4acc7804f6be248040a6f5fbe9dc9bc7c056166430151a8fd7400b9fe0270d704932e003e6b5766a883207e0308a922cf03353ed80499744b223dfc770606210c14553496f60602afbb840a9a0502c601863225b43df7b41403deef45e68c6b72b00218f409892e0fffc6067bbf8c628f4b9ec40056dc2407091a6f49c,
   0x371fc5a4c8bec57450117b8c6c5594e71e805e127fe46f9349d40040464ef2acfbab62e054270a221c4c9fc6c00a278f084c087d5e2004d92a690c880ea0002f6ccce0ac02e86be04b911d0b0f8add39e0615a085c3cd49f29602cb5e09fb63cb6ed6016c9f10b95155763403b842e4d055f0e971021c472477f1287c5406823052956b05536e0056e1ce656023c7ffc,
   0x2e349e459ae9ab2be010b49d81370848cb005c86872aeb7838cc203eebb3859aac830cc05b4741268ee9513ce00fa00274bc37bef360023cad7fd33b385f2035c614fa0012fa36c0459db70d96ea8d940064ccbc4efa7a75e0c0288d6afcf8d4cfa4a01e17f2762004cf5f4043991ea2aedb2694401eccb0e5c9ddbd97e0653c7102c0461bd8e0056e598e3f679a9f8c,
   0x3064730116c6fbdde0114fb3814ddf8b39005d7ef0abec4c9a74803e9f067b99dbbcc44059818ff3ab24116ba00def0c750d44cebe2002eaefa56f25865300349b79c73324fccbb047ae863ccbc14e1100644ddd932d9013dd602a3416a3959380c7801c53d050ebfed52ac04139e67d63fde86b201eebb67210e44dcce065e82d79c049b8bf60056e2bdce2587f7568,
   0x32f6cf25ae742b70a01173190faec6c853805deb7bf85364ecf2003f178fa628df672660577cc814d194f525000c58fe29f823848520039cbeb7e51c40304032ba1776ba7d1cdc40495a74e166ee6c314063518fb9ab043190e02b52710272a28d22401a2f5881c1ce0b21c03ef2091fd8e5e2ce401fd223f20d645f3f6066cd41f0b665b59f00056da049612a1bbe5c,
   0x34bfc9cae299f65900123afe92da8d4cc3405ebb86299f0145e2e03e9b092c518ddefb0055e76ad3d964bf69400b09f78b1c1c9abf800463a8b98a1768504031ec9fb8ee136a30b04b250678937b81d28062d79bb352e54dfd202ce96535633a0e332018e14d646c927f32803cdc187f57e3d3f5e01fd08d0014fd13ea406720c5a82ab084dde0056df9f5b4f6eddefc,
   0x3699cbdee03a0f27e8132aa24451e24395605f9195092b8decebc03e009c6912db53e9e0543243b982bb299ca009b9d6c3aff7036100054cfa9d67843c93a031271c500ebecda7304d094235a46b833a00624dba66c16ace07a02ea8c5f8cd33897f6017977e6a9a5508dc203aa2a5d40e5165bbf01fc6535701ad2b5d60675c67c4788aa0d5a0056e2fbf1e575cb688,
   0x31d3e65e96fd7fc8b012c43732b8764204e05efe51265553cc89e03d2383cf5583edecc058148051e37f53f6a00c744739c56cef9e2003ca2aab807699cce034a2edd6d616f6bed04a0f8578feab5a3d2064592f70f53171f8c02c92b2240febc656c01b6e53c0fd6c97d6203edfe63c0ad4f5d1401dfa2a935e30c5b2a065ec0b47e4f91a76a0056e47982e2aca64ac,
   0x33d09295f47f63457013c7057a4b022af9c060030ae983d10070603c6cf659b35d91f5005648246312d9bae7a00af2fc5c19ade70be004b65ee2fdb69035c033d9602f97fd44a8e04c30c3bc3744cc3b2063ddce17436e9539802e83a01ebba8f0a6201a03a2f366f98049403c726726e1d5f54f801dd59887831935f8e0663a3795714ff0dec0056e5047396cce236c,
   0x35c4ddd6bb7190133014d907baf61f86860060ef99370c9cdfa5603bb39b1e45bec732e054737dbfc9ce22cfc0098e226bd57ce0b10005b85eacea5274a1c03316bbccfa0f09caf04e3ef6712a932637e0634e5cc6c0ad702e0030722e363110b4472018aecb79e149f295403a0b8d6cb1090b9a101dbbb11356bd08e920666d6aa78c7d0551a0056e56966ee0019bb8,
   0x351bdc02bffaaec10016b7707091886db0006251e936d83d933f20394b2ebd3fa6bea9f0547a814308f50281400957d46830db4e13400656074d8eb7d5704034fc2805d49ecfbc104f9cf0c0de493b7840642dac9e60c5e1a520327226d6a116c94ba019b93d8b33abe65300393796c8680219db801bb4b4efa7901348c065674e465205b2fa80056e3e632fbdeacc50]).map icosaRowOf⟩

/-- `s2/ahrens_beylkin/ahrens_beylkin_7512.hpp:13-7526`, `7529-15041`, `points` and `weights`. -/
def abGrid7512 : IcosaGrid := ⟨127767551177003800, ([
   0x32035351c683c291500322f1b6d6750fd06047e40b1bf95f2f66a05564675072d85017e0589b2865e9bd21e8e01a38da37b04a4c0fe002c0dcb9cb872a30802588506efa5391b94032a20684238b5e5f7056652f7fdacdd137c0146f1e27ff07bb1dc01a9aef34bb383336604dadc72baaa1c1df603597167b68d70431e06712a8bea658ddf7e0056e0015bd1d8af1c0,
   0x33b11f1def55fe5d10038da8f910973f8740495948b01e9079564054d8433d580fe276a0577d6cdab6062f4e401854f93376a3f8fc6002e16423e7ee501e4024d54c2600becd4ee034c7dbc35a3f154b10569b44b7eba1e91bc01604e32640a027ede019013e089f4ce9ec004ba95ebd549448de20351f0d085af589120067fbc23fb0c1ba4640056dda0a2317349e50,
   0x3579336fbd71be534003f358dc16c3f845204a831b8c7d1a1ee580547e0541e06f83d7405635a3676688204d80169f69910af04747c0032baea2b7e190fa6023f33295b76d7892a036bc43fd0759ad4c085688c0088939d9c8c0177900816f1d0fdfe0176713ca69d2b0192049a9849c18ed564d6034f2b9207bf6b10b2068cb572097ab02bcc0056dbd4169288d2ec8,
   0x29154c2bdf6a64b90003016ef910841ad960423b4f84b83cefe3e05591758f15966b89a05e25aa6173018f512023398f78727455af0002b7b24682503d4de02af14facbda70a2a80298c9b4f3b5d3fb54056528164ffbd2411600ebd381d74ae8bab2023834c2b00a834c12056b7a6dfb602b9e7c035be7a8a69ebc4b9886196fb6607f4bb6d80056e21f139f856fe88,
   0x2aba0c6d7e15181ae00301338220a57e2be043ce936503a5ca8600554a08a57c23b78f805d4e00b50e3af53f802120dd637678b26440026fe525ae1fafda802a196a896901d4f2002ba528a3ec79a9418056c673385d0e1707801008aedcebe6da608021b22bbfe8fe7f2f0054e6c1eb8e37a289c0354aad77577a0f278062e2d25cb9eae08ee0056e28a54efa083c2c,
   0x2c642ca123717a47a0031adea4eae6b0dd40456533ed4b8dcbcba054eda253eebc62db605c6614871af03de9601f0ac4043fa5284ac0023d07265cc41f1520294b297e3ff84ec6a02dcb1f329517c4986057326c63ee853be700116c7165e2734ae0c01fe89b82cdc7ba12e05303868ba8bfa935a034ced71c5438567290641d0c93746b8ea700056e2bab03b7ec4a64,
   0x2e1707309c42c30540034d15f33c1e44274046f9b0c95522f79a405481244cd7fdb4fe805b6a29638dac7ff2601cf99e7510098ac1c00221c971afb7bb7c20288175a903ec2419a02ffb4dc5dd2e160e005790b763a54f92390012e5b08d3efc1316601e24eaf69c7014f380510d9eb126306f45a03451831884f34d456065450b6867420e1f60056e27161509be57e8,
   0x2fcd7936775451d740039833b05959a3598048888f0372a1a5eb6054046cb19c13a6a0605a5d269c68de7527601af2eada5af60aa2c0021e9c35643130ff2027bf909efc5976fa4032306e026569bcb0a057e0f8f87f518386001471618b10f436ea801c6c8255501e7cfd204f0a1852bca379a3a033d2d4e1d7c9354db06657320748d6ac8bc0056e172b5ed08d9db8,
   0x31852085ef07cf9bf003f94f1f632b0935e04a092b479f2e5936a0537d6b1fb9926acd20593fc2dde6271f4b8018fdf128121d0406000234ba0c24c04bffa02703484f837388816034616bae4781b3cf90581e4b5b50770c852016081ba5fe100536401ac2863b5087c13c404cff00c9b33b598d0033597e856d64bbcc606750ccb992e22403c0056dfabff8528b0614,
   0x334905cbb94c3c17e0046128be2335f194c04b5ace717360916680530c3a09fae6e9e6a0580694a3bc0a00f160172aee699c64166300026b916642dda218602631f3b4196152862036749d3dd9f88fdc40582d68d3fbeb8dd34017909629f05f91f840192085c17cbc65df604af526b11f65144aa0330a323ba5324c2c0068313ecda868db4d20056dd6a349a773d808,
   0x351666b0e704b1c3f004c79e5620535b8b804c70577362c403044052bd243d72160ccde056b3d9daa05937bf0015835f8026ac6a0e0002c243f980dc793d802545ae82facdf34a80385b7eef196286fd30580796d843eac31ca018fcd1bf1dc1dc41c01788b9dcc6234c5c0048f6e5346bae90d08032f0b16f9380cac6c068f7b2030efb6fd220056dd8ac0d9e2ae510,
   0x20c590191a5e2ad8e004d6a3c221a33cc5c03ca8568d35b76158e0544dd7f12fca1f8c80623b7a2945ebf830a02c74dd8fbbc8df4b60046b45b3375671c28030dc543da1b094f660217349797bbc17ab805566ef607b74d5dbc00addd292a72f34a2002ce03b9ea615a8c8005e3f618a4a510c02403588104d6480b32d605ac064d09fa2e26c00056e1fc2e61ac51b50,
   0x2230dd6491103cb3c004807e880c3d6a80e03e663a758fab828ae05424dba3eb7d12c80061ca6b8dcfc5ad36c02a3bdc7ebafbd7c86003b6e6870eeff3950030152068162477b7a023770ce5add57e83c05634a326058fcb83e00be7574ed8bcd499402b05747fb8494eb4405cbabfa571ea85ba0034ef9a2ca9195e7e205c554c6bb549f552e0056e163a7f0ae1c90c,
   0x23b71baf20c6c945000435224bf8569494e04007900dc58ba072c05409c01832297ca880613559a6f9ce800660280fd24a9896c504800321db7d875142ce202f34b2452c46749b40257483d815d64c8c4056da6f0f983e502fe00cf3a1dd86fe4340e029231919099c1851e05b23c07ad72423bd0034786184d0cf1d7c105ddb867831d67d1b40056e0f939bcc1e5d74,
   0x25514d4b941566e14003f5edac40a194e9c0418a4b55765c3b472053fa469bce84c5390060809b19a9eacaa88025f6520fdfb4f785c002ac1d347c996a80402e40bf1824adbf92402766f3e5df59f8d7c05759bdadddd18012600e009edc2d17074e0027402287a3bd21ef40597ffe8928fa2d0580342023137a9a0e7eb05f4ec8437f02608020056e07c3b30909bfc8,
   0x26eb72ffd32cfe806003cda66ff8eec1c720430524f1295b60b84053dc2dd81c3cbe54e05fbdfffdfd873bd80023ea4ddb93fca34cc0024cd882d98fcb2f602d55dcc030975f25c0295a1368820387c6a057cb9c2dea723e32e00f1c33c63d0c8be7a0256b1bc8b35b99e48057d33f06804b781d6033c7294517081692b060ab891b7fb97f0d20056e09c94a28248c00,
   0x2881a5699fb5a1730003c177bb47c5895b204489d732a41f60efa053a1355f06878db4605ef395b1912661192021e0faaa7fef4574c001fe29ddb9a0ac02e02c7f43bf130d4a74402b5bdf223d002f7ea0583ebcf531f6fa9ee01052376297e16b6be023a448880e1422cd0056189a7a8c2d3af880335b8ff5289412b7b061f542e3e4c84ea400056e166b95b0e76568,
   0x2a20f3a435ecc4e5a003ce38045c7a1364804616ea7ab1448ccf005350b101f0675c82e05e17ec4538cd1faec01fd406a83657e03be001c2473a32cfb8d3402bb05a9bcf689313402d70b49501324a36a058ac62bce5573ade8011a368071e35a5a24021dff77260023acd205447891bc966c5e20032e608bcfa991a87f06331d1cedbcd47cb40056e2344f48c393a44,
   0x2bce7639e4d345698003f1f7525eee2f4c2047a4d794092d0bc5a052f188bb78f2c54b005d2588c5f026d688e01dc66370ed2fa3b0e0019cf612fc685524c02ae1b66a893665d5002f946f9d88f39cdcc0590c835e7f98f86c40130c03f93fb6c27100201b64b04fb57dd840525f370bb6a5ee8c20326fd04a21be4901f0646096a1bc413110a0056e2811c4cf108678,
   0x2d85e035c48dfc27c0042ccc74b01087a280492d676068348ace805285716fbc4d8134005c1deece9b5cf667e01bbf45c96eba3844c00190103482b68977402a14f195858edf910031bfe98ff93a274a90595c370a1e53ad1a201487ade7250c7445c01e5c02099c143670005064ff42b1e24ecd8031fbc053913274b620657d0f225ea36c0280056e214cd73c012008,
   0x2f41fcf71621adb320047da8766f54307d204aaa336549b6df07e0520eddc35b0de91d205b03e1a6b298f1040019c621d5c664272020019c51d8abba77e6a0294bc06f5c0e81812033eb06d26c901668f059993e3c75160b2cc01610bb902f92b6ee801ca7787389fde13d404e5f99aae08850c020318cbfd26f70374a306683477adee6282500056e0dd97f8aebbb08,
   0x31018373887af9f0c004dec808e458d418404c0e41e609fa29208051988e7351ff62074059d74aaf706cfb600017e4538d69fd6cf5e001c328a372aceae5c02880490a8ee72df1a03608dba323f328071059bb86085f237aa000179ba0dbb6c87406401afff2f2dba95628604c56f497bd2f221020312e717e2a6671f950677106ab961ae9a120056def5aeffa82448c,
   0x32c3302f536da15340054342c4945527aae04d40eeaa8aa776fbc05138e2f725d3e1e12058980677e4aca07c60162a6f05264cfdf6c002061168f23fa6758027a57f8eb3232827403800d9b1636580a07059b3bdd4d7e141042019113665b7087d71401967a060c8627da5804a5a2749f9ebf5faa030f8202bb5e6c0b2d0684407f3ea9cb8dce0056dd9ad253f707dcc,
   0x3483f014c21004288005b8bb5b2821962b204e642b15c96520400050d2e75c7d6f21a260574c3d961c69f247001482be9a55c7f04a80025e28469056fcd2c026cf2f437eace8722039f123fde69a338240599aae5a39c3ea54801a8c89ae93dd7d12c017dd51aeed9289a2e0485a60018b4f94fe6030c895c4a15470a640690148c480f5a1e260056dfcd85baae3de08,
   0x36461d34d2fad00890065e3489e4c4ce68204fb3d8d67116ef260050304e45485f9714c055f508b85cd503924012c5387fd52c973d8002c74d04a78fdf2b20261d73947bbb31fa603c14eebef6dac270c059960754a9747835201c455c2d52c82e5120165c20051261867a804633b528f37b5812603066f823a1feae1ca069ae5d6df397e63ac0056e1c49349934c758,
   0x1aabd8788b781eea40078c8ef8d9e7c00bc037f820908301395ca05291f5ad7cb9aa7540645d168b21661c33c0342325d81cb6e08f3007122c317e0343100035b3dbd6356f3ca1281b71debc5c46d6a04053d25eb8a96ce0ada008d483143b25db8240349d889f789b5e27306346c35464923d5820356fc369f50fe7adc054544c9039dc446e20056de34e00f834fd30,
   0x1be6676bc9525c5da006f0a41d3a3a0cfbc039ae85680971150ea052961b404fabb3ec20643408ebafa5d4f26031f304f596e8b8b980061a0a2b8c8f07a00034eee35b240141ee201d41a2e1bd5c6db08054c7f0a7f160ca9ac00992c5e5d0217de72032c99ee74493be1540620ec477d0385167a034da8e37d1d48e37f0560ed6fa933e28aca0056e06c1a0355d8728,
   0x1d3de8b50149fd3980065f0b620862dea6603b623bdf2f6e536d70529c30684592661de063ed930b7b71e652802fb9c6a8a9184330e005348ac7bcf3c90d603416d4bfbdf6260a501f20e55e178221184055a9adaba739a11c400a60fcf926837c05a030e44742f48758f0f060bb058eb2031a23803452cd04afa67c485057c8a299af22191620056e17690d2f509350,
   0x1e9b455726b30d978005e6ae532f7ff26d803d20909d8572033120528a5bc3448f7d3fa063990a543cfa315a002d7ccfb346090fb6e0045ff58f7fce2f5c603349eef9a69b82dd20211378cf1751917f00568947fee4dfc438400b4abc7f3f61928d802f038876f5bad2c8005f52a3d18c19805a8033bd9635d5401cdbd0597522b30422deea20056e1dc3036d88c344,
   0x2001a3627a2fda89c005859109dbe07a06c03ee1636a39c179b6005267416abd0bfa036063325dc7f60fd076202b408309604a28c6a0039fb8ceeb17b483e0328225240c11a96b702313c05a437cf7b320575f369d7721dcafa00c4b528b5efa8cb3402d265b445112ee49805dd693e83b111442c03323acb5fc9182af905b12db2730eed3b960056e1ab995dc372d78,
   0x217aab338798b47ae0053450baaff01def404092d304a5717f17c05244c7aec2697338c062afe82ab883c38fa0290c3b464b5037b5c002f9c777741ebd164031ae6f37a2954290502515d0d10810d43880581a768f7eb2f3cf600d56d0ce53b19aa7602b46c48987219a15605c483d7c9d101a9f80329aa41045668069705ca1d105a1fc50c9e0056e1036dec0e17b58,
   0x230590fc04eb41afa004ee8a4942421b99a042226d24f9d41f5da0522f755627da7f95a0620ecca8c9d225aa8026edefa970899c926002738f149a7719372030c78d444635a2cac02708fcd5116cc2fc2058addc63dc2701be000e60328bce6c9894c02968eade18549d6e405ab02a429bf121d4a032325dd4b95d1f9de05e1c18cd5bcffef340056e00246a80f4f754,
   0x24979959bb6a0e860004b92cadc4e5b84ec0439ab2d66ffc1f97c0521abb1acb515d3e0061588169fc0e4c5b8024e404afeb8c3180a002087be74ce0f327e02fdbe469fb156323a028f1ec7822b98c1a805925beffaaa5a180000f6d650ff6fe72bfa02794b5766390f6a780591152766489de58c031db768f5e8f21a8305f7fa443756edb4f20056e0133dbaea84c10,
   0x262c076587232542c0049df6b63e872cc6c0451c77f0474879d52051ecd5eb662fed0ea0609621379945d973c022d94ce396cf2d9f0001ae8f8c140b3b33602efe4e4011ee663a802aebd3102a20d23860599c08c033a98d1e4010953dce95751381e025c8b40dc14b1f32605760870548a293f2403175fe0322e0f30a6060d3842de799c6e3c0056e15aed525badad8,
   0x27cafc7fad1bee1920049d1dfdcbfc4e9be046acb4ab254a32826051a5a17ba46e06d3405fc286890a359e5c2020c5c2e55631aa12a00165fc73125fec84a02e29dad910534cf8002cfed71d9d5fcd02e05a109da44e4e464da011dce77071cb7f070023fce4700fce0c29e05595902009b05f14a03101ef0fd59ac18b70621c8c7903d99955a0056e2781dfa87526ec,
   0x29789a56418c3d4c2004b3b7d244097f3de0483fc156d81b3648c0514e9491e7e4321f805ed835065f4cc9bc601eafdcfafe55d1516001338134bbb70c0d202d56232add77a773a02f22b4dee30f695e605a78e5b811b9d16280133d78ddcdf3a255e02230139886a844822053b22574087d63bda0308baf25245b73edc063588c3afa20c86840056e2f2f85c00cac34,
   0x2b31eed7df1826cf8004e0536784642f160049cb943c2475c12ee050ecf561c11f1846e05dd72d0d75626f92c01ca0c127e4c4211200011a0f4a95f1969d202c81b6c733e8002f60314d6262bd460ef1905acead098dbf99a52014afd9d8f488b7cc0020670544d336b8044051bc7b8b14b128ee40301a5622e7b0b8a1406482bff01fb63975c0056e2b72dbd6dc9808,
   0x2cf1a311f75f5f0e400521bc67487ac329604b4933bfe379c9be60508393c2f7995a54e05cc232e3523b35b5201aa06033360f427960011a83a61481c805202bae259cd4d758de8033763051effa46adf05b0f59c4242d3cf1c0162dedb8321cf1c3801ea798f46a083f24404fbba63ae76c1bfae02fb13c6dcd43b887606596fdd515348599e0056e1b5e5260f362a0,
   0x2eb1bb94c924844fe005751f7133cd5dbc204cb12243bc494e232050169e809827b6c0205b9d3699cc19f197e018b6e7ae85bae8ff8001347a9facfd010c802adc8c5d3a08af540035933208ace8e47b205b38b9c602bc74374017afd335a367af2fa01cf78c800c8b45af204db836bc9e9c87f3002f545339e21a3f38806691f7168e9264e340056dffeb31404f67d8,
   0x306a92c8790a0cbec005d555e464765ec8c04dfa1042261b9b93404fac8b3a65b4a84b805a6e1aaec2d108d1a016ee1b3a771606418001661441356e5a54a02a0da6e56168c79a60379774f145c92b51305b48af06617bccffc0192a5ad595ab55e7e01b5d5cdda61e0ab5a04bbdd0a707864bece02f08e784f91f8146806770d1cec5f1a3dec0056de4bc31dedd71c8,
   0x3224c32af94c1e4580063f288eea4d843f804f24ee6b07fd2ac0604f4a242e81662ccee0592fcf410fd8ac54a0153fec7e26621a336001aee6d3a975010c0029392e22344790942039870aa168fb16dbb05b3cad6031eda69cc01a9e0b90eb938d530019d02e39673a9be04049c6cf5842cbb927602ed38237562fa7df00683948ebc384b608a0056df2ec708ca09bb0,
   0x33e90c0ea015b1f61006c914d29cbaec08c0505ec62aace44c1cc04ec966d1e21b85dd8057ddecc33564c9a980138a7f71a20284fde0020d536fdbdeef5a60287137e80c4115b2403b91b5630ca1d764d05b2dd1890f83a933201c364fecc2e49b7720184640d462de8332e047b2f5af8c02372a202e8d205959527adf6068f2634ec92131fa40056e1ad23451218ed8,
   0x35bb7eb539f9edbd88077d2bc7367113dca051b2f3cca96b6a22804e1dc1d973150358605673a2fabffa09782011c5b6f556524709600285129d8d51c6244027bb0514308c7d54c03dc5cb10df1547e5e05b20275ec14fac56401e023cbc70de91cd6016bdd01eff71933b2045766e058edf1f5e802e2b7d5220c3464120699aebf856a1cf0180056e2be838972b13d8,
   0x1c4ab7615f64eb6b6007226fefb6307d53603d57a6416d97a8a30050b8412a68f8c6b6c064eb9229563d8169c02eda192c60d464f720048cc27e81f8d0cfe035d8386b468f5f3e08207955415397064800577c8c7b91628f9d800bae9f1229b1d7ec40316fc69d950c1265006083205ba4ba35ade032072bcdd1ac84ae3057da1dbe10b1cf59c0056e1f6fa7917405b4,
   0x1dae36ab222e1b1e0006b145f837a27bc6203f1abe6cd42193be6050a01d133272d71980648ff2097c2950efc02c986fe5c6a96d544003bd840339c7769d20350b6e53eded2cb5e022750e1b5aa4966940585ab67868c4578dc00ca278c2480a6a5b802f8c31dac484727d405f10b59052c096b720316ef23d8d68248db0598511d240b5cad7e0056e1fb3893ed9a57c,
   0x1f1f2a2ece2f204ba0065454ad8d4ef00c2040d85666e3cfd053c0507e8563107ea2ee00641d9ffb676f3343e02a5abf70ebfc0922a0030589f84ff0ae1620343c2afb2edf82dad024794d8017c2f1f960592773699770b691c00da816b16de1de69e02da98a26295a4b18a05d8aff2661e9fb0c8030dba65c7c4acea0605b21121c2e6fd341c0056e1824987ae579d8,
   0x209fb6b99744d14aa00606b4285262ae1300428067bd35ad06cb4050601ef62e93a938006390603b98a0a82e60282b6841bcaee870c00269892192fd66a20033614ab62524b557002678aacaa6f406e64059d63e0dfda824be000eb4273102cbcd6d402bc893487c142fe1c05bf7a8cdef9021cec0305cd59cb62f6a64605caabd059e62100340056e0c17604329dfbc,
   0x2231acfad57b2d48c005c522e4c5e2c3d960440dd740b9362843e0504aa950634aa96fe062e6c7aaa64cc55cc0260ca1f7450c37cd6001e9fc5b27ceda2120327620e1a650e98440286eeb380b31150a805a630e1737147ae9e00fc209ee1b2662650029e7c880e3202185a05a586f49e31bfdac402ff88b709028b83e405e22b6e356a231b3c0056e0d597d4abafabc,
   0x23cf38885dadf9042005988a5e95543e934045994056abb8508a005028d3ce63f5727bc06228b38d0fb9527d0023f02f7990ce72e5e0017ffe862cb6e5c2a0318b743ddf2ef09b102a6fcde8f43aa047205ae1f507631f728f6010e3752f1290964ca02808bb51f96bcd3d2058a5faa129f62ea9e02f95344d2f51f8bd005f8c4a7749cf2305c0056e207ee2a96dd140,
   0x257445417813071d800588802220e5493780473246d1cd76a2f7804feb6720b60a870e00615a7b141585b78fa021cdcba871388e15e001289dd0e70d92f68030ad3188708c60c7202c8847eef081149b205b5f4c1f68504acca012251af4eea59774a0262dadf9ab104456e056daf78550099b1f602f21c7004d7092826060e7e444bda28a0580056e309de6f65795f8,
   0x2723ddc5a000ab20a005922eb0626cc106c048cec54df2ca1887a04f9ab185554763c0a06077f070918ec23cc01fab4658c72a1553a000e79298af58c95fc02fd455732e1ce343802eb0c91382166f44c05bd238eaea711e052013808e38dc4441e7602455e2707a3e0cfaa054f97d6dddafed7a802ea8de5fe3c8dbdbe06233ad258232dac1a0056e3744bf209031ec,
   0x28ddc62578be5e424005b22f1e1d08aa60c04a62cb3581a434d6804f3f5958462dfa01005f7f470bd3699b53201d9159357234ed326000c0020c62feb09a202efbac7c2a93a5b3e030de7d69df2eff2d105c323dae66a8948b6014ed03941ec446f740228386472c3ee6f900530720d6d514dc98402e3512695f6dff3c40636c5ae001f38ed780056e33b39db57708c8,
   0x2a9ded08bcc8dd4ee005e5b517b455419e404be4f2a1ec3db44ee04edf1346f65d905f205e7248100a0a0634601b88c9f9457454a9e000b319cefe240e51002e223379f880a7d2a03306e4805f98c698505c7aa6074f5eac80a0166242c32483229fe020bb6541fba587f720510b79d80d2ee658e02dccd236230eb72bc0648e3c3b1cbca4ae00056e22e72c7aabc330,
   0x2c5bf48977d9fa81e0062a277c1b480ef6a04d4dd73544346997204e7d15b81df2a677605d56bc1cb9596317e0199af502f49543612000bfdc13a3721118202d4b19eb0ec2d20e80351f06e5c73df7fae05caa737ce52ca21d0017d7e99b21c7d928a01f05406b6c6b42c6404f10e29d1701d249002d72b751767aa238e06595233f9c486e87e0056e045d1e75898074,
   0x2e0c74d876b5d94000067dba94d98e1a83404e9a6ed0a422de2c604e18d3603c945a60205c35d2c62cc0b9588017cf75ae457bdbde6000e2d3ba1d2f79eec02c7dc3ad4070325520371e2d20132d0a3e705cc57282956a2c6840194778dcfb73b81b201d6a5c8901da7c72e04d226ba1ee2b01efa02d24116629676e8c60667d78831ad8988c80056de78d78a4b83828,
   0x2fba5ec70ec2c3b8c006dfbd667dd1a12ee04fd2a27c5aadf229404db24869ba623fdbc05b097c665a99c84ac0161a3698a6f960c8a0011ade8fd806b9ee802bb3701f128cc979a0390fff304a7558de905cccc7a99bdfbb7ea01ab7b75e6cd60d9e601bdf156f4cc44682604b3521b694d14553802ce029448a2c0b9d80674f21384f31920500056defda5aa906c91c,
   0x317cdd84799abc9e300757ece15c18432140510ac2e26af9917de04d4032b8d7870f474059c1632f3949cf3ca0146196e251ba5065e0016b3fb3018ea921002ae38662cf83725de03b12e63fcdd0e78b205cc2e8a28646d19c601c4038e7a6a99c25801a4e4410ac43e8df80492c20dd160a45be402c9fc0f271a8749de068152bed7ca200c520056e1720b285905cbc,
   0x3352eaaa9d0ed38fd007f33e623870657b80525317fefc349cc7e04cafa16c1d4fd77960585ce8b5cee6642e00129ceee4e54dadc22001d5fddd086e5c08402a1a5d6a417829a9803d378c331efc4fcaa05cb18379cf3f5deac01df34c2e3ec457498018ba2f6a154fb7356046fcbab5a2bdf340802c51282543f124888068ccefbd53a5d5c7e0056e2ff1e975dd8544,
   0x35355df5db9dfeed4008b1eb129df69e59c053a3ca107eed7ff5604c021bf225f1c3820056df4e4c433831afa010d63cbb418bad43e0025cfcfa18ee201e00295b6fb11b503009603f7416436515f0fe605c95c25834723380c01fcafd5cd1fd001360172b2ad3c6942d064044af096eee7c2eac802bf711603c66ae3d0069701c54df00a1f0c0056e3320f019a32d2c,
   0x1e57ef9465873300400733f20557db3bfc8042d654edb4204a0c604e8d0cff4b83be26a064ec981637171a83002966de75af1a2e4d40027de27da5c794d84035eac06dc913b7277825f7620ca4ea4c67e05ae28eff3cfa7eb2800f1e6dbd94093d5e002e1cedfd612dd571805d1ec5a5cf313975002e965735867b8698605b2d983f39c5683300056e175a427e548634,
   0x1fe32937f37e9bd18006ea0d70d7c1d61e80447a047281bc5204404e711eaeb7b96bcb2064537c95ad36a586802736e3b2f14aeaba2001ea6481ac578a65803507c058bf19db56e027f9b1b87d2d3f48605b87501e6cd2597460102e9f4668353df0602c368ca21cb53673205b8248df0ad1fece002e1f412d3c2ffe0fc05cb5597373971dcf60056e12cb7c79e620d4,
   0x217d44e369ac66a80006b05f3e942b8299c0460e99e9a13f0a98404e5439071c17d69e6063a190d5b25513d4402510b22a35b3e1b36001702aa4ed7b029820341c266680a1f61fe029fc3d3e591fa933405c1365fbb23b961e001148fae0c8db6eb7002a50e6c3dc6461b50059d651330e177f1b402db6d152d66b5efb605e2d0942f7784136a0056e1d7e6f7b039298,
   0x231fbeba29a0775da00690873a5ba0685ca047a7ee75619c64dec04e22a2d0c5626dcd4062dd6c6c9b9227dde022ea766b5b65e43540010b0e31363f917380333829f93153f088a02c0ecac40b72b58dc05c9727e3cc95846d20127d32f8d1fd57d8e0286fef7480c6bb1e60581531e7eb04f2c1c02d46bda3e40c61cfe05f94c79861203432a0056e2d6b106e4f0bfc,
   0x24ca53916645123ac0068c1f722a1fd1ff204946eea50a2a63d0004dda8544d6d2a4fd806206c1c42679105f2020c411610b5cc112e000bbcfdb236061f2c0325d17888aba4348a02e3276cc68ad09e3405d12f816dffa0b2bc013ccf4d267ac274960269460f8121c2f98a0563e0b33addaff20202ccda672c376a8578060ebaa3c1b1e68cd80056e34de6b7bea4724,
   0x267cb1dcda554e7d00069f274e9c6d594a004adeee8296200d38004d855a14a0900c5860611be8b0defce7a1201ea6af9f16c817078000856f812ad50ff2a031854651b58ba075f0305b9b8828ab7348c05d7dfb8d607e78f4e0152e9455fb167d2aa024c0676c8860605ee0545709cbb1d1a89b802c56e00277887b3440622e7ee970d17b1700056e301b0c11c9b964,
   0x2831c3bc7174c3644006c51364f694499c004c627fd0afbd9497804d2bf34af4a700fac0601f1dabec2bfa84c01c9e5229aa9e22e8c0006964bb65956341e030ae67631ce1a5a760327b68eb2157d65ea05dd147233588f9b30016961ade4f7457d96022fa00d33b9d0942e0526ab71c0ae75fa6e02bec247f15fb8da1e06358a96dde85f40ba0056e1aa2cd06b1d380,
   0x29e049cbead666d10006f918d78fd1c70dc04dc633b6b8104a6d404cd50d51da6ac7a1805f16b8f4bbbed3ebc01ab75d71da55aaa0200066aad7870e8031202fda081e85b1fc80203482844594182645805e09b5cb8c6fce8ee017f714e079402a9e602149cb71e318f17cc050867c481925ca6f002b938f341c9cdfef406465775acc9c720ec0056df71e9397e525f0,
   0x2b8482c6127b9585e0073b9be9b473dfe7c04f0f7f053bf90650a04c7c739741232359a05e0741bc78076691c018ef6709e724ba56600079af7e0e103cb1602f0d13f8669ca80020367395fc82f05f34f85e2d733957fb9023c0195364d5842aa302001fb153758d885d8cc04eab81399ef31da5002b46b6775569d66c40655628eeb73d89aa40056de9d0f6fbf8ad5c,
   0x2d3424b3e319365c000792769a8df595d1605055cd350e43513ca04c1869fe1a8ae9e0005ce3772bf81fdb2ea0172a7065113adf0e0000a22e612f83510ce02e402418c036cf7960386e3a6cc763d337e05e42c7f05d47ca96001ac231e877e80249801e1ab89e6fad23d2804cbe0bb1a7962e01202afbb3f4e1940287e066386d8562ef9b1ca0056e049cb3a28db9a8,
   0x2eff6a7ca560c50420080226034303895de051a288465e55cfaf004ba59dd20658d5d8a05b9ee20ea3e103cd00155a216bb243c6c2c000e418143a727d54202d6b3e642105eeb1803a838fdc906e3649705e47d120f9f75439201c50d6acd2e9ad03201c782f5abad4d2cc804aabd3053dafeaf5402ab1a44ddad12f2fe067125c6a9ed00587a0056e252a45acf64e60,
   0x30dee6f428f72cae60088cdc6dad7ff1ef8052f09fa32d9320fd404b2284f8bee791e2e05a3cdaa981bfc245a01386f76b5e862dc3000141704a30ce625f602c93ed6969611435203cac7481b77c9250a05e3b7ea9ca1e8715401dfc463f9882e35ca01ad2638edb37bbcc80487b50cef39669dd002a683c2037593a5dc067dd5aee269c12e020056e38b47cf975d510,
   0x32c8e3da93c3cb11800935b322ca8a2b8a40543e3219527ec8c4a04a8a8df84918442f2058c31b10796186f84011b847f32ff135784001baa91908b191be402bc304857e0d1282803ee37d1416b9cc8ca05e20313b8de6ddefa01fc311849551bc0980193351fcf1c9cf444046336887ed1e43ba002a1b307442e89e84e06892f663d5b86cf3c0056e3c9223d61db58c,
   0x34b85a71253561e50009fbe62c38c477bea055862acd6d208e3bc049df5427805b3e4ec057348441bf1f0aa4800ff4763e98a30f7b80025020c4b4fa6724602afaa0c03204e263204121cd3bb4d3819b805df48c5993c370744021a081e45c3c53d98017a03ba61c6d2015c043da1f27a98748572029cc56e336407ffb60692fb547279d2c8a80056e345aeee976cdcc,
   0x20b19a4ff22bcbe4c007b7c3dee4123c412047efee7642377967e04c4f88247cc09ae400645760c27019916640244284869de813aea00115a7916b368609c035d95af38e4d2d22902b6d3410be177e43405dad3e32c18801f34012cfcc59e78f60f8402ae4a0d416c3c6d8c05962a6a2f8902c1e402b7a2fecf9f2ef28205e09acecf919744be0056e2833cca173a248,
   0x22565d37bd96406e4007a2650313dc93d120498ff569ad0dfcbf004c12d46bca23a70940638e3838b7cecbb1802218f5c9a2c47c46e000b65fcfb356ffd8a034fad38e05ccbf5b902d898da0842e28b7605e320a07f141234ae014108b8b9a865c97a02904fafd034a103f6057985fa7b54c1c6e402b029944ff46b7b6e05f6d0027b15303c840056e2f49f8a44b3cbc,
   0x23fec385ae9d831f0007a661461b0d9593404b2a3332bee97f58404bc5a1ac73530bf7e062b3a6e682d99fe7001ffa198124767c16a0006f9fe1d9ad27934034243e7ed80895a1502faae0777871e9f1805ea880027e87e0ca6015640966d2b80564e02730dae565d6ea16a055c0434d10a7f60a002a89acbbfc0a392d8060ba0b316c5deb5020056e27fc5d1404dba8,
   0x25a615a3d3ccb1c40007be986db80ac6ce404cb0fc78aa728336204b7176060b0abab32061c9d482789e55f2001df1c4ffe944b392800042a2acde66a3d4603352a3426aca7bd5e031c22c4283a84ec0805f098265948a7922e016bdd577c2fa870a80256dbac0c2e8d68c6053e4ec00d0bcafbe202a19b30f160303038061eca8d0ef9e9de940056e13f87f7c105330,
   0x274bc0d42032dc622007e5450ee630d498e04e1c7ee5d4608e0ae04b1eb88c6fa13c1da060d1afb84f0aa570001c04cd0509c79f6c80002e78c165ddc50ca032812b196f5cda08e033c70b2a57dff4e9a05f50cf3027a164316018152df9745fb3178023bb99528a1aaef8c0520c1df169c87a5fe029ba7f578e3187788063056dc47e232baf20056e01b345b59a121c,
   0x28fb18e583dc201980081a0ef95695cf8f804f76b747df6f49a2a04acc32487be743aa405fc550ba2481c4b2801a2557e948ed7e57a000315c770ef539c2a031a99605b538f41af035c72055452687c7c85f80ec3a84d2418ee019724a112885e36540220e0a6b908e1424805029c51fffd6e495002969c23e049437e840640d1fe29577ed4ce0056e095beebfc381c0,
   0x2abe78f5c9a999924008657debd44a280fa050d34da3d88158fb004a6c5bc538a66feda05e9e25d7044c3a72e01840f3f0efcff7f560004b93b8a7305b4a4030cdda1512b7c3e21037da231ffc0ba982e05fa1f02298224cf1c01ae917aeb9d3144540205ade241ce9c641604e2b29e60e7e3e31c0291a1f83937c8fc1406509dfbb4b4928e8a0056e21152506eacb4c,
   0x2c949652666e24044008cbaf8dd469e139e05233a5843f806dc8a049fac89fe67b78ec405d5b99a3aa93665d8016586c6a97d06daf80007f5afc9288f9bd602ff17f83b91ea797603a01d36d916f10af405fb45a4c535d4fd2e01c7d36d30c2ac5ff601ea4c0fbd9b156b2a04c0edb1bcb261578c028c88c929addb3a32065f8a476601d46b4e0056e344aefd8f481d8,
   0x2e7822c17ddbdc2740094b2127e6906c7640538ee74a6449ffd2c0497b79cd12e203d1c05bfffcd086bcc30ac01475184140e2b0b34000ce417ee96e08d5e02f15544aa76e8f81003c33eb5200b4c7daa05fb4220692dd5325801e275f1b87d968a8a01cf1f7ea3e051453a049dca0701d5347dd60287a011d4305b5d34066d49769b14d63a480056e3f0c37b9f010f4,
   0x30659b6f028066f6c009e2807d2bab9b760054df76c583c65575c048f139482a1b09a6e05a8d13d839c5f09240129cda408d646de4600138edf35b795309402e39caa79f92ec08403e69b6f6c9ea2008005f9ee759c1b70b24e01fe29b0b1961087f001b466cca5d96b651204799b5faf7c9badb202831ae25fe74e56820679ae65fe802bd9600056e41cf46efce14d0,
   0x32594977b48414cfa00a93b01484b06a67005625a676c05ecaf8204859319a1aa8c477c05905083ee5698b79c010d1e036a992262de001bf97a18762fcfba02d62eea5a43b55e0c040a232c5901387ef005f76335af385a550a021af746a81e3266d2019a5f8a9a6df951fe045481242e80dcab8e027ece05fea4f2e192068490e631528ef6fe0056e3c936df7d45190,
   0x3450dc801ec0562af00b5dfd951e20711080575ee9fe9a754d054047b4822f6280930e00576948d2ee0b58a7c00f172afc7b55c030a002623d639f374f88602c917cba464d29b84042d9efabf4dc69b2a05f39558cb785c844e0238b5db473cdfc8da01812eb2dfa3ee33f6042eab746a1fd122ee027acb681efc28c514068dda2803717401340056e2ff5ad02ad021c,
   0x364d6ad028544e98100c352cf9ff7901b2c0587b41e51dfc3958e04715669db2f649a7a055ba20e2c1c9cf5c800d7558e2e8ae1b6c00031f4f189419984a402bb9842efb64310f404500bfa74a980ffd405ede995640997596602564c74fec3731a320168b36c4540d865b20408bd3781a7324a860278274d6a39adf0060695aded50b13e30080056e1b75ea085c956c,
   0x235339e0c8f000d4e008d7764b56315681404d18c029d704a328e049a288136e1f778660633eb65c44dbd0b0e01f1e0b4cfa167bc320003a2863de3c74708035e062f9d52e87da1831437bc171710a57a0603017db8e9561e160171d1edfef6279200027bb5934720b5dd3e05519ac96e1b8a752a0284587cd1d5d962f2060857e8f7f457aaf40056e24f9f5187703a4,
   0x24ffebff00b3af9ec008f556a9d8ed6dcda04e99559e1db95372a0494e8b1a8b6c1c52c0624bcb7de5356c75c01d19cb333b3bc65880001682bd3bf60a7340350b5879f8443a1c50335a32ceedfc98e8f06087a5d715ac6b8f60187a0ead93d0bc5f4025f89f1fd83329b2e053391223c5245be54027db82ddd895b72b0061b2170ae346d14c00056e16dfbc731570a4,
   0x26b6504ceef1798a6009205db0d17567312050046e2b13837ea02048fda7effdfe503f406143d14a5b3d7a25201b2624af761197c6a0000b3e42ec734b55a0342e654d66d4412f30356870fbf889dd301060c4e80cec98ceaf0019d9e2c03a1829f5c0243b441d5b13b3a2205150b01a4f7cec71002783a8febc463be52062cc4c6d4ba32edf60056e15876b8015ec84,
   0x287b9178caa9a2edc0095e6807926a230b8051679dcaedf69a528048a5ef43d9a302b3606023dd7ea54b46746019375604d93f168c800017e7c0cc9e8ce800334c7bd871d6c958d0377d9779d8ee30eac060ee758badb324ff201b49bbddf4b6873a80227dd64b9f0aacb0004f5537f1d27f29a4802733c3acb79a12512063d7c36101bafd05e0056e22dc49f8685b78,
   0x2a4da382b0eef5d88009b772db3fb788a58052cc642590a45131e0483b88c0565a3bc2205eec88dd28566cdf6017492df1a33c462800003d940b45b6542d00326e320aa22f56483039a2c7875e042864e0610a8b94fd70a3ff801cd42e83107c055ee020c30cc19d3d7aa0804d416394236491fb0026e0a5a918c96dc1c064d22338211fee7aa0056e32b812010aa908,
   0x2c2b38827df16acbc00a2abaecd8a03cc620542db38098110c3fa047c13208ee4b39b1605d9db35f95b8eb7c4015602dba3090e700e0007dc4db9f50364ee03192a49ea87a87a6203bd30734f96fb8d6806115f6cca3198e33601e75aeae7182a415201f0d23cb69e0ebf1804b18328c571f4f2b60268dfafb4a6051f54065b91bdbc07da5f100056e3d70e6c2107a8c,
   0x2e14455cc5767ec3200ab475efbd1ba5cec055838a477ab1c86500473df97653101818e05c36d1cdb4e3a78bc01381a93a9e0014eb2000d966905c64bf522030b57e0fac20abd3e03e06aaf8ffd4cc7f60610b6e71ee254dd8602027272a1137e630801d5cb899feb6fb67c048de0c580779f59900264364118b8053ca60668bba1007e3407de0056e410b8000bd3bbc,
   0x300690cb4efc08c3600b5362696ca401da2056ca1d7d9456e3e9e046b418b15ff0f513a05ab925651086535c2011b16b49e2c98782400150aaa8923643c2a02fd6be20b74bb6bce04039214d3473a552a060e960f41fd64fba6021e4fe7860ae87ac801bb4230abd374599c046968a4f1671e546402603392be0670370c067486c812e6938fd80056e3e1cedb0974d90,
   0x31fed874cb95f2ff600c095121bd3f812de058023fe3407ba9b1204620ac81fedad4df005926a9e28d62d134800ff0fa344da8fb23c001e39df40ebe053d602efa315684c3b3e900426a0325569692862060b18a60385cf0f28023b01429895b0eee801a16ad61fc2a771440444325ee04c9976d0025ca9efd3addffdd0067ed22b77977de9020056e35c7d96828f9bc,
   0x33fa9a4bcb844388200cd530412f58a8b12059299d041a97e155204584f645976a028a205781374fce61f231600e4324ec27f6fe04400291c6ba61c2dcad002e209de337dbfae2804495d850c4a514f42060639dd15e209ec1c025859a10b67c1e022018868e72f58cc881c041e727df8c12bfd0a0259a8ba8ccbdcfcc806878c99bec2343df40056e28e20195538710,
   0x35f91657e1eda8e0a00da90e7a557f03b6a05a3017e7021414f4c044f410c69b62d8c26055cb66f26492068ee00cb105a069c21e67400357b0854d42dfcd002d3eabbef4326a458046aae8ad443ac4ecc05ff7411105ec17fca02751febe897854c1c01702639571fe4250e03f8f1ec8e25dde9a402583f758639184af6068ee5effd7984db720056e16d39f700a58f8,
   0x2656aa669ed87b4a800a761c1dd8ceae93c05202c1b52d1ddca44046cc759a71e7236fa0618406a90ccd6358c01a22b5957fbe312e800002fff01a4d2724a035c459191fbd71e0c8373f15aba17502e1506227fd0d33053387001bcff7f7818c654f802495d1c33e3fb89da050557f532b4faa09e0254d5e68c34218de6062996da1d926619a80056e1b37a6095d4358,
   0x281e945ba795f04f600ac0e0085e574d52605364e3b7232425ebe0466bcaada6529493a0605b3bfe15a650af8018375b4bbe2d772f40001b4e0c36d4d23a4034e65258ae1efe77103958a513c5995a0f60624b6d61ebd87881601d4a6815941a59acc022dced47e5aff247604e51d6ed4d3744f50024fbb8f5a7db35a3c0639ae4b703981a7f80056e26dbb385ed467c,
   0x29f037a3563303a9c00b26eeb4a348357f8054c61ef6384fa98d2045f87ff8d5eaaa61405f1ca6bb8e4939598016504e100d38f80840004d252fabd01697c0340dcbc26bb2d038903b7ec57b77001e39906260d755ee2fe2c7601edd7a781e412024e0212a179504b116f0004c38f28e274781708024a73bd5a51184fb006488d541485bb3ee60056e345ed895de90e4,
   0x2bcf4a37ff4f205d200ba3e2c65bb9f20860561f3b9b46bc2e4a60457ae5665252fa59a05dc53dffa86134e9e014702e1306be500ca00099b865aa35d78f60333357183e3c8767703dac1f2f47067b20c06261e4be4b8e6f964020832a532b1365d9c01f7a5873b8426a85a04a0c3f5b2267187d402458f4b67e27453c6065645753d33088a400056e3bd4efe6020224,
   0x2dbab812974e4843e00c340f2b4becfd59a05769028c0f668d9cc044f93a8edb979217e05c557cd9e0abebbec0129c38dff4527075c00101549787101279803253c25766ba4806f03fd92f06bcd4f29240624a6c16c5fb28cd0022348d75d0980016401dcef373b92f5b55e047d0adf63320fdfc40241752b9a057f5b1a0662c736d251f7fb4a0056e3b162634334b44,
   0x2faee0cc004291ee200cd6b4e876013bd88058a0946e0e9b6e8ca044746abcee2f40e3605acfcea313686cf30010d856901cc0d5d6600183b00c758995f5c03170b9ddc38b0919a0420196e04634236380621a25ad3498783b8023ee7accbe466482601c2b5b6c1d387bb920458a70316d15dfe0a023e313997fed0e8aa066df357d36ec0f7000056e33e2d3d1604ff8,
   0x31a6d59f9a8b7225900d8e68e96c062d068059c7b40dc02a3269a043e7f7a0b50fd53800593771cd3950dc9de00f265e0dee1b3d09a0022079d8cfabe30b8030901108df7869a4604425184a1216854a0061d4295bc8f531460025b26438c9f776fbc01a944d1e8a75857e00433bade2e44df8778023b787034e538ded006779e200af5b661b00056e29c0789383188c,
   0x339d648f95852e0a100e59edd43ca29a93a05adc5e98cb5704abe0435448640b01bdb5a0579099eaf05cbec3000d8a26c70a5a774f4002d617aa36b8d2b8402fb4be116720b956a0463f17b43655e62d006179d1b2b1bc3bb820277cac953c3138eac0190dfcf110443da40040e9d8ca998043106023941689250de8524067fadd4f107a226180056e1d61efefabffa0,
   0x35921c25c4e8346be00f29f6eeec248aa6e05bcf42a7a820c1cfe042cd435db4dc981ba055de8d5c397d14d4600c0b939c5bb091df40039fae71e82f2731e02ed2ba9d5fc2fdf4a0483e3d923d195290206103ad47310317e0202939276bca714901c01795dc195fa5f554403ea1aed839600aad602389a8414dad8229e06866bc57971eb9eb80056e104c05c2e7bc3c,
   0x298c392c6449d852200cab4f8dc00d807d4056a7ffdcc11f53b54043ae74c4f6087f13c05f404484265e5a0ea015747832a15a3bdfa0007782c4624bdfb1c035b5ca64208d3a78583d4aa3485c77874e6063a0abaa4bf7cbce4020e9b8f35d8c94eda021a844fbff1bdb24804b32bf1c04ecfaa74022775f91cdb0f103c06420aaf3f14932c900056e31c6dbf66c715c,
   0x2b6c331e7bcaa1ebc00d2e4bea08fecde6a057f56c4b40cfc6fb0043321871026be120005de17fd04f1f08bf80139f367d8c139dcc8000cf16f02caa49aea034da020c923f3805b03f70d920e6c7dcdb806395f36d49bda1ce60228eb98da79b70a9a01ffe6b7768682204804905e93b2547f41de0223123ab5ae165104064f1bb0e7d5d081b00056e34e7d5f8921b08,
   0x2d572d2113d5e851000dc078d42d40e6d560592f2f7031bbdc680042b6ad1005146b6d205c6c293803ea82ca4011d90e65276627c0e001402fdefd6951c8c033f6d85e6b4cc951804191589ef549b7c56063712183165fd174c0243995a169468caa201e59575a573dbccd8046cea833efdb75f82021fb9e2fe46ad08ba065b012d270f1a7d520056e2d52572ae5e830,
   0x2f46c07c2144d370800e626fb608c71552005a543fd554a60862e0423a40db8ba08c5f405ae4cfbe7554856500102639712390be9d0001c9d404d28b4c4300331175c6b83cfa1ac043a8470b6c2ecd7b606334631c0cc64df28025e84a2c6152b62c801cbed52259cc86256044922f1a16e410d36021d4431e7af4a5f5206658b7031a67f33b80056e21146bc8ade3b4,
   0x31333f0f41f81ebc600f195189834a068c605b695dad8cf68d3f8041b3edf0c8cd7e1a205950915b618ac9a5400e884c8026a6c6f0e0026b69ef898869bbc0323419371ef6300a9045b73afe6865fe246062e5d179e8fcfb8b40279efdef50a056fb401b36341a2068623ae04252ac3e62fcfd352021b1cdbe9f70bf5f8066e781f08fe56b59a0056e175bb9ad5b4620,
   0x331a4119ea6188d3500fe2f30b55674862c05c6ccffa62f5d09c60412593bf66486c94a057b1ed91858a3704400d0134a214a67b580003234e9fab2321b780315f16ef1512dfdc3047baf03c2c68d168206285e74d5293dc9800295a54ec483a5253e019c0d90dbeeaa203404013afb02f61f9a08021951a8b83d756a7e0675c9a0c035f9d3100056e0fac0142031f98,
   0x3502a309ae3741b12010b30610c9eafb50c05d540e6be0a8fe98e040a089bd5a076503e056063d467f9bb6dc800b923b8870c969212003eef077773de6a3c0308379a983a8122d4049aa822a341dfeb4a0620c7e77329b35ca002b0d35359208453ca018565121c3767dce203dd914bebf6a227d60218dea8d3ff7e2604067bece7b74d1c39cc0056e1258d5913874b8,
   0x2cca12761e463b64e00f4d2c11c010fcf3405ac34903062c8e9620408015d794e1c32fc05c94d72081a32428001153458fa82f103360018b787b43089ac74035ac39847bd5819c28430c4e0b9782a8ea40648405038b269467c02618f7d08356895d601f14f9262537725f6045fd96c22b05156c201ff38e184ca2327aa0650d952cd52fb1c5e0056e18d939fc84de88,
   0x2eaf6c7c1b0bf0b6c00fec71880034a558005bd7e1b81ccf4065a0400aea6f0024d37fc05b12051c06a79081200fb20acb645b840420021801eb91aa64c38034c8acf640fd95d920450ff8327e91466100643fe5c1d2346b452027ba19f5e89b0529201d867a67d2e5c61f4043cfd28d988fc0c7401fd53df762594a55c065ad0279571573e560056e11221f8c2ecaf0,
   0x3092226ac0c729f7c010a528b562c29db7605ce2c35523959f46e03f8533f125a3a69ca059819ca633d1abcca00e21db0602a308276002bd2bb04bb7a7bae033f0fbadd0b5a899a04712510d124a3b3f8063ed5f988e31ade0e0296a2557a96ea701c01c09d80b19adffaa80419a79037cca006c801fb59b0b745b8eb84066322d98835aa45ce0056e13639dcd1a813c,
   0x32771cd7096bb67260117331884d3dc6a4805de05384e4ad955f803ef59a37690addfe4057e0982afe7a2569c00ca1e5cc005baa21a0037af0e18318eef7a0331e000585d94b4af049119c5f1e1080334063885a6647d47f6c002b257ab8a1e7e457201a9a2672ca808355203f5cbe9843215b2a001f9b4a25b139d63f2066a0240e87d9d35dc0056e18a6d2f9660f2c,
   0x3462a5777c8b10bce0124e779d73a7bf2d005ec902bdf162e178a03e67c1992c7b997700562d33ad6456690ea00b33a4f930d00d0240044fe31dcc36f6a5203245e19d121f8778504b0761f74cdf728580630b1298a440c1a4a02ce31c2df7bb381dc019323978d840d58a203d198b892a77b65d201f910d2df58a3ed3a066fafaa957ffdaefa0056e236258bf0a0ecc,
   0x3647609dc424c6cd48135373a5390dfb0b605fb47d35b4251e6b803db4aa920c172126c0546b521ece01977ca009d36be917c7296e20054314397af4cfdf003188fc164130f19da04d08e7226fa46bc5606286908275aff093a02ec1c7c1693b4e4a8017e3cb54d5e0549a803ac6215d62b0f8cbd01f7443291a5efbbf8067335e19fa5d9e0ba0056e24e5fed3aff21c,
   0x3003b04a7b4771a5c0124c0a9194e284cc605e57a733b2677248403d489ee7ef771e06405994a428226df5cb800dbe14f2cec141ed40032cd38cc8160b004035aae50bf171dba950487b7229c69706406064df97cc07932c6d002b4eb112b49edecf201cdd4bf79b8dbbb96040c70b13cc89d6ed001dbe07ce7a8f0b6560656a7c6ddbffeec7e0056e1f2ece3745fcb0,
   0x31ed48f92e15d576001323ea2532f728f1205f5365e18fff4e68603cb3658f02d93f88e057ea67fb40e81cb7800c4053886e6a1605c003f4e48c42ed33678034d88872ae00a6ba104a7e9e58f04e94e7c06473c087b51bf399e02d1280c00d0de1cfe01b6f59215e740b8f603e8138a9f15b829e401da4744e03a5dff20065d101c2ccf9edf140056e238fcae033828c,
   0x33d8278df848a0b6601409680f486d4089a06039cf856ec6766d203c1e36eebce205be405631bd6cfc8c389a600ad766943a4d29ac2004d30947b7c3503e0034055bce7f1ad9e7504c7560bec9c2c04a0063f1cee71f0616d6002ed70f1f60ab26ab201a0dc55bcaf71871203c3a26fa4868796e201d98907cf46480ba8066223cc665c9ddb200056e2458a9b6f41410,
   0x35bd23ee2d15f92cd8151140671e8f7db1a0611b2f59d9be8934403b6df0ed239450f660546b19a0ca39ca79c009801bd59005a4794005cdac511a100859803346905a22eaa879804e6fbc30998273ffc063641d4594804207e030b311fd2deff18dc018c3afeb948519d16039e839323bd43c6de01d83316b597223f88066535699377439dc80056e19e562bb61b5e4,
   0x3356355c90320c1ba015d5c5c24dff6346406198932cffb3be5f6039d23ba407015bff10562113dff49862f6400a8adc42c9b8d45ae0056ff1478c39676ce035c10ff47cb92546684dde70a7bf1bb4de2064c04b69f7b0ff898030d2bac6c60e8704c01af0b0bd8b7eceada03b50b4a9035e0bb5801bad8e6296f4f73d806535052340d6794d00056e17d4f37cdacea4,
   0x3538baf627431c7d0016d7328780100c9bc06269336efee3f703a0392ec42da8488558f0545a773d4751a8b00009405dbb0d66729e00066cff80d9c6157e6034fbe017018314af804fc80819f5a2f07680642844581cf2521d8032a0694212cb6b709019aa90c1b3b06b4200390927e7f97efde2f01ba67c89f77ecc54a065622deee14ddcd1c0056e0629d5bd1a3afc]).map icosaRowOf⟩

/-- `s2/ahrens_beylkin/ahrens_beylkin_15012.hpp:13-15026`, `15029-30041`, `points` and `weights`. -/
def abGrid15012 : IcosaGrid := ⟨39811657637194970, ([
   0x3b0051376bab51ed90030ca915f82227d740477bc3a8995ab5b80058719dd87fed4c0380514088c04459155f401607d583e1c930ce2005aa04f97e08b49e001e176828769c9bafe036c5459075cbf0b8705199364e04275d6b6016effef45184ca5600136a79a05be2a58e0046939a38299f1db6c03a70d554bbbe010e1069b797d353696034e0056d08e4e18f3aa798,
   0x39a592db1aba1cf580034a6560ab9e83a4c0487d4486bb50923b405753c52840eb0ca1605289c2c48f2c8973c015f7f5635176f7156004f0102adc1135ecc01f9e5e7774ec6d188036fb4d47efac8f7ba05303d4cae56acbf52017378b03d18329aea014524a9921044346c0473daee63b446128a038e00f40f0ec2d79e0699b4001365cfedca0056d0b663461fbe45a,
   0x383babbde4a92d91d00390a4afbe3f9b13c049702ad2ac550149c05631a7ac76619ec1a053d67b96ee69b007e015fe1b8eef2ea59980043f9c49f2785cf50021315698e6caab1ba03720916820445b3c30546795bc7dc40cada01779fd6ed8eebe3ec0154f23f4baf5e53ee047f448f2c294e8a4803750e4038a437255a0696c08d15cd8019200056d0cb2a678d319cc,
   0x36c67f831136de1a6003e16599ce02128ea04a57ddbd2f66ac85a055092864e6639c2c2055239ba59c587599601616332e11dc10bdc00399c67cbff268ef6022cf3791a47be82800373a62594b4c8a614055c4aa582e88f2606017bbda8c297a76fba0165dd24b1febb8d66048b2365f17c84647c035c1e6d78bc8f3c4d8692b3c744feba8b1c0056d0ca691db56af80,
   0x41ac7777547e21552002ed299fe03a11d9a04386941d6d793a8d805c9589fa3008377f404ab14505fe78cc818015dbb5ddd2854e4300099afa26d70994c6e01768a4f818d43e5b2036ddedb845ddddc7404b192fb42a987067e016ebc4967ea42f54600f2de556dbb5cb55c042768564c15a597c204104536cd47ee42a2069e65469d7a2d39360056d082ddcf3ef9624,
   0x406a42a4073f83da6002fb54e52f193a874044b5cc53a04798a9205b8ee6228bcb55a1004c0c8e36d38deba040158be1dc6d3e262d6008ab435b50f5999ba018d2196e3cc8862780373683807a6ec346004cab3888dd1e3471a0172b46012b5e93cb600fdbf3664b61c719004316682ee2272e18603f6988d152af621b006a0ee8c866344e4a20056d0ac600002cd696,
   0x3f253659354c3d85e0031651d1ba7578b60045dfa216811b30e9205a7fb3ce10bce937604d6211258f954a03201545cadd9208a5a08007c7bbe68b324a83801a429949842c22b920378d48727f9324a3504e365bd28a46fe60401771944f466edcf340109460c8c14bd24c6043b3d8a4ccb4f996603dcdb7947b97b783006a298c36cbf97ba720056d0b4f95d8a17c2e,
   0x3ddf37337064bb13c0033e52d6e2ffec746047040d2f0133bfde0059686409f4e488b7204eb02a0084e81a2160150894ced4d2b43ac006f12674047d9a42a01bb8b329a2096695c037e337cda9624f07a04fb991070c646f2ae017bf69f53fd2ba20a01155c131b35507f320444d38089633bb7ec03c31c9138ce10bbe006a36a78b3039aa1bc0056d0ae971d5c018ba,
   0x3c93abdf0a81faf3c003713f6c83a801f8a0481f3eccbe8830dfe0584b247e3e55825d004ffa704a12c593800014d8fb32056a7ddd6006264c8b529ceae5001d35e608d08ef578a038324a77dcd0caadd05134b5f841af68b580180fc1aa4b467bc4e01223ee133675936a6044e8785478ac32f8603a972b14f38fcfd0c06a34999d36ff11b640056d0b6fdd75463440,
   0x3b3b7de22c9873311003ac31e034f36b51e0492b835083637f7360572af651f3c160458051464fc04313e69a8014be40ed87731a666005657f3c3eeb0a69a01ebcb7f2b228b1ec6038717325e05f05082052a79e399d90532be0185b38defc6feb63a01304f3917d7b7b4ea0458e8b5f0e66affcc038ffd46a12180e50006a20aff4b1463fb8e0056d0d02c51e2b2b44,
   0x39d4c5f82344e2ecb003ee227b016b7e77e04a261f8073b17460a0560975e88771b2a8205294fe614b775256c014bb3dd537ece737c004aeb03735084cfb80204d572e87042f4800389d3707c5da15b5305411593bf66a1650c0189f0609e2db215c2013fab019045018b4204642574bc8c33a3c40376d589e23496d5e9069f9cbbb3544858220056d0df58e782bc9ac,
   0x3862b763a1dd8d07900438420eeac4c8bc204b10e4e9100544ef0054e5c10b3c7c90d70053e3dcd5449614ae0014cd3dd6857d7dcc800402ea7b24db4c36c021e65536697c3d6a2038b90693c9b8528d30557167cf2a40d4b6c018de05b66f01f2ac601502956a4b66fbd88047001d092680d31c6035df7a7d9e03da729069c0dc4686a338d340056d0d51cd3d308ed8,
   0x36ea30695c1c70fbb0048cf79399dac3e4804bf094131d84ad928053bd070f09192adb60552f3f4dc8c3dcd82014eeb7a5bdded47a4003634066cb4c11510023866d339cc000bca038cbe727bc152cb75056c874fa37a0992a80191e0acc22f21ee38016186ed28c6d88946047c140ecb87164afe0345412ef65e5e444606977d17460bf386de0056d0bc34471c5af20,
   0x4801bf3db0247d27e003f612899ceb09a420400fe6b7e35efd6f805f6f9074d45249dcc043fb2c48501d0cc9e015d044d64e59e82b200e21a2b37abbe1f30011bb752427297360c0378d17e80cc08842d044cf58f5531d7aad0017fbbfbd983c40e9200ba4b4ac70890e55a03de46bd0997ca6382046aa7103694293d3a06949ad7ef1d2a5c5a0056ca7537f7f9236e4,
   0x46d18a0fb5f1d83d4003ae39d4fd876ff96040ae9dcc9c1c590da05efc538e278c63dda04546404aa1d7ab0b0015d1c4888a3e0e4c800d3a25c6fbe7fe9e0012beb071d9807c8b00375f30e49e31f9bb6045fe0e71116bf9764017b2f9e5d225b625000c45d8968bdd82b5203ecd686f5434b1352045a822d8dd9e7d4960697527acfdca1e71e0056cc81e2cc5e1dc7e,
   0x45a2de1e497270e540037b877d461ed222004180438a83ec16a2605e5efc8768acb11c4046954026e2107ab86015afd43e44fd3a81c00c4ac759f68d244ae013dafdf66250acda603761cc205460477540474eaaacc32c34990017954136b49a9c73e00ce09461948ee858e03f9ad692144eb4b0404476dbabbaf0c8d3c069a9766426ba27bea0056cf21c3d20e6afae,
   0x447c32c3ee136c3c80036c88edc142b12da042b06c8d9b1690a6205d77faad79dfae9f8047e92186d6b4fc91801548759f083666bec00b4b82941cdf591280151fe0c6d2190c388037bfe6632b22725f9048dcb4a65b520b7e2017c62573f21749b8a00d697bf8ac99bed9e04032bcb8b135adac4042f2160e88cf99b5e069f29d8d4f17a0cc40056d03a87d4a0c2c3c,
   0x43482a5449be7c9a40036d33e7b8ca1de98043f43eaf7edcfddc805c76574f4b097869a04946112ac8d14217a014dcb4ad0df76a11400a4af3db39565fa380167d7b64bbbcc00120382c110079273d6a604a7c7e07f9e5f7cde0180968dcf254bf06a00dfef4b98d6b29dde040c78a7f9a7faa6dc04151e3019675dee1c06a34cc510407d7ccc0056d089e30e38887c2,
   0x42085cd8cc6e85c9000377b380b0c3102020452e9ae81c327f00e05b6dd7d3619bda5a404aa4afb0df2b7d66801481874cc90c54dbe0095370ff18b557b9e017e69983ca0fed86a0388dbb678ee5f94e004c1778e3bc21055b20184c42396f0936bac00ea5c9ce611a0bbb804163dffb76359d22003fb06b1f03672bdec06a66a90db7efb95b20056d0b8621f41ac452,
   0x40c3284ec61672f180038d9abdf8ba798500465fa3ba9b11af43c05a5f1c9cfb4aabdfc04bff179038be68134014341f1e154c1052c00868267ce51bb317801956e8a06b9a41984038e8ad0d2d665d60004daa159c76395cbbc018920089ba4ec0d4a00f59935f28ead539a04201c24ef60efd3b403e1044ef5e8eb591806a88f6a9d07dbb2380056d0ce2b89fef7072,
   0x3f7bf83de9314f856003b0748ee5d641d020478a95a4062068b64059485678ff9d7f97804d52bf03ef1aa9c06013f0a224df579e23000789c42626f8e13a801acd69e50f124a09e03941b402b3c9629a404f34c2a68912f3de4018de901c673aa9f0c01017528d9e34feb8a0429ca7ac7e3d5ce8803c700de8fb468c4ee06a9d226f3fdf484dc0056d0d366c4e68555e,
   0x3e30598734c364c5c003df443ec148a51da048ae441864951242e0582a2654680d1481204ea1c2e0a01be6f10013b8eeff406da867a006b75204d52916c8e01c4b3d719b85ec0ea03996557bbd0193ff3050b81482dc6ad45940192fcc6f73df890bc010e0e1392c8d36bc60433766a83123319ec03acfcdb93da07051606aa2a0bf06c3884aa0056d0db31c57971aca,
   0x3cda355c7f81616ee004177652fc1b02a20049c6362c2b3388e4805706fc7a03c8869fc04ff0f8306ee7c359001392e38c89b78911e005ef1554a2c10f50601dd2a4d5a5242781a039df1c046ac1dcfcc0523444204862f3f8a0197f81d30815f6ae4011bb448ae3117c638043d997e5acd519c1803930e305da9e2535706a9768f8691d6dfda0056d0f0158498b966e,
   0x3b7699c469652cfef00456c07395c65167c04acd26801c9e4038e055e26cf87b99c45b005142451f1978482f4013838742f25bf6d2000530ed6ad7fbcaa8801f633be4e95ff810603a1595c525db9efe2053a73c01f5dabca44019c84a3d2ebb6ae16012a95a4bb0267c0aa044886385e03ecc29803796cdad09682e27e06a79c9cad2596493e0056d0ff47a1003a0f6,
   0x3a07bf37317d157cf0049c796b6ffc6e90004bc0c047256df02e8054bedac555ab4cdd80529379f468ffa4e040138b6c6f1da558a740047e2b746923374f2020fa29b2131d7370403a38c7ddd77201dad0550e316302797202e01a09220dc8b2877da013a9ba66247e916ec045430aa87a60c158203604c1071fe9b39a506a49d15eb53a9e92a0056d0ef9dc02fb0082,
   0x3892350d84fbc7988004e9dd466202eb87c04ca3522e745fd615c0539b87950224fa280053e0fecab3b5f77a8013a6cf3091fe45c3c003d8108569537fbc40229512634fda4302403a4d3982c4c9358140566858cb3aa1d340001a45990617d4b758a014b89bf18aadb008a046048858ee89660780347ac53886113217406a091015b0a6303dc0056d0bdc978afebd44,
   0x371abaed30aa5027400541f0928effc5dd404d7b6b2455f828e3205274329598ed545320552780b1937cad93a013cef027612b7cc0a0033f3dd1372b30f4e02433a7965c9dd4f7803a5b878affae7744c057b7b1f4bfc613b4601a84df47c744b8516015d1a2e8b900132fa046c57c03efdeebcbc032f4fd0ff6da78e28069b9d40c2906debce0056d08c5d828a91a5a,
   0x4caeabfeed7131cfe0052e039179698a0b603baa510361f4b6f6806217dc5ccc2ffc68a03e3b0b7c40709c2c801768d1a5cdc7b4992012c2a9ff44d38c5d200d33455ff3fb8637e036b55574830e31d8b83e89df649662fb1da018373154e0e9a4da4009d42b38025db0c0c03adbf1544ed2c72a904c2f20383041a07fe0678c63b2684614e5c0056cf81afb5ffd151c,
   0x4bafdbd8187253c16004e5dc0605516318203cfa063b70da5abae0615ba3b4022b14bee03f950279657809c6c016c255cbacf68e5f601191b1c027204897000e4514d1a4eace6580372f3943c4492064d0402f2b658c32fddf401855ee4dd21c01cb400a1680118b27a8e0803b666db94bb4e63d904ab66c421a07d46e00681fe041ad26cf79c0056cf8f1bad0e2018e,
   0x4aae5567bf5a02498004a80af0bd8fa449403e378e1cbf6da4d4c0609f4e2261dc87fd8040e661f629a27aa120162f1b84db6171f9e0107156a8cc961740600f58a33921537eea60379c3f1a236458d8b041c3ec1cb6e06bbca018731b17c6251a8e800a65cfcccc5aff02c03bf38e89d4a9fc40204947dffb61d44949c068a112915b6b8cd240056cf35491491453ae,
   0x49b0276743e8974dc0047a90d223f45ef0203f7dbc7e46971392c05fd275e14580d73f80422f8d69d996b9c9801598420fd5ac26ad000f5ae90f5791f698c01074548e37ac78b9a03816fd556a0c7af4a04358f392380722054018a2dbdfd84a6bb2200ab7e9d2a20e8f04603c7322ae43f8d0144047cef3bf9fbabc0b00691a68b1c639494ba0056cf0fef8d3a05914,
   0x492f46b137ff88cd20049114834d2d5d9b0040e5f1a9416d023b205ee4511012e9d831a042fbdeaadc8d9714e014bc3d79ed26668fa00e913217a5441b79201157298063dc5636803900ec13a9a25f921044b5d8de2c75f229e019415a1320d27f3ae00abc1fe5950fa72ae03c60d5100dc0e98fe04664244b543bc9b0406994790b8e783bf360056cb4f03ffbda849e,
   0x483e32dbb8f12ffaa0045905c0ebbe12d9a0417e20dd30419a0ea05e7b143a5dca15d8804409f642e80af8b50014a8561b8871d616400dcd413dc3370545c0122d32560dea6b8ea038f22e3042d8e719a045bad4121038d9ef201915986d2d99ff54600b341a9eb0f8e530c03d10de8b8b196f49e04581ce593bf6e97d4069c36b69c82d0e6080056c806d8a2776ba72,
   0x4741d1c3c83410cf000426538cd2179df0a042215f6e5c189f98e05e047b3948f18618604521ef3693890923201492cae3d058e3f2a00d04a11008bb244ec0131279159fc2058d2038e8646f6ef4fbb6e046ccc061b90eeb3e6018f036d09ef52261000bb47d6099b55d94803dc3f3818d7c5fa3e0448f37021f1db6028069f010f9df2b842aa0056cce0f6042e4529a,
   0x4618814c0a4094414004015153c94222b400431693a1bc33e04a605d4bf1e278e11b9e004670be48007e0c45e01455a3a69a21ff55e00c10361be942a0b4c0143c45ee03e1908080390eac485e9940c2f048333816ad394c68e018f1000fdf97e0ff200c46bede7a218155203e7b373876bdfea120433f9eb17185f2bb006a2cbbd66f365d6f00056cfd6e63c9ea2e54,
   0x44e51811df6c9d72a003f7950ba4ea3c3860444eb44df6e2b037e05c58c310e47d7b378047cec3b7dc338c054013efd1de674d2ee0600b0d46b1958d0782c015908f15bb3f283da0396e79bff674021ce049cc73190ae213ad0019263151c6911941400cda203876aa6396003f1854da979ec75da041ac67ffaed73ab9806a71adb115818b6f60056d0817888cba8d84,
   0x43a8b4078768acbce003fe371b46990d8f2045936f6cd28327b3605b4f4297ae043393c0492fc2ca335f48d62013895a21214f631d600a0e81bd9f4fffdd4016f83037b419b4dea039d90af2daff3bc4104b6f4ee0a8e3d1ac60196c277cabf48790a00d790f7ec89870cf403fb0a21147de034020400572c272480f99406aace856baa8bccdc0056d0b432fe4c935c2,
   0x42658597e91508872004102b42260fe26f6046ceffc5ff0c4b9ec05a3f15b4e5c3d8b9604a8dc203e37acc6180133131b9cbc7e2c940091b6195b2349130001868239843ac0ed0e03a3c4bee2c34d27ab04d0aa5b79cbef3290019b497adeb623e55600e25fb663fa3358f40404b99d1df71f31fe03e5f035782bed549206ad84bcd1ef1845820056d0d02b0cca537ba,
   0x411ec9adf8439a1100042dd67d484e61e6004800d8ce0b51fb3dc0592931210da4276ce04be5c4dc5c3f5cb7a012e64b1bed7044a6c008357e596098bea6a019ddd1abdeaf1e9da03a9988a86ed1d037d04e9c483f6be80148401a008d79a60c185dc00edea33fd525e7e62040e6967052b62600203cbb0ab34f506964006af44041531782aaa0056d0de2e12f80a9b2,
   0x3fd3bf8b8635ab9f40045794e5fa519c5aa0492b363e2fb6d2d4c0580bf0ed86e86d88804d38e9e1bbf3d6db6012a75493b01d625420075bc91eeb7b5289e01b5ab519f066d336003af24bc10bbfc95fe0502648ea1b48d393401a5135af555386e5400fa3205abef3aa9e40418155228a80ae43a03b173d78405482dba06b015d7df0c09ed6a0056d0ea77867714cbc,
   0x3e7f9158aa0d899c20048bc97c7814c4e8404a4c47c278b9d04ee056e80ce01aa2be4cc04e8b59876153dfa2401277b1138c65033dc0068c5d6cfd9b5e83a01ce15956138a048a803b423306301ab774a051aa1a9d1b2954acc01aa2db81b07690592010771d2306de69a26042211d5454a844ba20397328003fd1718b406afe8af4cd7df02240056d0fdbd574cbbad6,
   0x3d1f57aed0a0f6c88004c89c403ec4d80f204b602948cf1d3606a055c00f242ed3e051a04fdf256c891d4e6d00125b684a0cc38adc8005c6c9b7e0de05a3401e71f7ff0203867c203b841312b81da1a2b053269d1074375e5b001af12952ea1c9d3080115d3ad26aaa5d486042ca683ff1c423b2a037d10e49de61f525d06aea6ebf381277dee0056d112ffb4b973890,
   0x3bb47b53b5d07fb1c0050c16b69644e166e04c618f405d9e6c72c05498a381f69ec705405132820b034b9f47001255733aff998c2860050c8cc06f5dc3c8c02008cf13d3b1df27403bb3bc56347c6dada054976e7a9c31d425e01b385253071d903b801254fd312680ab4d20437eb028561a685fa0363688ab4732b154446ac469148e5e937800056d10dcf6854203f2,
   0x3a42b628c4895f6b900554f4308e122f8c204d4d5dfd8341480ac05375853fcf7490d9a0528218257b6409f8201266145682824b45a0045f5473c1a0bd532021a142a843979b0ae03bd023b6333390212055f8928a0a903575e01b76e8c37f03655de0135bb4134ef3bd7ea0443c899086c02df28034a85c2057346ed5406a8d198f8cd73a6b00056d0d37e9c2c414be,
   0x38ce18d80439ed1a9005a46b79d8029202c04e26a86ac4f965a4005255710d4f42466ba053caf5977d1a6b8c60128926b135a527e72003bfd46230b6701260233997638f3e5f15c03bde2e3325684fbce0574a1d8017bccb25601bb0b31f2fd135b660146dbdc8dcf149d78044ff1bfccacd564e203325b452a4b03d36a06a464fca4e5d0d9640056d07903219051b4e,
   0x375af9a23375f7275005ff6bc311900181204ef801a84a277092405130767f7bb10551a0550a651e5164319be012b5776746f51f62a0032e18031d06558b0024d407339d15931d003bea1b629a6c0f55a05890ebffd730c77a401bf04ffda14f261d401586cb273b7eccdf6045bd2911efcd6b5e4031a6a7ed5ee8886df069f2ae79fff9d45d40056d04d5b6f5baed36,
   0x35edcf4f42ffdec298066d512aa0f2b4ffa04fcfc1068c25d7ba204ffad6c8e3aef70e00563d8aa2e6ba00b56012df772668b65e142002aa491a893512da802675121fc1ce142e603c040709ed78ea3f6059d41693a5e5a47d201c4440734f7c4a94a016a27f368073fd2c00466af7b9a55fe9b300301f91f31b6594b6006994ce21a9f6304ec0056d07394d713b7916,
   0x51aa40ef66fd25612007784846be6254400036c468d58ad6e95530643ab08b5a0ae8be00378a76fab707f112501996a080e1ee80c860189a18567e7379640008ccf593af8ba615a035f1dc0cd5b399c11037607b9908b03876f01928b77e436bc2e0400874d07121dd5ba460373251d82959a827b051ee2e9057282cd0c064c94fb31f03323a40056cd190e9e47b7990,
   0x507915569f595a1d0006cc4fc8e9d744dca037420c9b4db100d7806428b1b369a3b4376038fe29b1e49af9439019946cf27e177329201771d85ee83b25c4000994afcd08939df9203589c6f968449ae6703893dac0342b121da0187e1b4c700d87d40008eee45c7fb390bb2038585e415bbaed3e105125180afcf36096206534f4a0f17614c0c0056ccf58d2db64300a,
   0x4fd53ec36729061140067f06cfb6896952803892de472af50f8b90638c2e46c3489b10203a116fa2abe5f5a5c018bdf84eeb61b081e01658482fd3e02cd2c00a5aacc49c90bfe2a0363077d3c04857b3443a0e25f6ff11296ce018b55cc938f69cd38008e4b6eece0aee8840389b79ccdd602424504fda909d6cbf4e230065e942e0285f098a40056cf4230c9064b90c,
   0x4f55afda668f52baa0065c1bfbf0485329803a6f02f9dc2eebc2a06292f0ab1a2bc49f603b1d3a576d1805ab301771c03fe8ed62610015268b40a25b54f2400b438ca59781b9980037671b630095b8f3a03bd9ecef021f295dc0195fc48cb8aba018a008a750fb36da621ee03880fead0c70aef5604e245e252bd83aff8066cc29f7307c0fc5c0056cf18badb1ede5e2,
   0x4e423aedc536895d0005f08aebf1f987b7403bb85b43f146ca560061f02b8c14166c4b003c97a23174371daa8016cfcb3772735c26e013d5ba3a6f110a94800c52636fa0520561c037c6959448299c67303d8f56e419f1fa7c2019584bd09a793363e008ea9be8f55bd63c60392fdaaac940f080f04cb16f0742eb8d6b006772bd223f7e951a60056cfa8bd6d5c3f948,
   0x4d4d4ac40dd0feea2005a81c800157c069603d24aef7a2289abaa06128ea2db094057f803df297713ef7d105a0160d2238025a8f6cc012994697528b7d34000d64ea437a70f16f00385c7abaefe1087aa03f46f00d417051a92019882be12ed577eea0091bf820b126d11b8039a9a54e75adb1c3904b2699b6e3ce970bc06817cf778cde01c0c0056cfb58a93708ab5a,
   0x4c53f7cb772fc4158005688dfc86fa38a7603e73b9a01313ece8206067c45a4cc45a7ce03f439c64f56f8d9260156719eb4fc5efd26011714a85782f8a86400e7660b3b68b2639c038db3b4ca646e87a0040e64b528aa62c182019af3a77c564d76e60095e5d625e909c6ce03a2b99139d750488d049ae862c96c77c85e068a5b44c99f9a5de60056cf54102801b989e,
   0x4b516fb6b0d765f720052db031e0a9d16b603fa60f79e9b7275c805fae552391acda7c204090dd057070f5958014de588725e1912f6010589bdf601bf2fe400f88c3898b3c2700e0393f9b0c197f95e760427194cb7ae2e8d98019c8e1ab83f47a5ac009b36cd9a66f7123203abb86558ba43ef47048479e585d36700fc0691e9aefb585635f40056ce4634c9afb1152,
   0x4a90ba96b4645b2940051ac33dae06dfdac040d7a0ca3a118bc0805ee94f5bae115939604194a7c936eb780f001441a44f21be27f3200f74f6caaa6ffdeee01079a1591f13b7e9c039d09ceb7e357baf2043cefe237b795e6a401a16cde71ea2e9af6009e770c225550b65a03b0277323d2ccb15b046f5e758fc0d7e41a0698b26782244468080056cb50f4527da1e64,
   0x4a45a634767a3b2da005442e3f9f38b6c540421308ca65a3415c405e12e5eb5392b8ea20421e272aee456fd3e01374cfbde6096579800ee1916123019bf120112c8bbcc79f8699203ab70a819bc8aa4ab044e6e716f5183f58e01abed07dc2c6405aa009d76c9c62407d40603ac9080a88e667b3a045c46560a0902fd18069f02507f3575a4660056cb6bb3742972b3a,
   0x490489417d593fa40004e8eec9b87ee3134042a3cd2b81e26fd4a05db11b342f12fe5de0437c4c62c7ddeddf0013840d44f48c4444800dec22434defd9d720122f717eba7e30f2403a6f6809c36d95f6404618c682dfb65d9e201a5a25c109f3a9abc00a80d9cb5f1b4d80a03bcdb4af6c7b08e6c044caeae57fca4875406a1f1eb1eb16ccabe0056ce0f8c07e4ecc46,
   0x47c7257b152660672004b3281a89ed8e492043954ea62c458a11205d01c7c43a40c7500044e296eb282479c0c0134ebf277579093b200ce5cbdcca4b7bf7e0135ff557ec336683403a8379dfe23ffcd580478b7866c6fc77e4601a4550d530b26482600b1c1b65351b1b8c603c9ebcf8710c2d434043797548f8c50343806a614cbca0a7b16120056cfcb7eb3abaed88,
   0x4686c8a1c9b9a6c2e00492b5818182a17ee044a7dff7d294d485205c2fbfebf98dee84a0464ad699991a6603a01306c571f2be4eb0e00bdf43a9016da1e78014a7c26d54be6782803ab765d2e53aa248c04913cef59523ea8c401a5159f30e23d66ca00bba374a72d34fcee03d5d4b76b72f4cc96042052c7caa5da516606aa1d63606442309c0056d072e92f68e8420,
   0x4548aa677572dcec40048e77ff656f8f8d4045e54f88471ac3dd405b322889b0df3d354047b06a1639cc3ce1e012a3b583968f1592200adacfe3143f011a8016091867d95d2df5c03b17d6dfb8fcfec5e04ab4fd1e4599ed81a01a8a55bd957b24f7c00c575d9fe7bfa58b803dfeaf4e482eb5fe4040669d3582547e26606ae1ae64321b611280056d0a251d10e24ebe,
   0x44080918fc79557c40049c5966df0af0b460472b506b8b180008805a20d8cf9a9604048049119c273abe6239c012409230674712020009dff5b05b72e619c017782be053eab474c03b838e52cc26be26604c58c1bfeddb7881c01ad57c6e20ac4622400cfcf5e6eadf1c9ca03e96662dd1b2ca61a03eba4473f63137a4006b165f8d5fcf640d00056d0bd2e8f1528c50,
   0x42c3aaacdec96ac2e004b639255d2c47fde048679f77e45d1823c05909864816a3e2bfe04a6cd6712ac8fe6f4011eada0f417815730008f2809a46e85dff8018ed45e8c216a4e6803be94426e33bff55604df2d84d315a5fca201b2456646566d623400dae929a57bbfdeac03f2e2322c06e55ece03d103033c16c0cf4206b3b5c1235225ae3a0056d0d2fcf7b619fc8,
   0x417a528341fbffdf6004daea49a8b08799404998e5880e348c8b0057ed6e25cb961aa1404bc3458a873fe452a011a3e40d5780ad08800811c6e42f17175a601a6866266a11cbebe03c46e770b4eba817604f832678b81f3191801b74e2be776d03e5600e6d0772d11a1ece003fc7e6d6ee483734c03b6934c052eef779e06b508a0013ec05a5a0056d0e3c753dd1cb16,
   0x402847e28563aa2460050a1a842be4acbb204ac0ee020f1f44ffa056cac6e4784edb5f404d18a356b10a26d8e0116bff6eb97721e8c0073b79db488d56c0801becf42d17103394003c9bf60d3c7e8cbd60510d15b812c113f2e01bc69e2f91cdfa39800f3aa0179cce77e36040664f4136c86b284039c21b830ec3be2a506b55eb38c18f805ee0056d0f68c11784400a,
   0x3ecb2d940d582731800542f9c3e2c93e8c604bde71c6b685f43a0055a2216295576439e04e6edc68d3a728cb20114523289391d77c80066ed9b570c68897401d7c0c7ef091c5d0e03ce5f86fb6afeb474052910c4cb0b1dfcb601c1781ce616ddcd1401019433705948ef840410c1320e8a9f1f280381afed21c86db4e006b4ac97b85feb9fa80056d109d65ed6bbac0,
   0x3d64b7e79ecf4755e00584aecc781c47a9204cee5b96d30ba2682054763ed2f20397ee204fc4087f4effa94b801130b075783d4d5f4005ad4826d1f4a606c01f12ed9e013d50f4a03d23071b4133591040540bf4ac3a8f4b4ae01c65da0fdf21a9f5801108171b1e64ed7b0041b931fc6c2747588036777a7a237a8d8e086b2ed0bbff309a5640056d117284595d9c00,
   0x3bf7f358f4905fd8e005cc4499efb23f2da04de9c72985928e69e0534de6f8fc2cec0b405115097dde291ad7001131ca7f5f0c8a26c004f8c4125c542930e020ab846a07fcba04a03d4e2b096304524aa055779f30fdfef2f3201cacc18e1c0816142012054b06f26aa1aa20426ed01ac897027c8034df91fd576aae03706b01e474bbe0da7520056d0f42c56b36585e,
   0x3a875f3144b4497eb00616eff87b5cc8cb204ecbf5bda6274a2860522e815e85a9787fa0525fc86bb74233dd00114a2b610013b7a66004522fc91e192a43202240eeb66cc05e2ec03d63f01a6e9b12d8a056cfd2770cd3e0d6c01ce85bd8fe61d46b80130eeb905d57562e60432dc545a7d92bdca0335938c49bf7d6f4306ac4ad6e65f2212160056d08864cb0cc4a18,
   0x3915edb98d7456b10006675e78e74ca132e04f9b7ebb6eaef8fba0511380c354fec3f54053a295b5b332cbfbc01173d8abb7963df70003b9534f981611dc4023d42a80d4a0ceb5403d6bf870f5d04ebd20581796a40c914ba6201d1f085d40e66ad7e01421e3d506cccd4da043f04f09e55ecda16031dfbef65d82a81af06a7935d0fdcf1b6a40056d027bc76ecd32d4,
   0x37a7b4099fd9d41ff006c65171f8b05e43c050696afbefd7a0fea04fee8e6674bd7c028054db06c46d1196ea0011a1b4703906da2660032e0274db1b56e2a0256b8e889fe3552dc03d78cb3586428276005957f48f78bb30a8401d61a3c3051457e140153a036d569be1878044a97ba923ca2343c03064b281df75f134c06a222fb49eb67d0120056d031c793507737c,
   0x363fcdb89d4ef7dd10073ba761e6280b7160514376e0fdfc48fee04eb3642e7e407bbbc05606e75292b19e1bc011c9829610d25aff6002b0b2a427d5c11f40270cc506b2fb098d203d9981870436bef2c05a980cbaa37a8e47c01dbe5fd75ff36a1e2016547753cf24a55180454e999faedb3859802edc15df5ef6d94cc069c11161b65e24baa0056d07acab442d2d1c,
   0x5203df78b87ee44fa007d95330d8b4c0a0c03a3dfe4c08c551dbb0624b151b47bf26db003824562167fc52903016b81de0598350b320174781947f7e706da009c7dfa47ad272bbc0390c587157231aafc039e55fb03f99ab24501b4fb632c265235ac00749ef7cb2b99dd90035a665f99fe37ebee04f2d50b5273a6903a0665349b98aa5d84180056cf8ffb4a4b715ec,
   0x50a872d6c89d1157800706b494e5439e0c8039ce115667e0d3916062c2147d911db4a900398421aaba06dc4840177f4b284251ad51e01669b6d25c15b02dc00a550c91d96bdb8d4037c2ffa0f4fe9074803a799f0a46ad21f2e01a01fe7afe17e2d4c0081c48eacb7f9b30a0374b5e03ac1a9d4b304f1b3ce3997d213120665a5c26331fe75000056cddcc3b9b7343c4,
   0x4fab9cd1444dd36d0006b32a787db5c528a03bface5fe45b968da061a12a422f765db1e03b267dd515e049043016217c51b781eaea0014c1a122a60cee51000ba3de9fcdb76d698038ed2d1f92fac0daa03cd443e655cc21a9001a86a5d4c489e4dea0081305a78f2ac03b003795a4dcd7539bfcc04cf4395f7731b159e067662ef44df3543f80056cd156bee5c87b00,
   0x4ec42916229a7079c006683145f5328f66c03d52b6dd0cc477a48060ea57d85aeabf96c03c7180187ba56dd3c01567d0e8a8161989e013917f79e8c58cd7400ca3e7b0aaf95ec1203978827c422e03b3a03e75630a86eb55fc601aae6ca92fab647bc0083e82b4b4831c1960380c1b1c852f2cb2a04b817047a64b0db08068074507a1d0973b40056cf530e18bb924ea,
   0x4dd9077ea3d45aca60062dd7d0cb023dc9403ec14d0205d245e3a060199896545952ef803dbe2e8443c66aa64014a2c6a6966f226c60126256e7713de19d600db63ca748ea0b7cc03a197ce30d0f0e9f5040258ee4175862c9401aedda3bb1318907a0086e478ff033801ee03876396ceb0fe032c049f554495ca3ec522068a51bea944cf8d320056d00bf54ce6190d6,
   0x4cd391733f7519792005edc6c431a4f12ee0400413f4e64c3deda05f5b3e1548e44bae203f157c302d498256a0140c93a0d5a3aaec40113c52f1e593e39da00ecd7946990fd385803a881780e702dce5d041c137f53c831b9aa01b0a9d3906018004a008be077321b4b6f6e039060a5cb5ee65c800488143a01e50dda4c06929885c6951e99bc0056ce90874a54f2cca,
   0x4bf0f2814ed05024c005c6e077cf8a007de041327bccc7692122c05e9d7afd7b77f53040403db9399ed7570800137d3715a325007bc0103f9efc980d0920a00fced003a882b90c803aff697afb81f25a80433333725fa68f5f801b3c511b99978a436009047890daa1f95fa0397361c6d0f697f760472752b4192cfd2e00699a2d1c7d02765300056cd040d243e6ff8a,
   0x4bb67d2cbd5b1dac8005f777b6fd8d263980426a061f80b80768805dc855b9a298281f2040b4fe3fde1350f1c012ad6b15e6ebfeade00fb918d884db8669a01076ac4915c1d72b403bed3d5b4f661ae9c0443d74c6ad54c52c401bed554a3fb4edd22008ebc9f45f9d9cf720392a1beb27ef17a80045ff097f33d3a13c2069fc922b5d718f87a0056ca24b48061e247e,
   0x4ababa61ad114579c005c7af04d70a1f86204355586988937bbf805d2b88a6259900868041e148468ca50bfd40125e2755e44ad136400ecefada16d2370be011732d9d9dd08d0a003c1ef8e2878025c90045887b51c03fc950001bee8995d9871452000956db80a482b9b08039c4f629935738f1e044d18b2ceb6fbfb0c06a4b1761e84dddcca0056cc4e3f77e93e6fe,
   0x49727faf138e4f31200578114c4f5c5fc860441a027b580dcdff005ca42f185e2961d1c0434f67f416f869bd80124a8f8f731d7778400dc6cefb2615abb1001291af92a0762985e03c015c10570e54254046e44dcacaf01956a01bab07c8b844d9b00009fbd1e09c642b8fa03ab98a4212e66ab5d043a6ed4c825e9c92806a8867e5f0588e4a20056cfa01cd7e7a189a,
   0x482ec48c5c60436780054977545a4e6e3260451e3eaec7e319bd005be3bab77c07f44fe044bd071aea678b0d60120b7db0be36723ea00cbaf38208d768700013d0b4c17ed75ac6603c23a0cec5e673af2048671acc37052a59e01ba368830adbe3b3a00a9a01830fad7801003b8653dc7b3da932604240ed6b5c586fb8606acc2fb87e0c6f9380056d037fcfb4853b20,
   0x46e826e4c055120fc0052e866fde42a4f20046372db9339258e8805b0820dbff79eed44046298c9ff4d2dd37a011c33188dcc0e590800bb3c23e7b3633cea0152249620d36e229a03c5b467312549a77e049f6049bb485e85fc01bb52649e8e9ecb7200b3df5ba3fcd56b3e03c4538f8276951c1e040c2aa1f73df1797e06b0984e76d2da7bcc0056d06856685605876,
   0x45a67ab2473d75042005313290998707ef804775e81f399fa6a1605a03333258565b2f40478ef1b5289dd808e01162ffc907df6932e00ab32786033ea5a800168a5a97fc463ff8603cbd1f035b1db7cfc04b97e28e027f01c9001bf345f776ffaac2c00be10ad39e27cb7a603ce5a1f0ca7f6511803f1f255cb1fe5d34606b4351a3cc1761d0a0056d082af354af35b0,
   0x44657653dceeecdda005476e9459ad0b1ac048bc9baccc0da14a6058eaa95a5e53891ae048ec7dd2902c2fe08011021250b20e6dc1e009be978d9141c6bfa017fe22b923fa9afb403d2bca5778cea4c8204d39d464c29e8560801c45698c9770c683600c8ae9577a79b21d003d794470e6ab4702403d6f75aa29fee815806b717b5964828a6540056d0a4e010caee14c,
   0x431fd933a9fc8990200568f00b68c54d426049f89b6d8fde8d496057ccef649d677b19204a44d0957271e6d7e010af956bf0bdfb79c008d7143919cbafe4401977f6f31558941a403d92fc66747ccc0f004ed1ee69b6e15c7cc01c99e5f8e3cb9d2da00d41713e3fb79751403e0e4ae09cd0eb95803bc2a67afb5e5bfa806b8fc124676769e920056d0c5d819fc4717c,
   0x41d0ab20c10713c12005932392ee8a9db2604b2785ecd3ff45d86056abc25edbe75772e04b9c7c9397a4b7bc20106f267fac1ab7fe8007fa2fada5ada92a401af9d678c050b6f5203ded804580bcdd8d2050618b68e47a15c7001cebebecb3ce5089400e081a64f4f7ac86a03eaac07fcc4bad4da03a18f4890628d71e606b9d7e9dea07fed1e0056d0da21841d2a340,
   0x407677fbc79c5be62005c6ea8a62d887f6004c4c2b452a1ea3d300558490e934fb6857c04cf51cb128d2729ba0103f7eacf0d65ee4200726c5348a9134a6001c863d8dc5cc5a91a03e3d281d5382c6fac051eb6660992926bc601d3d26cbeed13879000edfa402c91db234203f4e83262c23ca3e20386f198c39f83512706b9af280993b6c2ac0056d0ec202490ec25a,
   0x3f13ab192a86a3b0200604cd6e2b231602804d66118e1065368da05457e8eeb218bf06a04e4c51f79ef2efaf40101ff516ec1d1f8340065e3f8f919c8b1ee01e1b55b8043765b1c03e82f12519df750be0536dbcd93af81ccca01d8e876fdc232333200fc682f585a3aa66e03ff77f35205f34646036c683a1d685cd92d06b8830cefc9f571ae0056d0f6faab1a880de,
   0x3dac307579b48b84a0064c39e974065741404e7292b14db0f041205328ca1c9a62039f804f9e67c90ec93f8ee010108b1cbea0ab514005a2b1a71e4929bf401fb4d804bcf0f6d0203ebe7f8da2dc0513e054e4a1771946a92a201ddf7aaaa61b7a006010ba135f145dd74ca040a3a3236636200b6035237a959cb7270d006b659320223453e0a0056d0ffae8d7016304,
   0x3c413ee7b65331a4e006975679147ec830204f66eb559b54f279205201b1b0e85068e72050e9fbfa6ced4ef62010178bb0e7d31ee1e004f521b28b82abd520214b88c5bb8d759fa03ee5eae0f87c3ee94056489270b3758f79401e26435a60f8fe4e4011b9c07770cf39b640415833ac222f11862033911db483b592bba06b32d358bdc6b9d9a0056d0ba8ad9b681bee,
   0x3ad2d25972e67b448006e1fbaed99462a920503d871d8a6c76f6a050e8c4ec4a8b4fd920522f6c2dcdec6feca0103833d2b3d8ac8e800454fc47df30c786a022db9e2ee1a22f88803ef364e358d44875e0579656dd2adcb7dee01e5cb9b7a3be9e7d4012c53339ae3c47b100421901389a86868e8032153723dff0d2cea06af0825c0f1926cfc0056d02e3641e94b4c2,
   0x3963df4d25da6477500733defec17a73bbe05105d51c19cad4e3c04fd0f97cde64d7f440536d3e94b3921200a01066ee99102129696003c1b0327201f33ac0246b53e5af2de435e03ef74627139d5fa7e058d68f231ba0510de01e91bba0c5ee29a52013d91d655f99a863e042db081463fdd62ea030a262d3d81ba5e0e06aa104eb32510cd800056d001221bb83dfd6,
   0x37f8c526bc79a9e23007990100c1200a9a0051d4bbde05b70ecfe04ea7803d9b73009ac054a05eb137717de1c01094591e4d027d7420033bd9dccf46a0cde02603960432b2e87bc03f085c89774cf825005a143ec4481fb7e6601edacc0d0f1f0f9dc014f180423edbe74040438e48ef439a7ca6402f26324b0b0b50f9e06a46726ddb4b6de400056d03ba57590a810c,
   0x3693ca87f438bafd580816d8b32e034ee9a052b2451522c1e93d404d649c9165bb57106055c6b5851a1d5c9ca010ba7fabde611aa1e002c49448531ead11e027a7c48a824209ffa03f2ffc61329acdfca05b5312d57f020bd3e01f410fafb001f64f20160cc416b945b96c60442bb51151210d90002d9997d4877c8d144069e117f8c29ea04da0056d082bb5dcb6d75c,
   0x50567316fa81794260073d20689e28d0cb203d43fa3a3bf6f950a060c1c22746c4a118c03abd054ade6a32b4b014ec64e6a967a63c6014c172a781a20b2d400bc45c05b6b46491403a77883a44e8d270c03d5e850badb2befaa01bcfa333f7ba660480076812a7c5ee6d60e03660bbeceda43b03684c14b48a7b7747bc0067cff2b3bcdcfbf000056cf53d9d06885b2e,
   0x4f70f2dd7adf4b7c2006fc4cbe5add3791a03eb18aa329696f3dc05ff880b00e3e5cde803c0811d8a203040be014235d4af3d06cca20138f4cd6a3ae6122000cce94e937019a16e03b187f26985e40f9303f0d0ce0e2ec2633201c0b0dcc073931e66007905d32aaff4339c036c9da221600ab5a004a8e3d64a85fab9460687441a571c92c1c40056cf14e9afa1fc2a4,
   0x4ea03e6413f27708c006d1d900e6d4dea5e0400be316f41cffff405f2d2e57683b82e4603d312b151aef26b5201366662a3128c0b8a0127f4a1e8edacfb4400dcd3a683be5655b003bbb39a5603d8d7160409ab87b0c80a83ea01c556387bd192fb38007b8f50c8922cfaa40371ce5b9682c912b70491ace6c79938810c0690347c09679e2e3a0056cd345e2ea99113e,
   0x4dbee7faa6df4b1a20069200b08a082b01c040f23327eb0b8a05a05ea80b0deea47571203e4e90307ace377d00130903011dd21169c01192d92d4a6bbc49800eaac7333ef7c27ec03bf127770588ea6ce041d9720d8cea837c201c4f42a76f98a64f2008082a845d6e80220037abf3819944f56e6048038a3167350233e06964748813d160fd60056ca28b8e6cc872c0,
   0x4d32cb62be15ddcc6006947f249b01e03820421ca53f124b9711c05de5817c115c3a86e03f1ae4cf04132f6640125e64012264ff760010d458a57b1a7324400f799a45d9367125003c9d510cfdf338ef4043102da571210137001cbb3436c7876bbca0081e8a80424c6c89e037bfd5096d292c51c046cb4403860144dd2069cc5d0d5dc93198a0056ce32a498b56ff46,
   0x4c6829937f9fe3c8400699d6be3434e0f860439ab5fb02534dc0805ce388d135a3f42e004032385cfa08ba3f6011904297bd62ff11800fdb04cd616923a3c01096456d685ef9b1203d6ebfaf8bc92de54044a8f0de1498fd26401d3ff11a9dddcfdda0084f1488902ebc662037eb077821d87ca640452f3391b9b555e3006a48751e7218a37520056cfbf25cde429cf8,
   0x4b1ae72e7c415263c006537c88fed345fde044ad07e322a043ab805c2c4ed48d5b08f54041b7c742c560710ce011433860b2c76b77600eb1f5afd7c0968f4011d57a1dfe55170ac03d904efaea66ba9e2046433d7a22932224e01d2933e5348238b42008e4bf39d9da1df34038c70c5ea0e57620a043c061e157b937c5a06aa38d09ea1cab1a20056cefb115388d4a90,
   0x49d266c13a1d4a64600614e4e248ea20354045a1318701ec4149605b7f5a30fa35badd40432c49d4753a926480110e98e2aed3c6db400d9fba3c5292a3fba0130b6508f8461113203d9e3f4fb23ae20de047c05d6568aacec0601d0b22158ea046cba00983c388a52b418e4039a4a854221fc291804269f11f4dc10856806aeac20a36435dad40056d040c10752f9042,
   0x4888968efe6cf7556005e9db0c3a08b9514046a79b1e167b1026e05ab90c0788dd9c5bc0449db8d8bb9f39b60010d1e8790fca2aa7600c93c8d721572089c01451ca372fc95307403dc05653a0428035604946de014364be03401d059a4771f38f2a000a27faae287bc36ee03a73e94fb451aab9e040fe09e924091720006b2add77d97a0c82a0056d011e8627acd8d6,
   0x474036b317b9dfce0005d45c884c91e4218047c0292660933c8c0059d8af7b0a40106b004608d36c639bedcc80108c7ac9707cc14d000b90a508e1fbe8072015a76646ea4f31ee003df87b456c4913b4404ad4ab8cc9653d5e601d1b04817cb08493200ad03248db12bbe0c03b319f6e545f791ed03f7d851b714f6c19c06b630ef3a4f4acf700056d006b2d6ec42632,
   0x45ffbd7424a31b01e005df77bb3f19d85e8048ff57bbf5da0c7c0058cd13da598a0995a047692c8b9435c21780102decc15be0f2efe00a9701ccb5571e5e201712da990d70fbfca03e5de67f126e27f3804c73b2d3d117d20e401d608fdae5528ada200b7662afe5a3ae76e03bccb4a26c687491c03dd7a0a2d8139187c06b96a1e889857611a0056d032d050e9ed65c,
   0x44bf6d243e01686bc005fe8b1b51b601b0a04a469694288b61840057ad54e82933f647a048c1e65ab2c9116da00fceeffc0ef7ecaa6009a98aebd36a716760188aa7c83ea0731e403ed017f59b246cc4c04e12ffe904a28ae9e01dba57d236173472000c23f02b8d437b6d003c5b2ebe016c1b43003c251edc68bb9ba7006bbe21ce8be0b7cba0056d0772947f41a17c,
   0x43752ca0d88d23a820062654fa1f6d4a91804b8111a40af6acbce05689d9246c46c8a1004a1a5d6ae0122574600f81f04453edb87ac008c6703db148d71a601a0ae8b739a0ce7f403f35aee42342eb6d204faa4024252103dd201e11b833f660e250a00ce1d500c2122bf1e03cf149b4688382e7003a75476a7b28d889206bd5211ab15ed3d740056d0a5ab4d64d1a40,
   0x421e3435ec6e840a600654f2a805985d76c04cac7141df74cdf8c0556476f6a7446242c04b75098d41f38e10200f49a16ee8841eaca007ec7b29312ae2ae201b94328781ad4b86e03f8acd24ed65e13ac0513987647ca93d49001e6322bd4ac110a6e00db218edbcf19afbe03d92eff37d37dd852038c930bec4e7431dc06bdb1e8ac0da91c220056d0b6acc721a7a4e,
   0x40beb212cecd788a60068de43248258845604dcdd69c790e4d3b205439139030112507c04cce5ebab7f1f005e00f20dae62b335e6e20071d3ab749b9715f201d26793f3a38d84b403fd6c517f7eb45a3e052c1d010579b0a8e201eb547a5fce91d13a00e918461299f7554603e3969dca7588d0f00371db6a89cc0d223306bd1207ee340d242e0056d0c96568765bf2e,
   0x3f5b032a144a8ea1e006d148825a26b243a04ee38a48a113a123405309cacc66049e45e04e223e13aa5ef63b800f06db3d834f4975e0065afcc7953d839f801ebdbce83ea70a05c0401a6b44a35ec9a020543f7ea1ba0207e8401f08bd62707284c2c00f7d26f84838781a003ee1a823b3f065d6603576619336ca64b3a06bb78b6741399f6920056d09f68483902d22,
   0x3df65c0f9b7ce48600071fc91f38e14cb7004fee46f78b35b1502051d6b3beb4d6774cc04f6df4a90a023c5c000ef9a58484cb29ca2005a6eaba89a11b5d602057f41a7d04e913004058256168ba0d8f8055b15b753153d1afe01f5f68044ef82cad80107283e9340b5b23c03f888477c108ae6cc033d4005bf8a17744a06b8f31087a2d889ce0056d0dadce84260950,
   0x3c8da966ec29cf4000076d085e6bacff0f8050d9dbc950c6e6b4a050b2f49c0f21a361e050b3f10802ec7141600f0746dfe88bf658a00500289d6983982ee021eb2fb8a8bad050e0407a41cc57c4df64e0570c6cc27ce61bee001fa43ab8f46bdee380117426a0eab55d3940403ce7f044e6fe29c0324931485a438f8d006b5706b79a09ea1680056d075dafba3c2b8e,
   0x3b1fa7bbea263e4f3007b62ab5a248110e8051a438a53962bf92204fa181510ab3ec988051f60372d2c86d73c00f312a37ffea54ba0004650ab4965ace54002376647aaf31e008e0407d917f3b105a6c6058508b15678b4dba201fd379ac09deec5f8012824a390bd79a81c04101e9312f6e26660030d7dfea74f484a6206b0ff0487e380c2aa0056cfe978801c0df78,
   0x39b22af5cb1357ce30080bbdb7ae7f1e03005269ed8f9c976d8ae04e887a9c9efb72dca0533001b0102a226c200f626788dde849a52003d67a48c051b6fa402505f5b9f8ca9ee88040813774e68abdfc20598cca8aa8a03f5000200a9e2a970a8485201397aaf7cc15af274041c1b6ede3753124402f66bd2eaa67390ec06abc9e7e75b43ee0e0056cffcd7705a9b6fc,
   0x38496de881cf16944008783a759249ae0680533b3a279935f553204d589644b8636eacc0545e48955286bb2ec00f8ef8b2eafedd6f2003561f2e527911e6e026a0b95d1ef1c935404097b2ca6e68f7c4805ac8f66de4cded3520205b8fa825d065b36014b113fa2acf798ec0426ea3325e646b88402de784cbd944bf1de06a5e06be8bbac3ffe0056d031b15eb8d5cb6,
   0x36e78131694be2637008fe6b52aae14d3400541b09fa5c93bf29e04c0ebfe8d6009bb8e0557eae49f884e9e6e00fb4556163f14b29c002e568ec4bb0431f0028474feedd87971ae040c54558b878f08f005c058676845eb1fda020caa938e26563cf8015cd57c7c32253b8204304b622de1fa80ac02c58058676b19249a069f400356cb5bae2c0056d063a8e72cecf4e,
   0x4eece00764e35f3f000760fe5a51d7fd43c041d148002d521818405dee5b5bedca50f9e03d37b4abdc4ae0bb8011fd83a8f5151829001228148ec60f1717600e62e95868443dff403d7c9438e2f38f2a2041b6f958f7a36711601dc392e12d828f2fa007366d7480ddffdc00360b38c7f4e4a1d8d847a6157c47ce7014e06989d9ae553dc78b80056d12642d491d28a6,
   0x4e0cc4bb43d57b9960075026cbd99ec73be0434a1e5ecaf2736a005cfa4f974683a4e0403e69e1c9ae73418fa011377ecbc5da2043a01118c88b66a9963e200f843ee7c2336a52203e383065d248e857c0435d198247ec429c601e2d1d3c6bbd69a820076edd0c38cf52c80036547fee250f2a1520460a5e03376b34c8406a0ea4484b9779d0e0056cff68aa118c5b6e,
   0x4d6d2ac4973762e1c007691ba687fb8d008044af88810f18e1ed605c021806fa13646ec03f4cf8a03b56d916e0106dda7f3f81b0aac01048f25d38ff88726010804a98fd73c617603f114139c90ac6586044c657c57ae2cc73801ec2b1308239ca5fc0078e03c88e7db538e0365ab1cfcc60c8d0b84491b338940b3c89606a7bd6da434da65c20056cb8b55d28ee82f6,
   0x4c5dd8be37947b266007148c68b1ac9d4540454374359f24074e005ba8b3736797698b40408076bbd3d5efe9201063b686df6543c4c00f66bbd0aaad13f380115f3976bfa3eeb5003ee72277039fa6510045dfcdc43aa21f8e401e74665883f27cc8200811871ee664d023c03732c463fa96d109c043ac7ff4f9d374d5606ab65dfb40dcd0d940056cb8fbb93391c54a,
   0x4b4c7933554cd751a006ee616a17d7e9ade0464b6615cd793e4be05aef214f42c7cb506041c24658996e191a40100b11b78c63d93cc00e6f67df666a082ce0127ade14eb67644ec03f283077d10259f1e04749d21e6feb2deb001e8504476e04a7ff60088a0b423dd1babdc037d17385ebd8702580425a12694a291d5fc06b04bdb74a62699c40056ceb858f922a169c,
   0x4a14cf959f1043c6a006b9751effe30d06604735a9ec0aa90744205a448114577671cee0432144ba9501d786200fd905a30d232020800d6f260b1c2ff8c84013a4f02bcf064305e03f39873e094f3b592048b387d0a5687c18e01e6f064960fa619300092354b6f0d632d800389fa945b6d1c5f8b0411112055b9fa6e6e06b4461529c40d91300056cf27a90df726a1a,
   0x48d2e3c6c86dccd0c006920be86de583b960482cc6a6c47ba57fe059855a6914ca3806404485c687705a8e57000fa5e2cc23440398c00c703aaf4168f52e8014e208c218617210603f544e9aed1115d6204a28967665ea0f96801e6737a84005fc350009c7b4054fc09223a0396b71caa7b9adf5103fb45ed9a13b56faa06b7c576213673f0cc0056cf0a6b00770757c,
   0x47911db27816d98be0068359ddd0587f6e00493fb4537a8f1ffdc058a4582361d298f1a045e666b6a42dfcaec00f63cf54da38b2eea00b77714d2692716fc01633f6e6aea7dc1cc03f8d4d006bca87a8204bac7001ff4c5385801e815bf2db42efe6e00a6fb7e583fec0ece03a2227b57984e1cd003e399a5fd22af36a606bae42c9168318ef60056cf48e98b7b58dea,
   0x4654f09d046abcb8200698186e7394e14f604a7f2660a25fdd9d005792229ad1212a6360473e88f36ffdc966600f05df1847b95218600a86cc714c0a1f25a017a0d7b41db40ab5c03ff80f591136a2e1204d468d540577d2b6201ed02924288b5cc2a00b172b156f4412bb803ab4dc54c18dd22f703c92aaf1b912b9d7006bdb7f4dada2680060056cfc2b4d0f08062e,
   0x4511d01a3033db110006bf1cd3d6b4f8a5204bc6f8f1a822ce7260566ace7ee3bc9bd3004895be8d27b80b69400eaa4726e8b7738e00099e99e5d415454f00191f11b3388e659500406bc47582881a3ba04ee545c838b08fda601f2fc929b659723ac00bcaca14eb5729f1603b4176eeda80cfecb03adbd552738a61bfc06bfbfdc2c600ca4560056d031c8998344e74,
   0x43c0287c8d5b8abc4006ec3075dda8c32e804cff764c93c0272be05541c0bfa9ccf5fae049f0f065339ca92bc00e6439aec709abc2c008be7bab48248c49201aa7572d4b66cc5a4040cdadd04b41075d00507cfaddfd36a981001f88284a16061375000c91ee795c8de2a8203bdb87b144c3bf79a03928445a07f92386506c0b6d5e77ae7ead60056d067cd4cab536de,
   0x42643b9235ca1ab980071fe7eda7e94010404e276821a056d1d58054186d11ca43862b004b4c029f0b270f81e00e32bec04fc2fdb3e007e8d5e6239cc656801c3620deed31af9220411f1f2fb348e0e0c0520a62b6cc0ec792a01fda7459fe14f6a5600d69d0c7d40f78f4403c7fb287f204d8e400377ae610485fd9d8c06c0a0b85a4bbb80080056d07c65df812154c,
   0x4104c19b5e42aba660075fb1399b7ab815c04f4685dd02c4f3420052e8a6ce0f11e600c04ca130f59ae03e9b000e0de99cfcc345ecc0072044fdcffecec0601dcb1881707c56b0c0416b60627a4acabd20538eb1d0f695ece6402031012d0ce5207bc00e4d55d8c83f2f42203d236e4cf2a3172c6035cf2ae6a9d680b2906bf962fd4bf837bc20056d09ba85ad2fa9d6,
   0x3fa641bb42ff12320007b067c255ea8d19a050640c1423ceb48a4051ac47eaea89a3c2404deca06c5443cc7de00def1c29a7b1fd70a006667ec9611a1e35e01f673e80e44fb810e041bc0ffbca8fcfe960550bff2466ead05d602094c12fbf0a32c0200f3905229c826c54603dbe670e0c76824800341ffb6d3e4de221906bda8a514879b84c80056cff81856a6549fa,
   0x3f883f6fed138f1980075bb69886421a43a04fd646247253668040522e695b1bb63f90004e0370ab186a3dc0800e56a3df896e32d220065f975d9f5dcef4801f295d95d8cdb8042041203093c593224ec054c279b9db1a1f9b00200013d44bd29574c00f52c31a70527c9aa03e2cd62fafef025700349dd889ed5f0d18e06bcee5d1c82b061040056bdc12c17230d6ee,
   0x3cda67f29884d6b940084c5ee64303ccf9e052422ee7e6e0f344a04f61d2ffd98771e640507588117857fd1ae00e0269408eeeba072005186556ab11d3e2e0228c1d49f57d2a14c0420927395133bafba057c48bd62a284f3fa02124ca90cc14272780113662d026e0b31e203f1fcd97a9bb86244031070a670d2fbbbda06b6e3839fa89c52ae0056d02c0830859be72,
   0x3b6bc531948b432cf008938f7a2e9df9792053014a529bc39c27a04e57615908a96a0c4051b59b4609c93913c00e351e7531d84571e0048123ac5a8a299c00241361127288928ce04202716d430660a4c0590079628b38573a20214ca451306f25c3a012478a4305ec154f003fe9c4769d2cbbd5e02f9f1d72176382af406b22e1fdde8e64ad40056cfb47340044e52e,
   0x3a0075996106cd5d6008eef1340b5325ca8053c7ab0f9ddb749ba04d39fe21204c5e6c4052eb247b7b8f5b4bc00e668598fd269f20c003f79c4c77706e188025a44c01c103e1164042098467a0462c47a05a3a61d6f36e741e2021897dae4f6d42b420135dda80910956d2c040a4b2fa4b94d108402e2cbadf869f4200206acbdf82f8493307e0056cfe3c5ef42a3b68,
   0x389a988beeb4552a9009618d1c333689fee05498d3c526629cc2004c061b4d2b5b3042605413fd4538ed20d7000e93a812f6a1f28600037d2a6ff09df35ae0273fc0b3a6450c5c80422336fced062693a05b731c6a6c4597da4021e034875121f01ce014780abf393a892a00414c4750cbe29f2b202cad2b3cc78ccf0c206a6925648bdf2d0460056cfdc5d56d578b4a,
   0x373e5e816bd998b4e009efbb4b123230fe005579ac04da997ba7c04ab70cc963189f5440552c19efa7462527e00eb7cd884033b677600314296b7be277c54028e60b8cf399b625e04256f0d817ffd282405cab30ffa58e9121e022580bc2909d536d0015935f67d6836ca2e041d96dca8a2fdeb2202b1d375719b865e48069faef2077d37afc00056d0072abe3879578,
   0x35ef93647f751bbc980a94f5a247a12cb1c056629db3e84b7827e0495572e9f4ac041cc05630531936a64480c00ed5cd54c883b7a32002bde7b32ee85e34002a8f7f0db868d13280429f0edb7bb35749005ddbfc5009a30bf08022eabbb95155365be016acdb43e13c849a40424daf4f5f79f96f2029864e36c9a0652360698246f01718dc44a0056d03b06d870fc038,
   0x4dfdd7658cc2565d60081994bbac040390e045ed61723229215ea05b011b79f65c9384803ee1e9355aecada3a00f5ae7cfe6ff0511a010657fde523362d3c010c5b4434112113480409144e21a6fa6acc045489dd3ddda8617a0201d17a2be7de2abc0070efcad40cfa5cec0352b319f5aaa42b31043a25c3138314fb0a06ab8b33e62a7135c80056cbe58764b7a8b6e,
   0x4ccf33bbddcce5604007c2031aaf6eaad02046a5d555d2abb437605a8e347a63bc9b1ec0403b88e6217026c8800f41f085be23bb37a00f64e8627a3ac1034011c7c2530b003198a040741d50fa879fdcc0469038c7b5ab3f68201fd4f40a8707d3b400079f0b3df357a68b203612d1d109c79b6ce04290e018a923e583806afe40227089adcf80056ce631148bf1f81e,
   0x4bacefc5cb57bc158007a374f9ae4894fba047ca45b5183af4b00059bb021aba3ca191e0419002bae94d4960e00edd0ac86dd28f4c200e60458a6076703b8012fdae06d1b73e5c8040c620b6dbba8a61e04817627b18719625001ff4c191b2d2c6722008203a37bba4b285a036b28eebd33abd6ac0411c98bcb57bd02d006b4f7e220c98f7c880056cf9858d7ec07798,
   0x4a6a16bfab420a4f6007685394011268fe6048a67969675e7951205918fab5f9a5d1c2e042f6cfb5518dfe0cc00eba0bea44510518200d5e9152e7483380e01429599b8cc1c5848040c49427f9dad6b4c0497d3a5f6208d098801fcf410e88c80e58a008c3ce2b5e1b3788603791444522e77010a03fdb4c457745d39aa06b89aa719b25ab1400056ce5861f2482373e,
   0x4925b90ac677d93940074132477aec4161c0499536a58971798dc0585d08322926b26940445a9189ace9d994000e8efe5f02519fda000c634e7a934edffec01565fa2361f77c7c6040d772ab3e862c59c04aeca59f88d266ecc01fc2bb7256e1b98c80096ce22be9eeffb6603861799234e15f8d203e84100d4dd04b58e06bbc7529ecb98bf700056ce400acc1babdea,
   0x47e5624281d20d2e80073a05f86c9930bf204aaad7e24bf6e53200577507b163454ebb4045b71b6931e8dd69400e4c56dad3a773c9200b6fb2c406231cbfe016bb57b3d8a36e28604115ab48b4390e10404c6fa3ebfc22608f001fe4c0f88c3b6378800a16aa0f3a1d84bb2039126dc49362f55b903d0580a79377a0a4e06bea15e5e95d93ed40056ced1b5431d23052,
   0x46a5fa83a18cce73200757615f504453f2604bee92f52b8d6e71405658b671f925170de0470edf030eaf63a2400def35c57e04b479200a82e1b198c5dd3780183076b499151794a04184f12422f39dbe204e0c2cc0320a5d13c0203baaf8fe74aba8c00ac3b57335832b340039a21dc1ab1d7657403b56d30d4477d0b5006c117fb95ed3e57f20056cf6333a9de53e90,
   0x455b17143f3bb288600785d3638b4f25b3604d395150299befdfc0552784014bb6a49da048698c5643bf2c71c00d976df31f9b254e80099cd5b457471671e019b9960c092fb09e8041f96d65b24206d2604faed801f2c508292020a05d56bb0467d8400b806ba253a33490003a3061ec8e32aeb5903997735c52d84c79506c2b0ba3af73f60400056cfdbcc70e29a2d2,
   0x440509c587e7133d0007b9c4c389c316b8404e7160ff3e0d60aac053f7c33150f7c3a0e049c4bc1f922b1aa7000d560b39705d55918008c1207f286100b0201b48b735560f915f40425aea5a2ee4b0c5805146480a595777318020fcb7d0a08fc2e1800c4eaf7dd1bf6b99a03acab4680ddaf46c3037dfe9191ee10229606c335a82c92685d240056d01ff3c6547bc1e,
   0x42a9f5e0bc6d5e2b2007f4948d33919eb2804f970b9360e61088e052ca18c51fd8ddbd804b1ade613fb169d4800d282ceaf2c86b078007f29ed9b3054e5ae01cd9a940ad6468870042ad21a5be6e46e36052cf3a3da2661546c02153e0bf4e0cbd5d200d2a229e7354bb5f203b6b57bf05a1bd48e036329de8c3ddb7bcf06c2b5aaabae04cbfc0056d0422d1a571cb30,
   0x414e4ff3e8eecf4860083c8b7817150b18e050b4ce4d64bb2b534051959114feef5a26e04c6871cf08c525a9400d050d7536c43a7b6007328811b25b75b9401e6f339959fb9248c042fcbb18b72eb47780544dffa031e8d7c2e021b18cb15137ff85e00e0f10db9b7dd161a03c084f114a4764c22034875e88f79eb9e6806c1495b49dcbe57a20056d06ce9bcc35d2b6,
   0x3ff2f00ec0b932e5a0089373adccf9dd2ba051cdcc0415c0fcd12050576ad082aba607a04dacda9f4bfc1991200cea44e2311bf50b80068100294884465780200a849f5317553620434d39d2195eaf9f6055c428185fc6b995802219027f9866a4af400efcb866b5918a59003c9f0e66ae764d2d6032db7fea6d392346406bef6d26d28e02d8c0056d0977a9c2834e92,
   0x3e42d81fab9befd34007ff4fc6e16d24db205161b623f4d1949c80507fc8a14b296f7da04f3318482a264d89000debfb1eac0d59ae8005b9abd079282545e020fc9e6145b4d2642041eff552f220173ea0567289caf9f2967e4020e59846a81b1b690010319f1514525aca603e6818fbf8c3d2e2003288ac7a7f5a7894a06babb5177a1c65a0c0056d0b874473dd024a,
   0x3d28ea3e567fe9d54009334a75dc6423cac0539d0e4f778b2e77404e11d484c8eb612d40502dbef33066e6e9e00d09e396ff763d5840053e09d83d03709300232b3fbb46ec6ab4a04390644fe9d98e42c0586e8f33fba5b8d28022a54e79eeaffd83a010ff24349ed6f090003e01a36c88516cc5402fce4f9c3284fb92806b7919267a97ee1de0056cfc90135271113c,
   0x3bba1a0f84d38dbe0009793c0c469a2f016054535a3da0afa066a04d0cbea3fb0b9ea760516bdd6b66bb7702400d436da9d5534d306004aa1fd0d8165b954024af4fc9e777078a404382148012b920bc2059a3d54ff77506984022c7b060b2e75bfbe0121289e543d7209c803ecf1786c31b919b202e6dcf3d37f90d01e06b2a4f33d5dc9d8760056cf780a3f8cd4c3c,
   0x3a519eacb95ec55c8009da6473e59562b7e0551a1d700a1f0c33e04beb5db59abc85bf00529c57d13639454de00d74e3fb292ec00ea00425f347eba42368202640f29755f00805c0438caa2c93bf5ae2a05adada616f0e59f8a0230a470a2fe48f9c0013295527232000e5003f84ba6103693ca6802cfabe2deb7e098f806acfb177defcf1f2e0056cf75b1f45f8725c,
   0x38eff22c6f9213d0500a4ecba0a9d9950ea055e4edf4545b37dc604aba7edbcd18bd5c0053bef15b1dd3442dc00da59e1a4a84dde20003b16c820721680ee027d7f34e01ce393c6043a3e0f497461948e05c0bccc29784ee74c0236090c8959e0171e01442fd38ed3d0ae1c04029fb46094215d3202b81dae59e2a9a60606a69a3225b95553860056cee248a27f9c6e0,
   0x37a1bbafdf09612b000ae6ca2bf4924c914056c8cb1309407481e0496651fb169920da8054c7be47679c2825a00dc358e1482654258003532e3688d7edc5e02978bec5964fd4b6e043e4163787220dbb405d3c48782a6c2b99e023e62f9bcc39c3ce601556f4d6b3e0b2f0e040a5f458852d065fa029f36f261dc5f40c0069f9536059faf55c60056cf64160ac1cc850,
   0x36613106cb8d0388b00b958edf738b33bc2057b3d6c69bc38e87a048005a9f34828140e055bc50db865e6883000ddb77eb0d7b0feae00307fed44a4401e3e02b1c160d340afc3f204437fa73e6571cfc005e64b4177893cd8e4024860bed2028f06b80166907f636c241c320410942c48915ae0700285f0040ab14871180697e67b80a67714f20056cff5f47454fc182,
   0x4c0ca713333e2af4c008666f5739ece184204944c3dc870b434840587d9964f46f2d446041560be64e878431e00db73a806c0abd42000e5e57f86233c7ef001386b18fc295c42f60426471c51968da5de048dd7b75b252f642a0216d522723606cbde007bf51df43c3d85dc0358eac35cfb596d9a03fddfefbdfb3f096e06b8c9393b59bd21340056d001047d469291a,
   0x4abadb9cc671d520e00813ec085bd0d00b6049f20bef5d534b81a058015415d20696640042c621b06a354313c00dba70b7e765f5da600d5c906e42cde3544014a4440b0027731f20422e3ca17f2c670a804a2c10b4a3c4168b602118d2afda428ed5e00871cc520068e291803693a9f76a76b2cc703ec268a90d240e16606bbd9657697b41e5a0056cc55ff00899a4dc,
   0x49772373638666b5c007f4309936815983004ae8000925ae07fde0573bfd1ff678c61c804427e55ed97ec20bc00d8b837e138a6e1a800c63e17a4d72ca176015e64c4a4a217d156042498d4c5e8a1ad6c04b9eb617da8b0b2fc0211617d5ad42321540091bd29cfc98fd8620375d6bb18bf64478503d635fd4cadaebdf006bee337b56482fa100056cdbadfbb9a9030c,
   0x4833b0e71b2d1b178007f63ba0ab4554cf204c07ce20116619992056467b8bcf65b1138045857c4e641e42f8c00d45079097db4274000b71ae2d8c803e0c001745ee414984f7c7e042914c79cb95d42ec04d28a4919e9380ede02143b29fd807b61e8009c99503b6a05abdc038092310d139a63cc03bd82e1b1575e6e8c06c187ffe1aed292600056cea4a4240d7a45a,
   0x46ec056daa9f67b0c0081b03af894f7447404d50895e885eeb20a0551f1ac10626db480046e1c4d584aab252e00cea48005c1869c5e00a85d0e346bd5f3fa018c6fed7481b869a204302c77bacca8463e04ecb0f9b4ae40e896021a09094093daa60400a7f7acc9eaa805420389a40cadb39aa38203a1f079fc3b382d7b06c39da71c8a72668a0056cf2157da9b3f0ce,
   0x459dd80d84f082d780085329298ff6f9d9c04e9f1f0e53cb79588053e31f5016ffd97580483b71707230454f400c94090cb154a9aae009a4ae386df661de801a58d0ec3c489f2900437bb9bb6746c35dc0506f7bef1b56b1f700220e0398fbe33b37000b4283fdd35541a62039252482093ce868a03857e7ffe3885e8f606c4c74b0a4ecb2ce00056cf9a11c937adf20,
   0x444a5190a4b87434c00890e34ef71975e5004fd810583ed94e824052abcb2c834e1f8840498ff74484026f11200c53b269c13bf8caa008d13a7daecd78d8001beb10e5b53d44f62043e236a1c4c5caa0205203590eeba77300a02273812827c8275a400c135b3b0987f4510039b84199d84d1ee130369de49ca5d148e0f06c4e11d6fc48ce0a80056cff088c05448558,
   0x42f32cb207b43bd82008d3daf4e8946b994050fbfbb51e16390da051799e6ea2690c0ec04ade4cb26eee5314400c27cb958381836b40080b68c136a7d0c4401d7c5df991a41d26e0443780d179c4b737a0538664c1c66620bca022d19ac88edf69d1e00cf03dc9356e1e40403a522c8212b851e3b034f1758e53ce2404406c3fd075faa0a51c60056d01462f3a1af572,
   0x419acc12318e3b9d2009241604825ab55ee05218ccac947455e3c0503fe25e4ad3a082204c24cdf4a7a8c4d2800c065afc685e13cba007537d96f0280d75001f131a4b6424da3160448a87410c37854f00550035fab7af90974023368095bebdc358c00dd6f369fa90bbb5803ae8a7133e14a6a4c033460e7eeb3557adb06c22e55d19695665e0056d0405d25f59fe86,
   0x404169dfcdd68702200983eb8892f9360c80533242639aa74340004efae4c10fe5dee5604d6348d811992cc8c00becf4ad8641b4034006a99009b8d6909f6020b16ab2deb3c14ea044df281be151a7aa405672fe7bfd83a3740023a608bf8d9f33df600ec7502c60645af7003b792e519349c4755031980b71b2637f7ef06bf75d76e4ae822560056d090c4f99c192ae,
   0x3e925a9b016c2d044008e9a63311e29ea7e052caed92cc108471804f262985e0484313204eed393175707981000ce868fa6e1fb34e4005db3740028977bc6021a115b6c1747828e043845b95f3dac2b32057269973e20fffad8022705b2508bb5c2de00ff6d7ed7d78da39c03d42fb683174db91e03143c8b2d37009b4e06bbb4d6ae67a290b40056d0924354d7a3b0a,
   0x3d72f3fc9ba36d43600a1feeb015c738ab8054ea56609a37dab7a04cc29f1499c79948404fe28449578eca41e00c205da7663edbcf60056db946044817b06023cca94ba77762ed60450c2ae3401649ed40590e0b654fb996ed40242245f8d8a152680010d2931177bdfcca803ce86e0f27d5641f002e9c92c7216bc356206b772bc76e20d58680056cf238a2c301584e,
   0x3c0589e335904af5a00a663bab43ab5aafa0559aa2bda5a95fd8004bc0adb3621d3bbea0511d78d8e44983fe800c5e2b3a3debfac5a004dd879ef81ed3e4a0254dead662163eae2044f9d00f660622b0c05a3da7ebde1f9bcb60244260aed7e993bca011e6df468978800a003db66d490babc55a602d4183819568c844e06b2586c341e7fb96a0056cedca3e0b851010,
   0x3aa2cfa39963fcf0b00ac7398cc91fa365805658fcb779ddd174404aa56b01cfad0ae6805246c754ec41d98cc00c9381d40ae76ad3c0045f3484c53ba4e30026d83733ef82dcf24045006b2b73236d49e05b6b0b91ad50794d002482678e793ad6574012fb86dc0ecb6956403e6a16fd0b8a65f0c02bd82e25ec1f301c006ac89e0b83ac3ad420056cdcea9e9577d6c6,
   0x394d54ad3fdd3744c00b33a4b55e011449005710af183259649dc04988557a6f37f2f1a0535d9920e77a32db200ccb22fc7c4de8cf4003f18bc79878a7fc20285b74287f9ca8aac0450bcba4a08d966ba05c88e55f9570beb38024cc713204f36b1340140d3bea41d656a2c03f0f60e2a9b3e0d3202a7752b6652e408b006a633ae4dbb2b608c0056cc76479bf86eb02,
   0x3816aa25d71c8c9c100bde40033b32c55ae058024fd866fa5e7ca048257ec129f1877940544e4bd02ae7285d400cd7b57fd5155f8ee003a2c12ebba9f9808029f6c225a03b4f3ec04568a9f3d30c2ea4205db2fd63a569f3ae00256f47595cc5b7fd2015133454549e2b69403f6abdfedf4a060e6028e3c9dfc9eefe1f0069f204ebcb0d45f5e0056cea5903d98a2c2a,
   0x36ad324e62a5ce2c980c954b460f7878888058eefce09187c9b7e046ab5f2704808bcac05560584aa7836d9e200d05882bf38db5a9400350cd751dd20c58602bbfd9e2f11d4626a045abf7e567e73569205eeea28efb685d2fe0260a00a7e97b3796e0164a05fce5342052c03fea84649b9a47ca4027370416c09d39446069649259d029b582a0056ce8e2cd781ddc6e,
   0x49c11dd3fa405d26e008acb1d9ef2fe5bb404c3190aaa3f1c903805618cc95ec86519fc043f5a29da0d29161200c94ea86887cd119800c6b39f26ddb04d520166c8ac9ca23d8a30043b22e055b43dde7404c4b54aecedeb34640226700ef4bee2dd8a008d6626e09d1aef260365f7a41e0806a73883c44b97c64db1f3fa06c149392ca997aa340056ce01dcaee9db9ac,
   0x4878045d6f32ad912008b975516b6b1c5fc04d5ee1f272fde2f0e055121dfe507fd05e0045569cdc3e1cba97c00c49a396c6ff89af200b79323a1d0b0aca8017da487fe3a936f7804405585cebbc75e4404ddfb5151b69aa466022a24a7eca2a4dbb600989e6ae155f99bdc037063b0a6fd31dfa403aa875ae4954d785d06c3b3642fd9f134ee0056cee80e203fbab0a,
   0x472dee94de38d6a6a008e70f2fa7a4843e404eaa0d39b1cfb2a64053e1a3826a1d0f68a046b1318afc42421a600bf0da07052b6278800a9280755990f6eec01962770cde082658a0447a50c5943fe256004f82946d6e37a6e0e02306c40145820995000a4568c1533eee41603794233f71790aed8038e9677d0fd7933f306c55e70e560e220ee0056cf3de70bd67196c,
   0x45e391f5691d0cd6e0092ac3550e35d880804ffa9b3072bd50afa0529c8026263f0290e048029c6f1f674244600b9aad027381439d2009bae91976cf83cc201af7961667be7ac4e044fa55a52075451da051231e1174fd8f8c00237fba9c23ae347bc00b0a873e0ae798518038158d96c2905f34c0371f05fe0e86687c906c6151a8d31db34080056cf94df1fa35a228,
   0x449485875baf20d5a00972e66111eaaacac05134334559b25ca940515dced09dc5474800494e822c6fa14248a00b5ac9e7ce850e25c008f0f01330bee03e401c8b9edfbbad4e9a004566ce030425c005c052b20d9a2767b104a023ef59aac4929ce7800bdcc035afb0d8b240389fa38263a4ccd610356381321d6800a8d06c5c3868319903f140056cfd97d9bb15c042,
   0x433f6cfc96daa6614009bcdbbd219c42208052558c5321c73d2be05027e558cad81434e04a96e520f3d32f89c00b321a8c0a4e550d200832b16d2089d7d4001e1df7304f90d330e045bd32d47b630aeae0542fd580b072e491a0245274127c727686800cbc44dc0b60c0e040393532ccafa31d874033b803d5e1563a3de06c47a7fe26c0b160c0056cfdf1c4b074d39a,
   0x41e7bd5b7eb91832e00a144e74676807c8205370d89c454f5a29404ee94b88a0e2d52a204bd8c34244c19bb6000b13c6db9222d4fba007819614936a219fe01fb74808e64b037e20461192454a984fb20055a5d8d240bff2d18024bca50312dadbc9200da67f3b6620bcaa8039c7fa74c49754bb50320bf4c3f9ff68a7f06c245a7720538f5360056cfeff3b669e1b5c,
   0x4090112afeb2dd13600a7ebdc37251434040548cfe74c63de94dc04d9ae9b388512283a04d11638a192bdb1d800afa9f71ca78ba442006df6b51d434adc680215a579fc59e7cd720466c817260b56dbe805716ac6c887048a8802536a018d493f58da00e99f1e368954fbde03a50fdcdbc22ad19e03059596663dc0f54e06bf21e7a88b06a4ac0056d05baf63d819974,
   0x3ee08e35528e4a5ec009dedd2177d34412e0542ba319c40c9a58004dc7972bae925524404ea057c35978e4f7600befbcb30cbe5b9420060968debf8beaa5a022496b370b6d8a90e0451494e7de03d5da6057d11220f24f3a0d2023ff424abdb9e4fda00fc530f5c505b501603c1c1d82131110ee803001c2fb3a691484606bbd7097acc05102e0056d082ea59ad8373e,
   0x3dcb6a57e2cf2234e00b0500f26a3d8b45205614de66ab97ea03604b8f5e97eca711b7e04f84aa3115451ed7000b496798a8a6f97a6005ad1df4739c7f39e02453e175b9a40a1c204670b3dac5acca4920598c8b18c625c450c0258c32ad5955c93d4010a14a969f4803ff003bd21351fae91a40802d90802ae300f7ebc06b6e7350d2605bbb40056cc884deff25b7da,
   0x3c72c4d58903195d400b4a6836b5a8f8c76056bba86405cf4d0aa04a995328fd7b4a92e050ac5422965eef28c00b843d56cae2258e8005275e90262e14798025c0f2ab86294976c04660c2e2f9c38a0a205aaa5adcfdb69f8da025ad3d46661ec1842011a746fd5a5d0b63003c92a8746a92b29ba02c47cba0551e2f53206b1f31df3d6bf616e0056cc5b26b34acb280,
   0x3b21635c6c482a7e900b916337a6a322340057518dbe8f306ce6c049acb2329128819f4051c81b05f1059406200bc998877eedef13a004ad96e6ecd5c0f2002723b48fd1ca163a20464745fe87b80c84805bb661256665c646c025c95af7b6278dd8c012ad64d838bb51dc403d51cb4e57f6ce21a02b0fe70baa6ebe21206ac876435a7a4e8600056ca1833bdc44aa6c,
   0x39bfcb21778a617a500bf595205b17ae1fe057fd7017a72d6ac0a048986d859036bf0fa052e92ff259d89fb9c00c0e4c413f58e57c40043b70a69ce81be78028a8fb64ef11add9a046407ec8c3dca93bc05cd345a69ab8993080260317107e36e82ec013c870bafd8877b4a03e08a548684f6994c029b51606798c5817806a6013ef71858b56e0056ca9a15b96a2c52a,
   0x3824bf0a398fc4bb400cbdf2c28d7fe8846059129523f457fa53a046ecbc4edf533eafa0542730e7bbd57bd5c00c3985eb4ca75d994003d3f2479cd2f575002aaf59fc8376c5e0c046911a5434f450a7c05e431813cb64bee40026b0bdbdcb4c4fc8a0152386663d5450a8a03e9b5d5175b308244027c96e63ca7a1461a069c987c50dcc990340056ca189182964a89c,
   0x36800d8f0c3a1696a00d8e54ad08fe7113405a11c8859fe4794a8045428c8348492d81005562358c01de9432800c7dcd41a3f2fc6dc0037aedfd58263efca02cbac08b44fe6545c046cd9c94b48783faa05fa38238a16ecd97e02756ecd5322c184720169133f154cb2e84603f38a8f211ab5d712025e83aa81d9131ffc0691e8b5b224f085220056ce2911783e7196a,
   0x4774efc29a0ec696e009c11a0e71085032204fff42af2639a901a0529c936c28728a12c046742aedb68f69af000afcaf3892e50aed000aae3d336494b0fbe019ff7b4e61b919e12045f53d8989d0aa4360502fbe0e24a80e7c202477b634c4efb876e00a0f8c139f58aa234036843bb2f42efa56b037b57be6d61cbd16d06c660c6d88cd949b00056cf82cd022c77566,
   0x462db0d5c47ae240800a0e81de9432f624a0514e7e7b087a5d6b2051513651b7aad5750047bdce22bf5b176ea00aa9046ecb099bc58009e01ec1a88b659a201b9686538daf6c0ca04678bf2be33fdb2dc051caa7c4c2175eecc024f8d38eeb272305400ad7678bb6b12f5d4036feaf5ae85cd7b20035eabb57a719a6ef986c69eb1efa4692e020056cf9d49fdb81f1f8,
   0x44df77ccb90f8506c00a5f0327fe9d493880528713a64274ec4560500c82a855f5df7a00490489b99df52fe3a00a6c1f15b52af61dc0091dad9f0f2567bea01d2dc333d6b3d91c2046e765c257032767c05355c626e36164db80256ef7978bbbb404000bad749ea4a2d91e4037843b246be42f4980342ddbb827eafd02c06c5dcca0d28c2bbf60056cfb1758857d1542,
   0x43890286bfeab4cda00aad0e4a8dd1cb3d0053a325bf650f1701604ed582da770eac54c04a4a5a742b3066b8e00a49a6334e2d1152800864f4bc941215b2001ec19f10f323937c80473a1a6d92a069c08054ceb44f438419dfe025d250ce33428cb3600c91bfc147ecc9eac0381a7b247ff99cb1f03284b1c6f328eb34306c42deec163f24dcc0056cf659c24dd8a5dc,
   0x423ccd3366528b29e00b0561562264ffbec054af9da4ea05aca2c04da129bbfe018fd6204b7dea22048cb5e0800a31da062dec42be0007bf850eac08558340204d81ca6113159f4047887cffaf5164b7005632b5cfbd5d12182026395905d02f63aca00d77b64da448eb72e038a81ea547c28c295030ea19e17cdfc64bd06c1afdb322289af240056cae6a2b746da234,
   0x41f66404f38df683e00b1b0e9aeed894de0054e98f619158a48da04d5ce553658f6be5404bbdf20dad0119c8200a2ce0b01ce80be9c0079e538dde9b8fac4020a336fad5fb0ea620479adbf8bee762ff40567e18544125df190026521941aa1592b3400da99bbd2d2512a22038c456d0042b1c3d80309151b9fa853384a06c10ab0731097072e0056c154a2494182a5c,
   0x3f345abdf16f957f800add9b2947a5802fc0558026e23dfb1c81e04c692337b46c892fc04e4666d88e64e121e00b011338e9562503e00647236f5b916e542022ee3854102bbfcb0046a0aedec7c5217760586bef1276d623f600259180a3d3adead6000f978af2d56a36df803aefb97753a356fde02ec9758cef891408206bb3806c2c8905b1a0056d0027b579cb45bc,
   0x3e0582b7b8c9447f000bc8430a6c8a6fd70057097072d7c02942404a8911c968687f8f804f3f9cb5bf0da507000aa2d55e7eadbc4aa005e2c058cdf7f8432024d2161265b974de00478ff32fcbf32c920059f904f31a24ddafc026b6671ddfd9818560108858101d4033de803af5deb37694647cb02cab5935b2b4b7ed006b5cb88e7a4a08d1c0056c83b1d0c47dec2c,
   0x3ca4a4af3628e028e00c1b1a58a6c0c1ea2057beb4a1e45910b8a0497e5fdf6fb2feb0e0506bae81b20789b6600ada3807c03a84cd20055e1892fcff9357a02650ff2c92e9aba080478bc35c77ed2f76205b2280525b387b0a0026e703871b7a0596e0119739cd69fbb35fa03bb1e92289199175802b4eab00841a50b2c06b074ad38e2d6de2e0056c97e30b0e78996a,
   0x3b27b379a5c83edcf00c551a01c7973c44805846dfc103f73ce5c04895a6975be8d7748051acf30d87c0764de00b3c73314e37bb47e004d3374fed83db072027cc43618979129260474d608ecd67ef13805c3d365e5d9be6eca026e44d632b9c79738012be55e3284b1978003c9f058f26927eba202a101c989e3ef03ea06aa6bcaa9a0172d3a0056cad8844d0eb279e,
   0x3998b60c5de05cae900cd0d2bea805c5cc60590ca1c4440fdb5fa04753625d723d84dc8052eefd21e57d8877000b8a30040186b63180045922a6fb56cf8dc0298a0632c7a4acbcc0474c1a903128b03a005d7e76f8f234ccf8e0272ffabd79880aed601401e01bae35aae9803d66d70acc0e86a3c028826529f2964c9ba06a2a3a73f06ec1c2c0056ce1b25c3382d6ac,
   0x382df81103fcbae0900d9ef8c50abe77e1a05a17167fc339112e8045b748fc39ea5649e053ffb7ef5723bdeaa00ba7b1d140356765a0040a97704762857fe02b68e7069c039445a047ae00e714203175605ecbb3270d69bbbe0027ebe44244bcf6ae60153c1326039159c7603dd2e40ebeb1836c6026b5c0d7b5bb29e060699895ce3744c77860056cef7ed603d0abd8,
   0x371b7e43e1dbc43f700e85589a7ece0d22c05b1ff4674cdd90e8804423a841276919b40054bc6f6c14b84bed800ba1d71fb98ef9c18003ebb79c87a820a6c02d0bfe58cda7b9104048423caa797de00e805fe407a5b63123acc028d5e2560ea7118f40163b781db0b4e63d803debe930f7c5779420250f0b472e3c8409e0690dd2faae680a9c80056ce5fc7eab0e0668,
   0x35a6da4a8ad2b649600e9f9fbfdbca3d0b405b3dd5ac5a4f1b6380438c4e445fc063100055e600915546d00c000c4c1b862d447b1ea0037ee25ff4115f4be02e4fd6a36b326e9de047a835dedcde2104c060ae67389984ad11602886ee5e8881daaf60176cd8e614fd5beb403f0302d3ff11bbd2c024346e1973d33544a068945a42f430dffa20056c9a1b2783e464e4,
   0x4520d6d38ba016cec00b52c1f4591f2fad0053d29a01e86f7264a04eb5c132aec9f4c8e048bc39c9b4ff484ba0098a8c4c723fca0b2009514f89c60babaf401dd93210483fd7f8a0485f9d1f9d7e9d2e4053f5f9e953bbff262026ee1fdde89c7e13e00b8bfeb705534f8f80366f06707212beb5b832f70361b4001a63d06c529186d15ac72d80056cf666b9ef4bcc9c,
   0x43c36773fa743127600ba1848bbbd2272cc054e73247f981b9fba04d7fc1f394acfc3c804a05045e9135ea05600971d578cd8cc5e7c0089ac00cbf1da991a01f70bf3c872971322048a9011df2ada040a0556c201c899ae8f0e0274c28a6f2c0c513e00c7899f7ca4141fc40370cdf19d44dbc562031503003cda53134e06c312a8dc85017bec0056ced1f7a79427e0e,
   0x4265467256b8441e600bfd556fbda03b8a4055f43bae4856d1c9a04c42c3460051fb1be04b458199b80a78e24009639da28e2bfc164007f251156eedafeb20210d0d5bafcc12e5e048eff7c6746b603c0056d878f46cb79fcb6027b0c315f165e4c2000d6ea1fcdcde84a82037a7163ae51cea08402fab1859a82b83e2606c01354682ca2ce580056cdaac295a23b4a6,
   0x40d31ce8480e960b800b8734c7eb24a924c055e6ad050259e7e7e04c2cd56a40ad3c8ec04cc1bc990d14a80cc00a13295a1fe8b2c5c0071d40d119cf3e2f00221327b3325ab2b82047f76a4e1fb0842f2057bb16c6e9a4972ec026ce2428564a8490400e7d1d50f13e20c8c0392bb236cbf81581202f117c47ee3cb1dc606bddb8c17d288476a0056d0134bb410ccc28,
   0x3f7ac9f02252fa6de00bea0ec8b399e8674056d3c3e40ed51660a04afbea14d34599fe404df023bd3cfd4b25e00a1e0fa3ae32e32cc0068c4774c76b56294023a468d82ab8938d2048299bfce3f4d21da059088375811603ec00272a41ab1061cc89e00f7bd6f79a61725d8039c791dcaca62bcb002d86f7a1043cc850406b99e44b1c3c11e580056cfc94c3320bbcd0,
   0x3e24d8b7b5cfa26e800c7be313a599d3ca8057e54a3e81f0b3e060499381f4e80afea6004f1062c9f8460257e00a18cf49e58c94e8c0060fd44002a8f182c025567c2fd8013622604888fcf6e1136bb0205a63b507b63fa8a8c027bf54d0bebb0563201084de1d887d75a9e03a3ec4b7a8c242a2b02bd1a56e9a9ad845006b430285a41d128660056cb03ff9fdf42a14,
   0x3cb22ad26ad3ab43a00cd9b69c23b6961b4058a62eafed31791ac048749bb2bc21cd31405048f7315586e972600a53171015d34ee2c00588be69a1fd63a88026ece41fb35edf8da04888b213fded9179405b9c1b26d0f4e5d9a027f9236bc9503cc34011a40f42978c8155803b00225439b48a76f02a5f426c32c4b9ca606ae500b4e374a64c00056cb483f935144e42,
   0x3b3c36a93e1c3e7a400d3cfed3da05c3c0c05959871c52323a5b8047570e7849c98c3880517d47bf7dd31adde00a9ba7417146dca140050bd57d01843a7d0028847ce591fa3e9ea0487d7df8be09ef69205cc97f1ea238c3ac00282f92eb8dd7d4d88012ccd09849c8645e603bc59b7235a142244028f4825e45f0f049a06a7acbe6d61d250d60056cea5cbdc118a776,
   0x39e37f43f071e594200dde2a3dc0127fc9405a3bd8f6b06fbb05a045f8fc08140aadb7c0528983771897c758400ac2b81b15a129548004b28a2f03dbf4a3e02a31e40712cba8a82048ba08d76bb97c47c05dfb25aa4b88d1658028b89977ee6d0e22e013ee5829d1d7b479e03c45f799d7a3d4b0a0275f401a4a9708fe4069ff0b50fe9bc8bd60056d0428384ec28e66,
   0x38c30e7bbe685990500eb2f06ad5b52176205b3d083198ff34642044731f0fd3665c64605357f44404548561a00ac49fa69e60302f000484f3cf6bbc9adf202bd51b01142b06d7c0493ba1b775dcce5c405f19aee6f4d357a040298c32533edd30c9e014f29c420858b53f603c757584f88233c94025bd36720e6a2b5b20697a5d93a686f0c880056cfcf5316dbc694a,
   0x37a4769abb25b26d300f9b193c182be3c5e05c3ddac88681c01da042de53afb0434827a0541b188809741a27400acbe33b8fad0a46a00467ccc0da8eb3a8a02d8068165bc15ded2049c3d9a2d40e5d74806031033306c924abc02a6fdddb9b31d23fa015ff2fb6cd4a3a63e03c99e0287afcf69e00241666a5acf5f51fc068e664ca70e666bea0056cfa7f72c5dcbcba,
   0x3604147e2fd2b3bef00f8e729c778a9333805c37c7f05133ddd940426aedd16ece323d00557067d146345f72000b9d1564f5a40a96c003dfeeaea31d12e3002ec910bff7e052a58048ead5e518bc25e900610033262c2521352029e1ecf12e725242e0174b9952ca118960a03df2f0641865962d20234f0846dcf52e4b20686cec13fa23701640056ce31e258122f852,
   0x429629983a7cc75fa00cddfdcd42e28e4740570475159928c619a04b14017bf12e105e404b01bfa91102105f4008b45c728a7f838200082f10419bc03f32e021a9f3c88e05fea6804a2a118f2ecbfd0b605756d6fe8c9f951e6028fdbba96f0a654c800d6349fe31a1d2966036bb15deb49de447502ea1e1b6d18f6a54406be2ace3c4783677e0056cb708bcd909e8e6,
   0x4117e9b034bc7124e00c9987a6d3505cc7205735445354366a73004abcddadc7eecf80c04c684f118df9ab8b400936d7a8f10c0e1ba00769268b5a5d018e0022cc0d0a9b6b66cbc0497d46971fada72a8058529bb02bd360bf802868a130e8b4ca7a600e6738c469ff6954c038037acb5c8dae14402dd06cc6daed69fa606bbc5853564699f3c0056d01073ffd454d2e,
   0x3fbb69b431128073a00cff9ac5807f343de0581dea4ca39ca3b320498a44eaa0b16682804d971b2eabb8ce65c009486b33019f32b32006dbb6d273c89ef6402460ec466659611d0049aac8f8a294b30960599d88221eea2cd94028c3d7715186a430000f6c4f260e55c6742038a27e0e53b533e3f02c466a69545c6ef0e06b7265897e6f6a35a0056cffb5d7312839d2,
   0x3e55dd396d12b378e00d63e23c4cf0ca0f4058f1ae950480f9eee04860c508618aef83c04ec7ab4c66b21e1aa0096edbb31c763c71400654783d5c386eb50025f5c3daedc44829e049c2524ee2e25a37605adca41cc812f19c8029105d249adac8a3e0107e45b20d2e9644e039502d23861c6c0e902ac95498500ef941806b1ca9efa02d4972a0056cd9592de02ec202,
   0x3cec31508fa10337800dc29958c4cdc8204059abca874d70863ac04747537f37feb77f404ff66bb96d9049804009aa65a95bc96ef4a005d4475a9ccf3b38e027833b646c7f71a08049c151e295d52e2b605c0ac60f663170e120294a483424612173a01198b7a783c7fa55603a0be7fc84d8d283402960a91bbfaa750c206abd5458bf909dba00056cdbf8c2317a90c4,
   0x3b9a6f5cd6e86881500e4dad04b1604b7e805a8087519d196c40c0460411ad85fa9db0a05103df9f7608e31c8009d2251281d21fb5a005720d7c4e62841d20291bc2f6618a8e9b0049ef86c0e6d15cbf005d34c899f8e1557f2029bccb20259d505de012adc49ae4cfe717003a95e143f94e3c5bd027e0b249b5f5ac85a06a4ecf515d35686ac0056cf74ec242455512,
   0x3a72bd9b3a5c1ac8800f06217a445414af205b6dbb8114ca5a9da0449cdd89b714e6988051e02af844e2c4d0c009df16fa13c58cf28005354da75d191283602ab082c4c3583672a04a5494b29f866bcfe05e4f8874037a392f602a6d3f7aac04cd210013afeaccfb008d97a03adf93007c8b1a48102653f29660b44f94e069d4cf5d0600a2bcc0056d0097701071b062,
   0x39524116ed1e5fcaa00fdbddcdf865d3a5a05c65a0d19961c6dfc0431adac270c13354a052ab4b5f460991ac6009e8d43a6d86feda40050d1fc08ad8b1c3802c515f7f7890c552004aceefff05c68a68605f6647b7f6f67f86602b3cf6e45e5bd8a34014b79247db1420bc603b117e27a88ceeeb8024b91ac5ad367429c0694ab1e644445bbb00056d00fb0ab9a9c9a0,
   0x38217612263e098bc010c159412eddf09b005d5a6bbbbcd1d68f4041889df125827336a0537ac7f90cc2edc8e00a0219195f048d602004ee324e3512adc7c02e06578c75c23fea804b437f0bd3499c9600607dcdddcc5949b0602c12d45c2c05e2d06015d5400c58cfd033603b49b078efd07efc202313c0b418d30de02068ad3fff1c75a9c5e0056cfa7e2df0cc116e,
   0x36802f3f6a9ba8284010a2976f4ced9f53a05d48b6a91cef40544041296876f52eb83d6054d64590caf4da73a00ad78eb30e9ba484e0045d38b8555f3152202f4313525203d9c7404a5b0728564316c2e061499f16d8649258e02b7025b3ac6fd32d00171ced6a062a1286603cb01fa87f1b1332c0225af1c4da37325f60683c55724c3f5a1840056cf52106f0b5050c,
   0x3ff77187a1121979c00e1e3627421a483240595e8cb22c7dd30c204814a1f15884bd38604d3a5183b83cec5440087f923c82cbe341e00735d13cebd35ae6a02522bdfd34789486804b24c3f12004523a205a2a59452dbde344602a5e944152728df2c00f67f726d912d08d80377f8aad5cd72882502b08774446ec673fa06b3d64f5bf23f04480056cfb86e599baf914,
   0x3e90ae64c1b766a3e00e5f707d36a84881605a03957f502ad60fa0471e7b36fb841b82204e6ef29a2e529be7c008c197e030d684e7e006a934fc1c9e1efdc0269899699f1c4469204b0b0e710b371799005b4f16c45f0df5fae02a7700cda6ea550d601077d3614ae0ace4e0384e2c91da17054de029bb69a17c5eef0ae06aec470885d05191c0056cccc114d9e8c23e,
   0x3d42f1415d9e6d7d200ecf576625ce961d805ac52b2e589b499ea045fc07021ffbc661804f80d1691c044349c008ee6dd18b2f6794e0063bd073c51abb2be0281a5f217bf43aede04b23614345bcd591605c6ffdf668ce0c74a02acb31f457d764ca801181f4c3ebe342868038e8670b8bf34cb720285559abddc037ebc06a8b6882b2b8700020056ce23bf14b7244ea,
   0x3c21c1bf9d70cc8de00f7a518808bb27a8e05bac51d28376f9db4044a4c3e9ba1fed3ee0505cb70fb41fdf308008f8d9ff0b55057ea005f932eb359efe31c029a13ee9f6fc66d9604b82a083b90ac3cb605d86c14aa8d60c6ce02b6fbb0ff337580d001279f89bde712ef5c0393570c19b94a8374026d4eae9aa44a8c2806a1b4c0e77b8471a20056cf85a4bc66733c0,
   0x3b02683641ce7026a0103bcb7e799f66e3205c989af8326cc8fb0043394cfe31ab39b940512d76c9a53a5c26c00905279dde778ab78005c6c9296a847a21c02b33789a58fb2183404bede618325e31db205e99cd353155e437802c299a73d712a4a360137a29f2ed92746ba03974282239d1af3630254a4bcbd54edf35e0699c1e489e3962b440056d0297812ed38496,
   0x39cd0039752ade5640110eb1fa5bc21b6d605d85f0a4eccfa04ee041b866528475437cc05207ab4ec6c3caf700092105989a42181600059b20ede162369d202ce0939b5ca74664604c546011b8849f9d005fb35737422ee8a9602ceb47e50853356560149496a514a1fce64039bbae587ebe82d87023ae69d58284de1d0069088d49ab66424500056d00165a1d82a2c6,
   0x38860542978800408011ef1bb113ec15f9a05e6d68f52beb26e9e0402a117f0fe2b7ef2052e78603f21462c580094e98a6c9e169ae000577e7b15578764f602ea0d8074021d738804cb17ee3b9641eb8a060ccbf1ff0327611802daf86f8bb84fbb2a015c5cca688550958403a0c7aa33a4794e540220a500ca4028187e06861b0c675ef3ed900056cf6e25250278e34,
   0x36e7c8d06b450e610011ca8b7ec27b3493005e5bd83defef7201a03fd06ce0572c7428a05443804fa1f570a2c00a20a0558c66268d2004e319f4df97fc68002fd842209e920535c04bc8de498b260ea5e06198f3e359f0ab60002d09288509a8cff040170811df6f495eb8203b73500e72acca4c302154b434a5fda0f3a067f67b70813d47b0e0056cf88bb8b01537b8,
   0x3dc874cea7fb9e7cc00ff55ce8d45728c7805bde7b4087240e776044aac2b8d8d01af2c04ed8b901bda2e38cc00822f160094dea3e4006c648cad0ea5bc7a028984c3ccc1b6c54404ca494d26c110dcf205cb5f6daa0525745002c6efa5d922fcbc5a01152057e0cbab73e2037927242fe422d8c402759a9aa01c930ada06a53744b9a15896a20056ce6931850ee3d02,
   0x3cb94326731c27210010b606bf2f061ff5605ccff2dbf55b50c2a043425b018a8a1331604f9e68b29a9045c8e00822b99ce69fcf2cc006959d7c42399e33202a1ea5c403b7c744e04d1bdf27f3a57bdfa05dc56045f7dfe9b2402d2fc6aa71b64ef5c0124322dfd36c50ef0037c2e5ce6a44d0d29025d32dac45554b416069dc842fba06c26d60056d04b2f2c3cb6ada,
   0x3b7f7bf63a647d19201176176147599c32405db5f23a4dcdb7c0e041d302987947890e2050834d2ac54e1174200840e4bd9516524ea0065d09983a297285e02bc39ade46c90da6604d7467ea360ddaf6e05ee0fc5582210ffc002ddd3224c2188bcd601359f286a2467a74603819a4d320cb7f7aa02440ddb9ca3542be8069532b250136a255a0056d04b818837a7432,
   0x3a31fe09c290e9dc40124462cf81d0684c205e985ff49e7f2742a04053d864c0c9eee980516feccd4a54d02e0008703412b53887cba0062baa151008b593802d7e85ef064696f3804dc497d769d1b692405fff2aecd9d26d1fa02e8e405be8a93cd6201488eccd27003a8440387a53ab6b0e73228022a32fe01e9dd4828068b66eab996a74a580056cfb3ace08642020,
   0x38f6e095c54eb01c1013202c52f06586b8405f71a9009ebac582203ed403e1b4251bdb0052441c16a6c1923fc008a1e430f3e212a8a0060f75155cf6d675c02f2e7ebbd1487a7ea04e1abdb91625ffb34061089842986b1bdbc02f4b546835d2fbf7e015b29b6e8750c5f86038c838c95cc9dd6b602111ec8a750751c860680fe3348d0142e3c0056ce88a4f46a81d92,
   0x375e8a14f8d0846d6013016a109715b186005f6ad1a36a86e669c03e722309045199a200539bba34d1fc885ac0096a170bd27c837ae0057bcf6b0457fc654030675a97a33399e0c04d3f884ee8100f490061d8bbe8864ed9ec802eb0d760a90042cf0016efb1b1653a358e603a24114e9403258f002054cb73d69f14d64067a72afea8f9de8520056cf8affbd61119f2,
   0x363ecde5af11772c6413fc90c51b404f90406040674d069a450e203ce33e722a531559205448ef859df7d6c0c0099ac6230a00c78f20058349d8d425f6e740320fb69cf35986c6304daa1187d62daa6ec062c7c9009889a0b8402f8de77814e19a6ec018140d0f511b21bec03a4d45f7fbb971e0601eca860b9ec26d49e066eddc116b0eba6740056ce8506f3255c962,
   0x3bdd12b20188569ca012b30bdf003e1674e05ec7331f35a491c9204066e1c4a264b85ac04fed8c88349a86e9000796fa1594cd81e1a006f1c0d6f0848cbfe02c6aceb96ef9fd5de04ee236270ab01c0ea05f2d5041bb460781c02f832a48604a7e89001358451da4870b96a036db02ec6a27960c202330a638bcb6d9076068f84b36122aaa23e0056cf91ea235ec2ee2,
   0x3aa3f4097691b0796013800067a79c90ef405f9d4a79eccead88c03ef543c4899362120050c68c62cc6e2dd3e007c5ab0042393fa22006cbc2b5d3d12d93e02e10c31cae2c2049c04f323092b203daf0806037bdff98d0ee5de030334381fac13ca3401479e8b21604a2fd80372fb1f83446b1720021a78d248a6c7588e0685cc490b0836f9ac0056cec3fe3ea1e83d8,
   0x397133e16265160990143d6d0798f894744060552f858bd28dfea03da1475a41d8e0fb605198d44b36fd936a000804cdfea33113936006aa45029c5f9d6b802fa077a50a1787de404f681fab6ff8f46880612b5b294c05b6d84030c9aada62538b6a201597f6039fca091580379052a9ccb0158ba0203edde3b84ac12be067c0ad3207cccd7360056cbd4e1770ecd1b4,
   0x37e3ce8a8e8bd4be6014435804444801b3606071171d197f763c403d13bc935d8a77528052dffe4abbbabda78008b6c1889d9f3be70006264d88a1bfa3ff8030ed8ca13a241f5ae04eb9d471b3e9cd8c006206ccf62570ce704030619af7f5607bc26016d3cc044027999ae038c63dadc1be380e901f5fc3c6a080a69620674f0a02b12b4f1560056cf9c1d3822de71c,
   0x3670df1bc78da856f01517b467701bbfd7806120abdef5a4bc98e03b9d8467bdd29221b053d829d2ad1f8c03800923cc760af77c86e00607b0ca35c1d1a4a032ba148c575cac77404ed0088e4e77e34ba0630cb1777f16bbf52030f292fb6587edc8501833d01345516ab9c03951e5599b144b57701dd6a03b3ef465bf0066886698ed98ae9380056ca817e88906e0d4,
   0x39c6faed8dea7168b01650194a6944ba050061e5bb450b6a1c67a03b463068d85422e51050c5df7206d0aedd200739dabac179a6b6a007a9d3a49602b3850030e02f0eaa36c93040517b0c3fe48c100b6061a087610237c98e603359c53bdb8e30aff015e0206094bbabb00035c5d0c3f155919f481e81b85b6f3d01364066f622001ddf9f25a0056cc47bc502cbfde4,
   0x39191aabd15affb6a0155ca7ae3fbf191ba0613ce8a946915003403c29d1e95e68357180519818235c2f18c9e007ce250290f5067e2007038ea9674acaf96030bef623d60f936c2050504d1889ca55ee2061ba1d5aef4bdbee20320aada4e7fd7c0e1016273e07696954a06037006006ef88da25301efe97410d6f492c406730f0e4df1ae6fb60056cd2f467794910aa,
   0x37a3af9dc8b53867f0158f5b8ff2a8bc0360617615aeff7a31bb203b70d1f585e4c56b0052be834f54d9289940086a43f10da1ac98a0069c98994f5d82b2803218153181a345d5204fd3842c1aca34ab806293697a7b44fbc2c031dce49a88f913f870175d06e7b0ece5e980380375058422c85f801e05f51f73c9a2f92066b11df6bf80559f80056ccbc4a681da9f1a,
   0x38394ffbcb0c0fce60184586a071e10f01e0635bbe183851d7a900387aa26b39161ad4b05180747c4abcc760e0076d0e76aa25e2e460080999210230593aa03390316ef6bf381070527dbea7feaf294b6062fafe96dc69ec14c0352f8d8b74a39158d017a8fbf619d69bb8e035993f036dd42bcca01bf15b01923b8634e065a096d5ab8952a4c0056d07b636ad469c4a]).map icosaRowOf⟩

/-- All grids of `s2/ahrens_beylkin/`, by number of points.
Included at `ahrens_beylkin.hpp:4`. -/
def abGrids : List (Nat × IcosaGrid) := [
   (72, abGrid72), (132, abGrid132), (192, abGrid192), (312, abGrid312), (372, abGrid372),
   (432, abGrid432), (492, abGrid492), (552, abGrid552), (612, abGrid612), (672, abGrid672),
   (732, abGrid732), (792, abGrid792), (912, abGrid912), (972, abGrid972), (1032, abGrid1032),
   (1092, abGrid1092), (1272, abGrid1272), (1332, abGrid1332), (1392, abGrid1392), (1512, abGrid1512),
   (1572, abGrid1572), (1632, abGrid1632), (1692, abGrid1692), (1812, abGrid1812), (1932, abGrid1932),
   (1992, abGrid1992), (2112, abGrid2112), (2172, abGrid2172), (2232, abGrid2232), (2292, abGrid2292),
   (2412, abGrid2412), (2472, abGrid2472), (2712, abGrid2712), (2772, abGrid2772), (2832, abGrid2832),
   (3012, abGrid3012), (3312, abGrid3312), (3372, abGrid3372), (3432, abGrid3432), (3492, abGrid3492),
   (3612, abGrid3612), (3792, abGrid3792), (4212, abGrid4212), (4332, abGrid4332), (4572, abGrid4572),
   (4692, abGrid4692), (4992, abGrid4992), (5232, abGrid5232), (5472, abGrid5472), (5592, abGrid5592),
   (5772, abGrid5772), (6192, abGrid6192), (6312, abGrid6312), (6912, abGrid6912), (7512, abGrid7512),
   (15012, abGrid15012)]

end Tables

end IntegratorXX
