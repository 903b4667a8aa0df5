import Verif.Model.Gates

/-!
# The circuits in `testdata`

Generated by `tools/gen_testdata.py` from `testdata/*/common_circuit_data.json` and `verifier_only_circuit_data.json`.
-/

set_option autoImplicit false

namespace Verif.Spec.Testdata

/-- `testdata/decode_block/common_circuit_data.json`. -/
def decodeBlock : CommonCircuitData where
  config := ⟨136, 80, 2, true, 100, 2, false, 8, ⟨3, 4, 16, 28⟩⟩
  friParams := ⟨⟨3, 4, 16, 28⟩, false, 12, [4, 4]⟩
  gateIds := [
    "NoopGate",
    "ConstantGate { num_consts: 2 }",
    "PoseidonMdsGate(PhantomData<plonky2_field::goldilocks_field::GoldilocksField>)<WIDTH=12>",
    "PublicInputGate",
    "BaseSumGate { num_limbs: 63 } + Base: 2",
    "ReducingExtensionGate { num_coeffs: 33 }",
    "ReducingGate { num_coeffs: 44 }",
    "ArithmeticExtensionGate { num_ops: 10 }",
    "ArithmeticGate { num_ops: 20 }",
    "MulExtensionGate { num_ops: 13 }",
    "RandomAccessGate { bits: 4, num_copies: 4, num_extra_constants: 2, _phantom: PhantomData<plonky2_field::goldilocks_field::GoldilocksField> }<D=2>",
    "CosetInterpolationGate { subgroup_bits: 4, degree: 6, barycentric_weights: [17293822565076172801, 18374686475376656385, 18446744069413535745, 281474976645120, 17592186044416, 18446744069414584577, 18446744000695107601, 18446744065119617025, 1152921504338411520, 72057594037927936, 18446744069415632897, 18446462594437939201, 18446726477228539905, 18446744069414584065, 68719476720, 4294967296], _phantom: PhantomData<plonky2_field::goldilocks_field::GoldilocksField> }<D=2>",
    "PoseidonGate(PhantomData<plonky2_field::goldilocks_field::GoldilocksField>)<WIDTH=12>"]
  selectorsInfo := ⟨[0, 0, 0, 0, 0, 0, 0, 1, 1, 1, 1, 2, 2], [(0, 7), (7, 11), (11, 13)]⟩
  degreeBits := 12
  quotientDegreeFactor := 8
  numGateConstraints := 123
  numConstants := 5
  numPublicInputs := 0
  kIs :=
    [1, 7, 49, 343, 2401, 16807, 117649, 823543, 5764801, 40353607, 282475249, 1977326743, 13841287201, 96889010407,
    678223072849, 4747561509943, 33232930569601, 232630513987207, 1628413597910449, 11398895185373143, 79792266297612001,
    558545864083284007, 3909821048582988049, 8922003270666332022, 7113790686420571191, 12903046666114829695,
    16534350385145470581, 5059988279530788141, 16973173887300932666, 8131752794619022736, 1582037354089406189,
    11074261478625843323, 3732854072722565977, 7683234439643377518, 16889152938674473984, 7543606154233811962,
    15911754940807515092, 701820169165099718, 4912741184155698026, 15942444219675301861, 916645121239607101,
    6416515848677249707, 8022122801911579307, 814627405137302186, 5702391835961115302, 3023254712898638472,
    2716038920875884983, 565528376716610560, 3958698637016273920, 9264146389699333119, 9508792519651578870,
    11221315429317299127, 4762231727562756605, 14888878023524711914, 11988425817600061793, 10132004445542095267,
    15583798910550913906, 16852872026783475737, 7289639770996824233, 14133990258148600989, 6704211459967285318,
    10035992080941828584, 14911712358349047125, 12148266161370408270, 11250886851934520606, 4969231685883306958,
    16337877731768564385, 3684679705892444769, 7346013871832529062, 14528608963998534792, 9466542400916821939,
    10925564598174000610, 2691975909559666986, 397087297503084581, 2779611082521592067, 1010533508236560148,
    7073734557655921036, 12622653764762278610, 14571600075677612986, 9767480182670369297]
  numPartialProducts := 9

/-- The gates named in it. -/
def decodeBlockGates : List Gates.Gate := [
  .noop, .constant 2, .poseidonMds, .publicInput, .baseSum 63 2, .reducingExtension 33, .reducing 44, .arithmeticExtension
  10, .arithmetic 20, .mulExtension 13, .randomAccess 4 4 2, .cosetInterpolation 4 6 [17293822565076172801,
  18374686475376656385, 18446744069413535745, 281474976645120, 17592186044416, 18446744069414584577, 18446744000695107601,
  18446744065119617025, 1152921504338411520, 72057594037927936, 18446744069415632897, 18446462594437939201,
  18446726477228539905, 18446744069414584065, 68719476720, 4294967296], .poseidon]

/-- `testdata/decode_block/verifier_only_circuit_data.json`. -/
def decodeBlockKey : VerifierOnlyCircuitData where
  constantSigmasCap := [
    1499622638644728537774239858053278546400257982434845489329927574295172033326,
    2930852415723089264561622935088329191815636786066772202039928107654951266023,
    14464526654918087476596183134411486973966295253353738267325575394304709517161,
    18983137502540745159803953284357786408225887846069384394220291955925143226141,
    1386895482273961356932873002155159178542488359092693049720219479086930861707,
    14771237880407068338879830535366644743003305760875598132537125639168034999022,
    19702788661528474550894036146582137462836271070153286539426392895353557950694,
    15334727368281990897779779337943379898609200739305205677598255362701124565320,
    21691768748620820719274018448050849816536829760110881140528389629789448704790,
    15262009449532190852183220678787716636953257578372619913911054925901367503449,
    18166082909492900359627895435428332272663141560067836935272838076830554017630,
    10686995103794494099325675278866631156892436169286799401423857508483307145846,
    7660138004813546044706396059680360544539623731113711012915164533145284575301,
    1616448650742704848585620443874003913130079345238283349517269437117477195625,
    5734773590975050772666682899969130545487941904460247131732227238307211841652,
    11959183492303708131395376843823862107323459381741154704909455973421596288592]
  circuitDigest := 11532502846882484230992726008257788785937565673229400981185786126842727172973

/-- `testdata/step/common_circuit_data.json`. -/
def step : CommonCircuitData where
  config := ⟨136, 80, 2, true, 100, 2, false, 8, ⟨3, 4, 16, 28⟩⟩
  friParams := ⟨⟨3, 4, 16, 28⟩, false, 13, [4, 4]⟩
  gateIds := [
    "NoopGate",
    "PoseidonMdsGate(PhantomData<plonky2_field::goldilocks_field::GoldilocksField>)<WIDTH=12>",
    "PublicInputGate",
    "BaseSumGate { num_limbs: 63 } + Base: 2",
    "ReducingExtensionGate { num_coeffs: 33 }",
    "ReducingGate { num_coeffs: 44 }",
    "ArithmeticExtensionGate { num_ops: 10 }",
    "ArithmeticGate { num_ops: 20 }",
    "MulExtensionGate { num_ops: 13 }",
    "ExponentiationGate { num_power_bits: 67, _phantom: PhantomData<plonky2_field::goldilocks_field::GoldilocksField> }<D=2>",
    "RandomAccessGate { bits: 4, num_copies: 4, num_extra_constants: 2, _phantom: PhantomData<plonky2_field::goldilocks_field::GoldilocksField> }<D=2>",
    "CosetInterpolationGate { subgroup_bits: 4, degree: 6, barycentric_weights: [17293822565076172801, 18374686475376656385, 18446744069413535745, 281474976645120, 17592186044416, 18446744069414584577, 18446744000695107601, 18446744065119617025, 1152921504338411520, 72057594037927936, 18446744069415632897, 18446462594437939201, 18446726477228539905, 18446744069414584065, 68719476720, 4294967296], _phantom: PhantomData<plonky2_field::goldilocks_field::GoldilocksField> }<D=2>",
    "PoseidonGate(PhantomData<plonky2_field::goldilocks_field::GoldilocksField>)<WIDTH=12>"]
  selectorsInfo := ⟨[0, 0, 0, 0, 0, 0, 1, 1, 1, 1, 2, 2, 3], [(0, 6), (6, 10), (10, 12), (12, 13)]⟩
  degreeBits := 13
  quotientDegreeFactor := 8
  numGateConstraints := 123
  numConstants := 6
  numPublicInputs := 36
  kIs :=
    [1, 7, 49, 343, 2401, 16807, 117649, 823543, 5764801, 40353607, 282475249, 1977326743, 13841287201, 96889010407,
    678223072849, 4747561509943, 33232930569601, 232630513987207, 1628413597910449, 11398895185373143, 79792266297612001,
    558545864083284007, 3909821048582988049, 8922003270666332022, 7113790686420571191, 12903046666114829695,
    16534350385145470581, 5059988279530788141, 16973173887300932666, 8131752794619022736, 1582037354089406189,
    11074261478625843323, 3732854072722565977, 7683234439643377518, 16889152938674473984, 7543606154233811962,
    15911754940807515092, 701820169165099718, 4912741184155698026, 15942444219675301861, 916645121239607101,
    6416515848677249707, 8022122801911579307, 814627405137302186, 5702391835961115302, 3023254712898638472,
    2716038920875884983, 565528376716610560, 3958698637016273920, 9264146389699333119, 9508792519651578870,
    11221315429317299127, 4762231727562756605, 14888878023524711914, 11988425817600061793, 10132004445542095267,
    15583798910550913906, 16852872026783475737, 7289639770996824233, 14133990258148600989, 6704211459967285318,
    10035992080941828584, 14911712358349047125, 12148266161370408270, 11250886851934520606, 4969231685883306958,
    16337877731768564385, 3684679705892444769, 7346013871832529062, 14528608963998534792, 9466542400916821939,
    10925564598174000610, 2691975909559666986, 397087297503084581, 2779611082521592067, 1010533508236560148,
    7073734557655921036, 12622653764762278610, 14571600075677612986, 9767480182670369297]
  numPartialProducts := 9

/-- The gates named in it. -/
def stepGates : List Gates.Gate := [
  .noop, .poseidonMds, .publicInput, .baseSum 63 2, .reducingExtension 33, .reducing 44, .arithmeticExtension 10,
  .arithmetic 20, .mulExtension 13, .exponentiation 67, .randomAccess 4 4 2, .cosetInterpolation 4 6
  [17293822565076172801, 18374686475376656385, 18446744069413535745, 281474976645120, 17592186044416,
  18446744069414584577, 18446744000695107601, 18446744065119617025, 1152921504338411520, 72057594037927936,
  18446744069415632897, 18446462594437939201, 18446726477228539905, 18446744069414584065, 68719476720, 4294967296],
  .poseidon]

/-- `testdata/step/verifier_only_circuit_data.json`. -/
def stepKey : VerifierOnlyCircuitData where
  constantSigmasCap := [
    4888357664296095718815758214440529393197762742365942012680717414927848556250,
    2209889448564462812608523791037999221131777281114110816711594808561629780010,
    4783027344594415431544036887584741450494432097097254847851160629277658732206,
    4025442984048235715703510356530005233167222504995885323997325327626847831042,
    7679520709262245108039166177805990311158829589366423240361001467027112647002,
    259363173405031877757571220908459576335668352861939433815090635029846220068,
    9880831542852849450717059869965520165948874814070335576566589765688426595600,
    19609124362176622223995417422711340578268398995610264736162079735652393008400,
    18373537388333609703859974831390403366607123416158043829042438107680621738551,
    17536955898347982953188585924984008856280005516232467427210505109184726402603,
    20695699955262630796033618899800264428111620406754391130684131882592523541095,
    20425708078899059362884835312568041888084734960481059866199231046085670179583,
    21697157774348170912700991744618658990139755973310165730160978582032237849079,
    7191613656222346675951718107316884243893764070036349498195400843757810414364,
    1499065111965288526081286015186615004571723160296680783059214594047760640474,
    5981619154302533357157777495393724169720902362468159062002824290823005959648]
  circuitDigest := 9263530673647634796487329488695915977644330282170255272053971232639965244017

end Verif.Spec.Testdata
