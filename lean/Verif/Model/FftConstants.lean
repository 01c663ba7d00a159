import Mathlib.Data.Rat.Defs
/-!
# Model of `src/internal/transforms/fft/fft_constants.go`

The table of complex roots, as written in the source. A pair `(a, b)` stands for the constant `a*10^-17 + b*10^-17 i`; the literals of the
source have at most 17 decimals, so this is exact.
-/

namespace Falcon

/-- fft_constants.go:11-11 `phi4_roots`. -/
def phi4_roots : List (Int × Int) := [
  (0, 100000000000000000), (0, -100000000000000000)]

/-- fft_constants.go:16-21 `phi8_roots`. -/
def phi8_roots : List (Int × Int) := [
  (70710678118654800, 70710678118654700), (-70710678118654800, -70710678118654700), (70710678118654800, -70710678118654700),
  (-70710678118654800, 70710678118654700)]

/-- fft_constants.go:26-35 `phi16_roots`. -/
def phi16_roots : List (Int × Int) := [
  (92387953251128700, 38268343236509000), (-92387953251128700, -38268343236509000), (38268343236509000, -92387953251128700),
  (-38268343236509000, 92387953251128700), (92387953251128700, -38268343236509000), (-92387953251128700, 38268343236509000),
  (38268343236509000, 92387953251128700), (-38268343236509000, -92387953251128700)]

/-- fft_constants.go:40-57 `phi32_roots`. -/
def phi32_roots : List (Int × Int) := [
  (98078528040323000, 19509032201612800), (-98078528040323000, -19509032201612800), (19509032201612800, -98078528040323000),
  (-19509032201612800, 98078528040323000), (83146961230254500, -55557023301960200), (-83146961230254500, 55557023301960200),
  (55557023301960200, 83146961230254500), (-55557023301960200, -83146961230254500), (98078528040323000, -19509032201612800),
  (-98078528040323000, 19509032201612800), (19509032201612800, 98078528040323000), (-19509032201612800, -98078528040323000),
  (83146961230254500, 55557023301960200), (-83146961230254500, -55557023301960200), (55557023301960200, -83146961230254500),
  (-55557023301960200, 83146961230254500)]

/-- fft_constants.go:62-95 `phi64_roots`. -/
def phi64_roots : List (Int × Int) := [
  (99518472667219700, 9801714032956060), (-99518472667219700, -9801714032956060), (9801714032956060, -99518472667219700),
  (-9801714032956060, 99518472667219700), (77301045336273700, -63439328416364600), (-77301045336273700, 63439328416364600),
  (63439328416364500, 77301045336273700), (-63439328416364500, -77301045336273700), (95694033573220900, -29028467725446200),
  (-95694033573220900, 29028467725446200), (29028467725446200, 95694033573220900), (-29028467725446200, -95694033573220900),
  (88192126434835500, 47139673682599800), (-88192126434835500, -47139673682599800), (47139673682599800, -88192126434835500),
  (-47139673682599800, 88192126434835500), (99518472667219700, -9801714032956060), (-99518472667219700, 9801714032956060),
  (9801714032956060, 99518472667219700), (-9801714032956060, -99518472667219700), (77301045336273700, 63439328416364600),
  (-77301045336273700, -63439328416364600), (63439328416364500, -77301045336273700), (-63439328416364500, 77301045336273700),
  (95694033573220900, 29028467725446200), (-95694033573220900, -29028467725446200), (29028467725446200, -95694033573220900),
  (-29028467725446200, 95694033573220900), (88192126434835500, -47139673682599800), (-88192126434835500, 47139673682599800),
  (47139673682599800, 88192126434835500), (-47139673682599800, -88192126434835500)]

/-- fft_constants.go:100-165 `phi128_roots`. -/
def phi128_roots : List (Int × Int) := [
  (99879545620517200, 4906767432741800), (-99879545620517200, -4906767432741800), (4906767432741800, -99879545620517200),
  (-4906767432741800, 99879545620517200), (74095112535495900, -67155895484701800), (-74095112535495900, 67155895484701800),
  (67155895484701800, 74095112535495900), (-67155895484701800, -74095112535495900), (94154406518302100, -33688985339222000),
  (-94154406518302100, 33688985339222000), (33688985339222000, 94154406518302100), (-33688985339222000, -94154406518302100),
  (90398929312344300, 42755509343028200), (-90398929312344300, -42755509343028200), (42755509343028200, -90398929312344300),
  (-42755509343028200, 90398929312344300), (98917650996478100, -14673047445536200), (-98917650996478100, 14673047445536200),
  (14673047445536200, 98917650996478100), (-14673047445536200, -98917650996478100), (80320753148064500, 59569930449243300),
  (-80320753148064500, -59569930449243300), (59569930449243300, -80320753148064500), (-59569930449243300, 80320753148064500),
  (97003125319454400, 24298017990326400), (-97003125319454400, -24298017990326400), (24298017990326400, -97003125319454400),
  (-24298017990326400, 97003125319454400), (85772861000027200, -51410274419322200), (-85772861000027200, 51410274419322200),
  (51410274419322200, 85772861000027200), (-51410274419322200, -85772861000027200), (99879545620517200, -4906767432741800),
  (-99879545620517200, 4906767432741800), (4906767432741800, 99879545620517200), (-4906767432741800, -99879545620517200),
  (74095112535495900, 67155895484701800), (-74095112535495900, -67155895484701800), (67155895484701800, -74095112535495900),
  (-67155895484701800, 74095112535495900), (94154406518302100, 33688985339222000), (-94154406518302100, -33688985339222000),
  (33688985339222000, -94154406518302100), (-33688985339222000, 94154406518302100), (90398929312344300, -42755509343028200),
  (-90398929312344300, 42755509343028200), (42755509343028200, 90398929312344300), (-42755509343028200, -90398929312344300),
  (98917650996478100, 14673047445536200), (-98917650996478100, -14673047445536200), (14673047445536200, -98917650996478100),
  (-14673047445536200, 98917650996478100), (80320753148064500, -59569930449243300), (-80320753148064500, 59569930449243300),
  (59569930449243300, 80320753148064500), (-59569930449243300, -80320753148064500), (97003125319454400, -24298017990326400),
  (-97003125319454400, 24298017990326400), (24298017990326400, 97003125319454400), (-24298017990326400, -97003125319454400),
  (85772861000027200, 51410274419322200), (-85772861000027200, -51410274419322200), (51410274419322200, -85772861000027200),
  (-51410274419322200, 85772861000027200)]

/-- fft_constants.go:171-234: entries 0 to 63 of `phi256_roots`. -/
def phi256_roots_0 : List (Int × Int) := [
  (99969881869620400, 2454122852291230), (-99969881869620400, -2454122852291230), (2454122852291230, -99969881869620400),
  (-2454122852291230, 99969881869620400), (72424708295146700, -68954054473706700), (-72424708295146700, 68954054473706700),
  (68954054473706700, 72424708295146700), (-68954054473706700, -72424708295146700), (93299279883473900, -35989503653498800),
  (-93299279883473900, 35989503653498800), (35989503653498800, 93299279883473900), (-35989503653498800, -93299279883473900),
  (91420975570353100, 40524131400499000), (-91420975570353100, -40524131400499000), (40524131400499000, -91420975570353100),
  (-40524131400499000, 91420975570353100), (98527764238894100, -17096188876030100), (-98527764238894100, 17096188876030100),
  (17096188876030100, 98527764238894100), (-17096188876030100, -98527764238894100), (81758481315158400, 57580819141784500),
  (-81758481315158400, -57580819141784500), (57580819141784500, -81758481315158400), (-57580819141784500, 81758481315158400),
  (97570213003852900, 21910124015687000), (-97570213003852900, -21910124015687000), (21910124015687000, -97570213003852900),
  (-21910124015687000, 97570213003852900), (84485356524970700, -53499761988709700), (-84485356524970700, 53499761988709700),
  (53499761988709700, 84485356524970700), (-53499761988709700, -84485356524970700), (99729045667869000, -7356456359966740),
  (-99729045667869000, 7356456359966740), (7356456359966740, 99729045667869000), (-7356456359966740, -99729045667869000),
  (75720884650648500, 65317284295377700), (-75720884650648500, -65317284295377700), (65317284295377700, -75720884650648500),
  (-65317284295377700, 75720884650648500), (94952818059303700, 31368174039889200), (-94952818059303700, -31368174039889200),
  (31368174039889200, -94952818059303700), (-31368174039889200, 94952818059303700), (89322430119551500, -44961132965460700),
  (-89322430119551500, 44961132965460700), (44961132965460700, 89322430119551500), (-44961132965460700, -89322430119551500),
  (99247953459871000, 12241067519921600), (-99247953459871000, -12241067519921600), (12241067519921600, -99247953459871000),
  (-12241067519921600, 99247953459871000), (78834642762660600, -61523159058062700), (-78834642762660600, 61523159058062700),
  (61523159058062700, 78834642762660600), (-61523159058062700, -78834642762660600), (96377606579544000, -26671275747489800),
  (-96377606579544000, 26671275747489800), (26671275747489800, 96377606579544000), (-26671275747489800, -96377606579544000),
  (87008699110871100, 49289819222978400), (-87008699110871100, -49289819222978400), (49289819222978400, -87008699110871100),
  (-49289819222978400, 87008699110871100)]

/-- fft_constants.go:235-298: entries 64 to 127 of `phi256_roots`. -/
def phi256_roots_1 : List (Int × Int) := [
  (99969881869620400, -2454122852291230), (-99969881869620400, 2454122852291230), (2454122852291230, 99969881869620400),
  (-2454122852291230, -99969881869620400), (72424708295146700, 68954054473706700), (-72424708295146700, -68954054473706700),
  (68954054473706700, -72424708295146700), (-68954054473706700, 72424708295146700), (93299279883473900, 35989503653498800),
  (-93299279883473900, -35989503653498800), (35989503653498800, -93299279883473900), (-35989503653498800, 93299279883473900),
  (91420975570353100, -40524131400499000), (-91420975570353100, 40524131400499000), (40524131400499000, 91420975570353100),
  (-40524131400499000, -91420975570353100), (98527764238894100, 17096188876030100), (-98527764238894100, -17096188876030100),
  (17096188876030100, -98527764238894100), (-17096188876030100, 98527764238894100), (81758481315158400, -57580819141784500),
  (-81758481315158400, 57580819141784500), (57580819141784500, 81758481315158400), (-57580819141784500, -81758481315158400),
  (97570213003852900, -21910124015687000), (-97570213003852900, 21910124015687000), (21910124015687000, 97570213003852900),
  (-21910124015687000, -97570213003852900), (84485356524970700, 53499761988709700), (-84485356524970700, -53499761988709700),
  (53499761988709700, -84485356524970700), (-53499761988709700, 84485356524970700), (99729045667869000, 7356456359966740),
  (-99729045667869000, -7356456359966740), (7356456359966740, -99729045667869000), (-7356456359966740, 99729045667869000),
  (75720884650648500, -65317284295377700), (-75720884650648500, 65317284295377700), (65317284295377700, 75720884650648500),
  (-65317284295377700, -75720884650648500), (94952818059303700, -31368174039889200), (-94952818059303700, 31368174039889200),
  (31368174039889200, 94952818059303700), (-31368174039889200, -94952818059303700), (89322430119551500, 44961132965460700),
  (-89322430119551500, -44961132965460700), (44961132965460700, -89322430119551500), (-44961132965460700, 89322430119551500),
  (99247953459871000, -12241067519921600), (-99247953459871000, 12241067519921600), (12241067519921600, 99247953459871000),
  (-12241067519921600, -99247953459871000), (78834642762660600, 61523159058062700), (-78834642762660600, -61523159058062700),
  (61523159058062700, -78834642762660600), (-61523159058062700, 78834642762660600), (96377606579544000, 26671275747489800),
  (-96377606579544000, -26671275747489800), (26671275747489800, -96377606579544000), (-26671275747489800, 96377606579544000),
  (87008699110871100, -49289819222978400), (-87008699110871100, 49289819222978400), (49289819222978400, 87008699110871100),
  (-49289819222978400, -87008699110871100)]

/-- fft_constants.go:170-299 `phi256_roots`. -/
def phi256_roots : List (Int × Int) :=
  phi256_roots_0 ++ phi256_roots_1

/-- fft_constants.go:305-368: entries 0 to 63 of `phi512_roots`. -/
def phi512_roots_0 : List (Int × Int) := [
  (99992470183914500, 1227153828571990), (-99992470183914500, -1227153828571990), (1227153828571990, -99992470183914500),
  (-1227153828571990, 99992470183914500), (71573082528381900, -69837624940897300), (-71573082528381900, 69837624940897300),
  (69837624940897300, 71573082528381900), (-69837624940897300, -71573082528381900), (92850608047321600, -37131719395183700),
  (-92850608047321600, 37131719395183700), (37131719395183700, 92850608047321600), (-37131719395183700, -92850608047321600),
  (91911385169005800, 39399204006104800), (-91911385169005800, -39399204006104800), (39399204006104800, -91911385169005800),
  (-39399204006104800, 91911385169005800), (98310548743121600, -18303988795514100), (-98310548743121600, 18303988795514100),
  (18303988795514100, 98310548743121600), (-18303988795514100, -98310548743121600), (82458930278502500, 56573181078361300),
  (-82458930278502500, -56573181078361300), (56573181078361300, -82458930278502500), (-56573181078361300, 82458930278502500),
  (97831737071962800, 20711137619221900), (-97831737071962800, -20711137619221900), (20711137619221900, -97831737071962800),
  (-20711137619221900, 97831737071962800), (83822470555483800, -54532498842204600), (-83822470555483800, 54532498842204600),
  (54532498842204600, 83822470555483800), (-54532498842204600, -83822470555483800), (99631261218277800, -8579731234443990),
  (-99631261218277800, 8579731234443990), (8579731234443990, 99631261218277800), (-8579731234443990, -99631261218277800),
  (76516726562245900, 64383154288979100), (-76516726562245900, -64383154288979100), (64383154288979100, -76516726562245900),
  (-64383154288979100, 76516726562245900), (95330604035419400, 30200594931922800), (-95330604035419400, -30200594931922800),
  (30200594931922800, -95330604035419400), (-30200594931922800, 95330604035419400), (88763962040285400, -46053871095824000),
  (-88763962040285400, 46053871095824000), (46053871095824000, 88763962040285400), (-46053871095824000, -88763962040285400),
  (99390697000235600, 11022220729388300), (-99390697000235600, -11022220729388300), (11022220729388300, -99390697000235600),
  (-11022220729388300, 99390697000235600), (78073722857209400, -62485948814238600), (-78073722857209400, 62485948814238600),
  (62485948814238600, 78073722857209400), (-62485948814238600, -78073722857209400), (96043051941556600, -27851968938505300),
  (-96043051941556600, 27851968938505300), (27851968938505300, 96043051941556600), (-27851968938505300, -96043051941556600),
  (87607009419540700, 48218377207912300), (-87607009419540700, -48218377207912300), (48218377207912300, -87607009419540700),
  (-48218377207912300, 87607009419540700)]

/-- fft_constants.go:369-432: entries 64 to 127 of `phi512_roots`. -/
def phi512_roots_1 : List (Int × Int) := [
  (99932238458835000, -3680722294135880), (-99932238458835000, 3680722294135880), (3680722294135880, 99932238458835000),
  (-3680722294135880, -99932238458835000), (73265427167241300, 68060099779545300), (-73265427167241300, -68060099779545300),
  (68060099779545300, -73265427167241300), (-68060099779545300, 73265427167241300), (93733901191257500, 34841868024943500),
  (-93733901191257500, -34841868024943500), (34841868024943500, -93733901191257500), (-34841868024943500, 93733901191257500),
  (90916798309052200, -41642956009763700), (-90916798309052200, 41642956009763700), (41642956009763700, 90916798309052200),
  (-41642956009763700, -90916798309052200), (98730141815785800, 15885814333386100), (-98730141815785800, -15885814333386100),
  (15885814333386100, -98730141815785800), (-15885814333386100, 98730141815785800), (81045719825259500, -58579785745643900),
  (-81045719825259500, 58579785745643900), (58579785745643900, 81045719825259500), (-58579785745643900, -81045719825259500),
  (97293995220556000, -23105810828067100), (-97293995220556000, 23105810828067100), (23105810828067100, 97293995220556000),
  (-23105810828067100, -97293995220556000), (85135519310526500, 52458968267846900), (-85135519310526500, -52458968267846900),
  (52458968267846900, -85135519310526500), (-52458968267846900, 85135519310526500), (99811811290014900, 6132073630220860),
  (-99811811290014900, -6132073630220860), (6132073630220860, -99811811290014900), (-6132073630220860, 99811811290014900),
  (74913639452345900, -66241577759017200), (-74913639452345900, 66241577759017200), (66241577759017200, 74913639452345900),
  (-66241577759017200, -74913639452345900), (94560732538052100, -32531029216226300), (-94560732538052100, 32531029216226300),
  (32531029216226300, 94560732538052100), (-32531029216226300, -94560732538052100), (89867446569395400, 43861623853852800),
  (-89867446569395400, -43861623853852800), (43861623853852800, -89867446569395400), (-43861623853852800, 89867446569395400),
  (99090263542778000, -13458070850712600), (-99090263542778000, 13458070850712600), (13458070850712600, 99090263542778000),
  (-13458070850712600, -99090263542778000), (79583690460888400, 60551104140432500), (-79583690460888400, -60551104140432500),
  (60551104140432600, -79583690460888300), (-60551104140432600, 79583690460888300), (96697647104485200, 25486565960451500),
  (-96697647104485200, -25486565960451500), (25486565960451500, -96697647104485200), (-25486565960451500, 96697647104485200),
  (86397285612158700, -50353838372571800), (-86397285612158700, 50353838372571800), (50353838372571800, 86397285612158700),
  (-50353838372571800, -86397285612158700)]

/-- fft_constants.go:433-496: entries 128 to 191 of `phi512_roots`. -/
def phi512_roots_2 : List (Int × Int) := [
  (99992470183914500, -1227153828571990), (-99992470183914500, 1227153828571990), (1227153828571990, 99992470183914500),
  (-1227153828571990, -99992470183914500), (71573082528381900, 69837624940897300), (-71573082528381900, -69837624940897300),
  (69837624940897300, -71573082528381900), (-69837624940897300, 71573082528381900), (92850608047321600, 37131719395183700),
  (-92850608047321600, -37131719395183700), (37131719395183700, -92850608047321600), (-37131719395183700, 92850608047321600),
  (91911385169005800, -39399204006104800), (-91911385169005800, 39399204006104800), (39399204006104800, 91911385169005800),
  (-39399204006104800, -91911385169005800), (98310548743121600, 18303988795514100), (-98310548743121600, -18303988795514100),
  (18303988795514100, -98310548743121600), (-18303988795514100, 98310548743121600), (82458930278502500, -56573181078361300),
  (-82458930278502500, 56573181078361300), (56573181078361300, 82458930278502500), (-56573181078361300, -82458930278502500),
  (97831737071962800, -20711137619221900), (-97831737071962800, 20711137619221900), (20711137619221900, 97831737071962800),
  (-20711137619221900, -97831737071962800), (83822470555483800, 54532498842204600), (-83822470555483800, -54532498842204600),
  (54532498842204600, -83822470555483800), (-54532498842204600, 83822470555483800), (99631261218277800, 8579731234443990),
  (-99631261218277800, -8579731234443990), (8579731234443990, -99631261218277800), (-8579731234443990, 99631261218277800),
  (76516726562245900, -64383154288979100), (-76516726562245900, 64383154288979100), (64383154288979100, 76516726562245900),
  (-64383154288979100, -76516726562245900), (95330604035419400, -30200594931922800), (-95330604035419400, 30200594931922800),
  (30200594931922800, 95330604035419400), (-30200594931922800, -95330604035419400), (88763962040285400, 46053871095824000),
  (-88763962040285400, -46053871095824000), (46053871095824000, -88763962040285400), (-46053871095824000, 88763962040285400),
  (99390697000235600, -11022220729388300), (-99390697000235600, 11022220729388300), (11022220729388300, 99390697000235600),
  (-11022220729388300, -99390697000235600), (78073722857209400, 62485948814238600), (-78073722857209400, -62485948814238600),
  (62485948814238600, -78073722857209400), (-62485948814238600, 78073722857209400), (96043051941556600, 27851968938505300),
  (-96043051941556600, -27851968938505300), (27851968938505300, -96043051941556600), (-27851968938505300, 96043051941556600),
  (87607009419540700, -48218377207912300), (-87607009419540700, 48218377207912300), (48218377207912300, 87607009419540700),
  (-48218377207912300, -87607009419540700)]

/-- fft_constants.go:497-560: entries 192 to 255 of `phi512_roots`. -/
def phi512_roots_3 : List (Int × Int) := [
  (99932238458835000, 3680722294135880), (-99932238458835000, -3680722294135880), (3680722294135880, -99932238458835000),
  (-3680722294135880, 99932238458835000), (73265427167241300, -68060099779545300), (-73265427167241300, 68060099779545300),
  (68060099779545300, 73265427167241300), (-68060099779545300, -73265427167241300), (93733901191257500, -34841868024943500),
  (-93733901191257500, 34841868024943500), (34841868024943500, 93733901191257500), (-34841868024943500, -93733901191257500),
  (90916798309052200, 41642956009763700), (-90916798309052200, -41642956009763700), (41642956009763700, -90916798309052200),
  (-41642956009763700, 90916798309052200), (98730141815785800, -15885814333386100), (-98730141815785800, 15885814333386100),
  (15885814333386100, 98730141815785800), (-15885814333386100, -98730141815785800), (81045719825259500, 58579785745643900),
  (-81045719825259500, -58579785745643900), (58579785745643900, -81045719825259500), (-58579785745643900, 81045719825259500),
  (97293995220556000, 23105810828067100), (-97293995220556000, -23105810828067100), (23105810828067100, -97293995220556000),
  (-23105810828067100, 97293995220556000), (85135519310526500, -52458968267846900), (-85135519310526500, 52458968267846900),
  (52458968267846900, 85135519310526500), (-52458968267846900, -85135519310526500), (99811811290014900, -6132073630220860),
  (-99811811290014900, 6132073630220860), (6132073630220860, 99811811290014900), (-6132073630220860, -99811811290014900),
  (74913639452345900, 66241577759017200), (-74913639452345900, -66241577759017200), (66241577759017200, -74913639452345900),
  (-66241577759017200, 74913639452345900), (94560732538052100, 32531029216226300), (-94560732538052100, -32531029216226300),
  (32531029216226300, -94560732538052100), (-32531029216226300, 94560732538052100), (89867446569395400, -43861623853852800),
  (-89867446569395400, 43861623853852800), (43861623853852800, 89867446569395400), (-43861623853852800, -89867446569395400),
  (99090263542778000, 13458070850712600), (-99090263542778000, -13458070850712600), (13458070850712600, -99090263542778000),
  (-13458070850712600, 99090263542778000), (79583690460888400, -60551104140432500), (-79583690460888400, 60551104140432500),
  (60551104140432600, 79583690460888300), (-60551104140432600, -79583690460888300), (96697647104485200, -25486565960451500),
  (-96697647104485200, 25486565960451500), (25486565960451500, 96697647104485200), (-25486565960451500, -96697647104485200),
  (86397285612158700, 50353838372571800), (-86397285612158700, -50353838372571800), (50353838372571800, -86397285612158700),
  (-50353838372571800, 86397285612158700)]

/-- fft_constants.go:304-561 `phi512_roots`. -/
def phi512_roots : List (Int × Int) :=
  phi512_roots_0 ++ phi512_roots_1 ++ phi512_roots_2 ++ phi512_roots_3

/-- fft_constants.go:567-630: entries 0 to 63 of `phi1024_roots`. -/
def phi1024_roots_0 : List (Int × Int) := [
  (99998117528260100, 613588464915448), (-99998117528260100, -613588464915448), (613588464915448, -99998117528260100),
  (-613588464915448, 99998117528260100), (71143219574521600, -70275474445722500), (-71143219574521600, 70275474445722500),
  (70275474445722500, 71143219574521600), (-70275474445722500, -71143219574521600), (92621024213831100, -37700741021641800),
  (-92621024213831100, 37700741021641800), (37700741021641800, 92621024213831100), (-37700741021641800, -92621024213831100),
  (92151403934204200, 38834504669882600), (-92151403934204200, -38834504669882600), (38834504669882600, -92151403934204200),
  (-38834504669882600, 92151403934204200), (98196386910955500, -18906866414980600), (-98196386910955500, 18906866414980600),
  (18906866414980600, 98196386910955500), (-18906866414980600, -98196386910955500), (82804504525775600, 56066157619733600),
  (-82804504525775600, -56066157619733600), (56066157619733600, -82804504525775600), (-56066157619733600, 82804504525775600),
  (97956976568544100, 20110463484209200), (-97956976568544100, -20110463484209200), (20110463484209200, -97956976568544100),
  (-20110463484209200, 97956976568544100), (83486287498638000, -55045797293660500), (-83486287498638000, 55045797293660500),
  (55045797293660500, 83486287498638000), (-55045797293660500, -83486287498638000), (99576741446766000, -9190895649713270),
  (-99576741446766000, 9190895649713270), (9190895649713270, 99576741446766000), (-9190895649713270, -99576741446766000),
  (76910333764558000, 63912444486377600), (-76910333764558000, -63912444486377600), (63912444486377600, -76910333764558000),
  (-63912444486377600, 76910333764558000), (95514116830577100, 29615088824362400), (-95514116830577100, -29615088824362400),
  (29615088824362400, -95514116830577100), (-29615088824362400, 95514116830577100), (88479709843093800, -46597649576796600),
  (-88479709843093800, 46597649576796600), (46597649576796600, 88479709843093800), (-46597649576796600, -88479709843093800),
  (99456457073425500, 10412163387205500), (-99456457073425500, -10412163387205500), (10412163387205500, -99456457073425500),
  (-10412163387205500, 99456457073425500), (77688846567323200, -62963823891492700), (-77688846567323200, 62963823891492700),
  (62963823891492700, 77688846567323300), (-62963823891492700, -77688846567323300), (95870347489587100, -28440753721127200),
  (-95870347489587100, 28440753721127200), (28440753721127200, 95870347489587100), (-28440753721127200, -95870347489587100),
  (87901222642863300, 47679923006332200), (-87901222642863300, -47679923006332200), (47679923006332200, -87901222642863400),
  (-47679923006332200, 87901222642863400)]

/-- fft_constants.go:631-694: entries 64 to 127 of `phi1024_roots`. -/
def phi1024_roots_1 : List (Int × Int) := [
  (99907772775264500, -4293825693494080), (-99907772775264500, 4293825693494080), (4293825693494080, 99907772775264500),
  (-4293825693494080, -99907772775264500), (73681656887737000, 67609270357531600), (-73681656887737000, -67609270357531600),
  (67609270357531600, -73681656887737000), (-67609270357531600, 73681656887737000), (93945922360219000, 34266071731199400),
  (-93945922360219000, -34266071731199400), (34266071731199400, -93945922360219000), (-34266071731199400, 93945922360219000),
  (90659570451491500, -42200027079980000), (-90659570451491500, 42200027079980000), (42200027079980000, 90659570451491500),
  (-42200027079980000, -90659570451491500), (98825756773074900, 15279718525844300), (-98825756773074900, -15279718525844300),
  (15279718525844300, -98825756773074900), (-15279718525844300, 98825756773074900), (80684755354379900, -59075970185887400),
  (-80684755354379900, 59075970185887400), (59075970185887400, 80684755354379900), (-59075970185887400, -80684755354379900),
  (97150389098625200, -23702360599436700), (-97150389098625200, 23702360599436700), (23702360599436700, 97150389098625200),
  (-23702360599436700, -97150389098625200), (85455798836540100, 51935599016559000), (-85455798836540100, -51935599016559000),
  (51935599016559000, -85455798836540100), (-51935599016559000, 85455798836540100), (99847558057329500, 5519524434968990),
  (-99847558057329500, -5519524434968990), (5519524434968990, -99847558057329500), (-5519524434968990, 99847558057329500),
  (74505778544146600, -66699992230363800), (-74505778544146600, 66699992230363800), (66699992230363700, 74505778544146600),
  (-66699992230363700, -74505778544146600), (94359345816196000, -33110630575987600), (-94359345816196000, 33110630575987600),
  (33110630575987600, 94359345816196000), (-33110630575987600, -94359345816196000), (90134884704602200, 43309381885315200),
  (-90134884704602200, -43309381885315200), (43309381885315200, -90134884704602200), (-43309381885315200, 90134884704602200),
  (99005821026229700, -14065823933284900), (-99005821026229700, 14065823933284900), (14065823933284900, 99005821026229700),
  (-14065823933284900, -99005821026229700), (79953726910790500, 60061647938386900), (-79953726910790500, -60061647938386900),
  (60061647938386900, -79953726910790500), (-60061647938386900, 79953726910790500), (96852209427441700, 24892760574572000),
  (-96852209427441700, -24892760574572000), (24892760574572000, -96852209427441700), (-24892760574572000, 96852209427441700),
  (86086693863776700, -50883014254310700), (-86086693863776700, 50883014254310700), (50883014254310700, 86086693863776700),
  (-50883014254310700, -86086693863776700)]

/-- fft_constants.go:695-758: entries 128 to 191 of `phi1024_roots`. -/
def phi1024_roots_2 : List (Int × Int) := [
  (99983058179582300, -1840672990580480), (-99983058179582300, 1840672990580480), (1840672990580480, 99983058179582300),
  (-1840672990580480, -99983058179582300), (72000250796138200, 69397146088965400), (-72000250796138200, -69397146088965400),
  (69397146088965400, -72000250796138200), (-69397146088965400, 72000250796138200), (93076696107898400, 36561299780477400),
  (-93076696107898400, -36561299780477400), (36561299780477400, -93076696107898400), (-36561299780477400, 93076696107898400),
  (91667905992104300, -39962419984564700), (-91667905992104300, 39962419984564700), (39962419984564700, 91667905992104300),
  (-39962419984564700, -91667905992104300), (98421009238692900, 17700422041214900), (-98421009238692900, -17700422041214900),
  (17700422041214900, -98421009238692900), (-17700422041214900, 98421009238692900), (82110251499110500, -57078074588696700),
  (-82110251499110500, 57078074588696700), (57078074588696700, 82110251499110500), (-57078074588696700, -82110251499110500),
  (97702814265775400, -21311031991609100), (-97702814265775400, 21311031991609100), (21311031991609100, 97702814265775400),
  (-21311031991609100, -97702814265775400), (84155497743689800, 54017147272989300), (-84155497743689800, -54017147272989300),
  (54017147272989300, -84155497743689800), (-54017147272989300, 84155497743689800), (99682029929116600, 7968243797143010),
  (-99682029929116600, -7968243797143010), (7968243797143010, -99682029929116600), (-7968243797143010, 99682029929116600),
  (76120238548426200, -64851440102211300), (-76120238548426200, 64851440102211300), (64851440102211200, 76120238548426200),
  (-64851440102211200, -76120238548426200), (95143502096900800, -30784964004153500), (-95143502096900800, 30784964004153500),
  (30784964004153500, 95143502096900800), (-30784964004153500, -95143502096900800), (89044872324475800, 45508358712634400),
  (-89044872324475800, -45508358712634400), (45508358712634400, -89044872324475800), (-45508358712634400, 89044872324475800),
  (99321194923479500, -11631863091190500), (-99321194923479500, 11631863091190500), (11631863091190500, 99321194923479500),
  (-11631863091190500, -99321194923479500), (78455659715557500, 62005721176328900), (-78455659715557500, -62005721176328900),
  (62005721176328900, -78455659715557500), (-62005721176328900, 78455659715557500), (96212140426904200, 27262135544994900),
  (-96212140426904200, -27262135544994900), (27262135544994900, -96212140426904200), (-27262135544994900, 96212140426904200),
  (87309497841829000, -48755016014843600), (-87309497841829000, 48755016014843600), (48755016014843600, 87309497841829000),
  (-48755016014843600, -87309497841829000)]

/-- fft_constants.go:759-822: entries 192 to 255 of `phi1024_roots`. -/
def phi1024_roots_3 : List (Int × Int) := [
  (99952941750109300, 3067480317663660), (-99952941750109300, -3067480317663660), (3067480317663660, -99952941750109300),
  (-3067480317663660, 99952941750109300), (72846439044822500, -68508366777270000), (-72846439044822500, 68508366777270000),
  (68508366777270000, 72846439044822500), (-68508366777270000, -72846439044822500), (93518350993894800, -35416352542049000),
  (-93518350993894800, 35416352542049000), (35416352542049000, 93518350993894800), (-35416352542049000, -93518350993894800),
  (91170603200543000, 41084317105790400), (-91170603200543000, -41084317105790400), (41084317105790400, -91170603200543000),
  (-41084317105790400, 91170603200543000), (98630809724459900, -16491312048997000), (-98630809724459900, 16491312048997000),
  (16491312048997000, 98630809724459900), (-16491312048997000, -98630809724459900), (81403632970594800, 58081395809576500),
  (-81403632970594800, -58081395809576500), (58081395809576500, -81403632970594800), (-58081395809576500, 81403632970594800),
  (97433938278557600, 22508391135979300), (-97433938278557600, -22508391135979300), (22508391135979300, -97433938278557600),
  (-22508391135979300, 97433938278557600), (84812034480329700, -52980362468629500), (-84812034480329700, 52980362468629500),
  (52980362468629500, 84812034480329700), (-52980362468629500, -84812034480329700), (99772306664419200, -6744391956366410),
  (-99772306664419200, 6744391956366410), (6744391956366410, 99772306664419200), (-6744391956366410, -99772306664419200),
  (75318679904361300, 65780669329707900), (-75318679904361300, -65780669329707900), (65780669329707900, -75318679904361300),
  (-65780669329707900, 75318679904361300), (94758559101774100, 31950203081601600), (-94758559101774100, -31950203081601600),
  (31950203081601600, -94758559101774100), (-31950203081601600, 94758559101774100), (89596624975618500, -44412214457042900),
  (-89596624975618500, 44412214457042900), (44412214457042900, 89596624975618500), (-44412214457042900, -89596624975618500),
  (99170975366910000, 12849811079379300), (-99170975366910000, -12849811079379300), (12849811079379300, -99170975366910000),
  (-12849811079379300, 99170975366910000), (79210657730021200, -61038280627630900), (-79210657730021200, 61038280627630900),
  (61038280627630900, 79210657730021200), (-61038280627630900, -79210657730021200), (96539444169768900, -26079411791527600),
  (-96539444169768900, 26079411791527600), (26079411791527600, 96539444169768900), (-26079411791527600, -96539444169768900),
  (86704624551569300, 49822766697278200), (-86704624551569300, -49822766697278200), (49822766697278200, -86704624551569300),
  (-49822766697278200, 86704624551569300)]

/-- fft_constants.go:823-886: entries 256 to 319 of `phi1024_roots`. -/
def phi1024_roots_4 : List (Int × Int) := [
  (99998117528260100, -613588464915448), (-99998117528260100, 613588464915448), (613588464915448, 99998117528260100),
  (-613588464915448, -99998117528260100), (71143219574521600, 70275474445722500), (-71143219574521600, -70275474445722500),
  (70275474445722500, -71143219574521600), (-70275474445722500, 71143219574521600), (92621024213831100, 37700741021641800),
  (-92621024213831100, -37700741021641800), (37700741021641800, -92621024213831100), (-37700741021641800, 92621024213831100),
  (92151403934204200, -38834504669882600), (-92151403934204200, 38834504669882600), (38834504669882600, 92151403934204200),
  (-38834504669882600, -92151403934204200), (98196386910955500, 18906866414980600), (-98196386910955500, -18906866414980600),
  (18906866414980600, -98196386910955500), (-18906866414980600, 98196386910955500), (82804504525775600, -56066157619733600),
  (-82804504525775600, 56066157619733600), (56066157619733600, 82804504525775600), (-56066157619733600, -82804504525775600),
  (97956976568544100, -20110463484209200), (-97956976568544100, 20110463484209200), (20110463484209200, 97956976568544100),
  (-20110463484209200, -97956976568544100), (83486287498638000, 55045797293660500), (-83486287498638000, -55045797293660500),
  (55045797293660500, -83486287498638000), (-55045797293660500, 83486287498638000), (99576741446766000, 9190895649713270),
  (-99576741446766000, -9190895649713270), (9190895649713270, -99576741446766000), (-9190895649713270, 99576741446766000),
  (76910333764558000, -63912444486377600), (-76910333764558000, 63912444486377600), (63912444486377600, 76910333764558000),
  (-63912444486377600, -76910333764558000), (95514116830577100, -29615088824362400), (-95514116830577100, 29615088824362400),
  (29615088824362400, 95514116830577100), (-29615088824362400, -95514116830577100), (88479709843093800, 46597649576796600),
  (-88479709843093800, -46597649576796600), (46597649576796600, -88479709843093800), (-46597649576796600, 88479709843093800),
  (99456457073425500, -10412163387205500), (-99456457073425500, 10412163387205500), (10412163387205500, 99456457073425500),
  (-10412163387205500, -99456457073425500), (77688846567323200, 62963823891492700), (-77688846567323200, -62963823891492700),
  (62963823891492700, -77688846567323300), (-62963823891492700, 77688846567323300), (95870347489587100, 28440753721127200),
  (-95870347489587100, -28440753721127200), (28440753721127200, -95870347489587100), (-28440753721127200, 95870347489587100),
  (87901222642863300, -47679923006332200), (-87901222642863300, 47679923006332200), (47679923006332200, 87901222642863400),
  (-47679923006332200, -87901222642863400)]

/-- fft_constants.go:887-950: entries 320 to 383 of `phi1024_roots`. -/
def phi1024_roots_5 : List (Int × Int) := [
  (99907772775264500, 4293825693494080), (-99907772775264500, -4293825693494080), (4293825693494080, -99907772775264500),
  (-4293825693494080, 99907772775264500), (73681656887737000, -67609270357531600), (-73681656887737000, 67609270357531600),
  (67609270357531600, 73681656887737000), (-67609270357531600, -73681656887737000), (93945922360219000, -34266071731199400),
  (-93945922360219000, 34266071731199400), (34266071731199400, 93945922360219000), (-34266071731199400, -93945922360219000),
  (90659570451491500, 42200027079980000), (-90659570451491500, -42200027079980000), (42200027079980000, -90659570451491500),
  (-42200027079980000, 90659570451491500), (98825756773074900, -15279718525844300), (-98825756773074900, 15279718525844300),
  (15279718525844300, 98825756773074900), (-15279718525844300, -98825756773074900), (80684755354379900, 59075970185887400),
  (-80684755354379900, -59075970185887400), (59075970185887400, -80684755354379900), (-59075970185887400, 80684755354379900),
  (97150389098625200, 23702360599436700), (-97150389098625200, -23702360599436700), (23702360599436700, -97150389098625200),
  (-23702360599436700, 97150389098625200), (85455798836540100, -51935599016559000), (-85455798836540100, 51935599016559000),
  (51935599016559000, 85455798836540100), (-51935599016559000, -85455798836540100), (99847558057329500, -5519524434968990),
  (-99847558057329500, 5519524434968990), (5519524434968990, 99847558057329500), (-5519524434968990, -99847558057329500),
  (74505778544146600, 66699992230363800), (-74505778544146600, -66699992230363800), (66699992230363700, -74505778544146600),
  (-66699992230363700, 74505778544146600), (94359345816196000, 33110630575987600), (-94359345816196000, -33110630575987600),
  (33110630575987600, -94359345816196000), (-33110630575987600, 94359345816196000), (90134884704602200, -43309381885315200),
  (-90134884704602200, 43309381885315200), (43309381885315200, 90134884704602200), (-43309381885315200, -90134884704602200),
  (99005821026229700, 14065823933284900), (-99005821026229700, -14065823933284900), (14065823933284900, -99005821026229700),
  (-14065823933284900, 99005821026229700), (79953726910790500, -60061647938386900), (-79953726910790500, 60061647938386900),
  (60061647938386900, 79953726910790500), (-60061647938386900, -79953726910790500), (96852209427441700, -24892760574572000),
  (-96852209427441700, 24892760574572000), (24892760574572000, 96852209427441700), (-24892760574572000, -96852209427441700),
  (86086693863776700, 50883014254310700), (-86086693863776700, -50883014254310700), (50883014254310700, -86086693863776700),
  (-50883014254310700, 86086693863776700)]

/-- fft_constants.go:951-1014: entries 384 to 447 of `phi1024_roots`. -/
def phi1024_roots_6 : List (Int × Int) := [
  (99983058179582300, 1840672990580480), (-99983058179582300, -1840672990580480), (1840672990580480, -99983058179582300),
  (-1840672990580480, 99983058179582300), (72000250796138200, -69397146088965400), (-72000250796138200, 69397146088965400),
  (69397146088965400, 72000250796138200), (-69397146088965400, -72000250796138200), (93076696107898400, -36561299780477400),
  (-93076696107898400, 36561299780477400), (36561299780477400, 93076696107898400), (-36561299780477400, -93076696107898400),
  (91667905992104300, 39962419984564700), (-91667905992104300, -39962419984564700), (39962419984564700, -91667905992104300),
  (-39962419984564700, 91667905992104300), (98421009238692900, -17700422041214900), (-98421009238692900, 17700422041214900),
  (17700422041214900, 98421009238692900), (-17700422041214900, -98421009238692900), (82110251499110500, 57078074588696700),
  (-82110251499110500, -57078074588696700), (57078074588696700, -82110251499110500), (-57078074588696700, 82110251499110500),
  (97702814265775400, 21311031991609100), (-97702814265775400, -21311031991609100), (21311031991609100, -97702814265775400),
  (-21311031991609100, 97702814265775400), (84155497743689800, -54017147272989300), (-84155497743689800, 54017147272989300),
  (54017147272989300, 84155497743689800), (-54017147272989300, -84155497743689800), (99682029929116600, -7968243797143010),
  (-99682029929116600, 7968243797143010), (7968243797143010, 99682029929116600), (-7968243797143010, -99682029929116600),
  (76120238548426200, 64851440102211300), (-76120238548426200, -64851440102211300), (64851440102211200, -76120238548426200),
  (-64851440102211200, 76120238548426200), (95143502096900800, 30784964004153500), (-95143502096900800, -30784964004153500),
  (30784964004153500, -95143502096900800), (-30784964004153500, 95143502096900800), (89044872324475800, -45508358712634400),
  (-89044872324475800, 45508358712634400), (45508358712634400, 89044872324475800), (-45508358712634400, -89044872324475800),
  (99321194923479500, 11631863091190500), (-99321194923479500, -11631863091190500), (11631863091190500, -99321194923479500),
  (-11631863091190500, 99321194923479500), (78455659715557500, -62005721176328900), (-78455659715557500, 62005721176328900),
  (62005721176328900, 78455659715557500), (-62005721176328900, -78455659715557500), (96212140426904200, -27262135544994900),
  (-96212140426904200, 27262135544994900), (27262135544994900, 96212140426904200), (-27262135544994900, -96212140426904200),
  (87309497841829000, 48755016014843600), (-87309497841829000, -48755016014843600), (48755016014843600, -87309497841829000),
  (-48755016014843600, 87309497841829000)]

/-- fft_constants.go:1015-1078: entries 448 to 511 of `phi1024_roots`. -/
def phi1024_roots_7 : List (Int × Int) := [
  (99952941750109300, -3067480317663660), (-99952941750109300, 3067480317663660), (3067480317663660, 99952941750109300),
  (-3067480317663660, -99952941750109300), (72846439044822500, 68508366777270000), (-72846439044822500, -68508366777270000),
  (68508366777270000, -72846439044822500), (-68508366777270000, 72846439044822500), (93518350993894800, 35416352542049000),
  (-93518350993894800, -35416352542049000), (35416352542049000, -93518350993894800), (-35416352542049000, 93518350993894800),
  (91170603200543000, -41084317105790400), (-91170603200543000, 41084317105790400), (41084317105790400, 91170603200543000),
  (-41084317105790400, -91170603200543000), (98630809724459900, 16491312048997000), (-98630809724459900, -16491312048997000),
  (16491312048997000, -98630809724459900), (-16491312048997000, 98630809724459900), (81403632970594800, -58081395809576500),
  (-81403632970594800, 58081395809576500), (58081395809576500, 81403632970594800), (-58081395809576500, -81403632970594800),
  (97433938278557600, -22508391135979300), (-97433938278557600, 22508391135979300), (22508391135979300, 97433938278557600),
  (-22508391135979300, -97433938278557600), (84812034480329700, 52980362468629500), (-84812034480329700, -52980362468629500),
  (52980362468629500, -84812034480329700), (-52980362468629500, 84812034480329700), (99772306664419200, 6744391956366410),
  (-99772306664419200, -6744391956366410), (6744391956366410, -99772306664419200), (-6744391956366410, 99772306664419200),
  (75318679904361300, -65780669329707900), (-75318679904361300, 65780669329707900), (65780669329707900, 75318679904361300),
  (-65780669329707900, -75318679904361300), (94758559101774100, -31950203081601600), (-94758559101774100, 31950203081601600),
  (31950203081601600, 94758559101774100), (-31950203081601600, -94758559101774100), (89596624975618500, 44412214457042900),
  (-89596624975618500, -44412214457042900), (44412214457042900, -89596624975618500), (-44412214457042900, 89596624975618500),
  (99170975366910000, -12849811079379300), (-99170975366910000, 12849811079379300), (12849811079379300, 99170975366910000),
  (-12849811079379300, -99170975366910000), (79210657730021200, 61038280627630900), (-79210657730021200, -61038280627630900),
  (61038280627630900, -79210657730021200), (-61038280627630900, 79210657730021200), (96539444169768900, 26079411791527600),
  (-96539444169768900, -26079411791527600), (26079411791527600, -96539444169768900), (-26079411791527600, 96539444169768900),
  (86704624551569300, -49822766697278200), (-86704624551569300, 49822766697278200), (49822766697278200, 86704624551569300),
  (-49822766697278200, -86704624551569300)]

/-- fft_constants.go:566-1079 `phi1024_roots`. -/
def phi1024_roots : List (Int × Int) :=
  phi1024_roots_0 ++ phi1024_roots_1 ++ phi1024_roots_2 ++ phi1024_roots_3 ++ phi1024_roots_4 ++ phi1024_roots_5 ++ phi1024_roots_6 ++ phi1024_roots_7

/-- fft_constants.go:1085-1148: entries 0 to 63 of `phi2048_roots`. -/
def phi2048_roots_0 : List (Int × Int) := [
  (99999529380957600, 306795676296598), (-99999529380957600, -306795676296598), (306795676296598, -99999529380957600),
  (-306795676296598, 99999529380957600), (70927282643886600, -70493408037590500), (-70927282643886600, 70493408037590500),
  (70493408037590500, 70927282643886600), (-70493408037590500, -70927282643886600), (92504924078267800, -37984720892405100),
  (-92504924078267800, 37984720892405100), (37984720892405100, 92504924078267800), (-37984720892405100, -92504924078267800),
  (92270112833387900, 38551605384391900), (-92270112833387900, -38551605384391900), (38551605384391900, -92270112833387900),
  (-38551605384391900, 92270112833387900), (98137919331375500, -19208039704989200), (-98137919331375500, 19208039704989200),
  (19208039704989200, 98137919331375500), (-19208039704989200, -98137919331375500), (82976123379452300, 55811853122055600),
  (-82976123379452300, -55811853122055600), (55811853122055600, -82976123379452300), (-55811853122055600, 82976123379452300),
  (98018213596811700, 19809841071795400), (-98018213596811700, -19809841071795400), (19809841071795400, -98018213596811700),
  (-19809841071795400, 98018213596811700), (83317016470191300, -55301670558002800), (-83317016470191300, 55301670558002800),
  (55301670558002800, 83317016470191300), (-55301670558002800, -83317016470191300), (99548075549192700, -9496349532963900),
  (-99548075549192700, 9496349532963900), (9496349532963900, 99548075549192700), (-9496349532963900, -99548075549192700),
  (77106052426181400, 63676186123628400), (-77106052426181400, -63676186123628400), (63676186123628400, -77106052426181400),
  (-63676186123628400, 77106052426181400), (95604525134999600, 29321916269425900), (-95604525134999600, -29321916269425900),
  (29321916269425900, -95604525134999600), (-29321916269425900, 95604525134999600), (88336333866573200, -46868882203582800),
  (-88336333866573200, 46868882203582800), (46868882203582800, 88336333866573200), (-46868882203582800, -88336333866573200),
  (99487933079480600, 10106986275482800), (-99487933079480600, -10106986275482800), (10106986275482800, -99487933079480600),
  (-10106986275482800, 99487933079480600), (77495310659487400, -63201873593980900), (-77495310659487400, 63201873593980900),
  (63201873593980900, 77495310659487400), (-63201873593980900, -77495310659487400), (95782641302753300, -28734745954473000),
  (-95782641302753300, 28734745954473000), (28734745954473000, 95782641302753300), (-28734745954473000, -95782641302753300),
  (88047088905216100, 47410021465055000), (-88047088905216100, -47410021465055000), (47410021465055000, -88047088905216100),
  (-47410021465055000, 88047088905216100)]

/-- fft_constants.go:1149-1212: entries 64 to 127 of `phi2048_roots`. -/
def phi2048_roots_1 : List (Int × Int) := [
  (99894129318685700, -4600318213091460), (-99894129318685700, 4600318213091460), (4600318213091460, 99894129318685700),
  (-4600318213091460, -99894129318685700), (73888732446061500, 67382900037875600), (-73888732446061500, -67382900037875600),
  (67382900037875600, -73888732446061500), (-67382900037875600, 73888732446061500), (94050607059326800, 33977688440682700),
  (-94050607059326800, -33977688440682700), (33977688440682700, -94050607059326800), (-33977688440682700, 94050607059326800),
  (90529675931811900, -42477968120910900), (-90529675931811900, 42477968120910900), (42477968120910900, 90529675931811900),
  (-42477968120910900, -90529675931811900), (98872169196032400, 14976453467732200), (-98872169196032400, -14976453467732200),
  (14976453467732200, -98872169196032400), (-14976453467732200, 98872169196032400), (80503133114296400, -59323229503980000),
  (-80503133114296400, 59323229503980000), (59323229503980000, 80503133114296400), (-59323229503980000, -80503133114296400),
  (97077214072895000, -24000302244874100), (-97077214072895000, 24000302244874100), (24000302244874100, 97077214072895000),
  (-24000302244874100, -97077214072895000), (85614732837519400, 51673179901765000), (-85614732837519400, -51673179901765000),
  (51673179901765000, -85614732837519400), (-51673179901765000, 85614732837519400), (99864021818026500, 5213170468028330),
  (-99864021818026500, -5213170468028330), (5213170468028330, -99864021818026500), (-5213170468028330, 99864021818026500),
  (74300795213512200, -66928258834663600), (-74300795213512200, 66928258834663600), (66928258834663600, 74300795213512200),
  (-66928258834663600, -74300795213512200), (94257319760144700, -33399965144200900), (-94257319760144700, 33399965144200900),
  (33399965144200900, 94257319760144700), (-33399965144200900, -94257319760144700), (90267331823725900, 43032648134008300),
  (-90267331823725900, -43032648134008300), (43032648134008300, -90267331823725900), (-43032648134008300, 90267331823725900),
  (98962201746320100, -14369503315029400), (-98962201746320100, 14369503315029400), (14369503315029400, 98962201746320100),
  (-14369503315029400, -98962201746320100), (80137617172314000, 59816070699634200), (-80137617172314000, -59816070699634200),
  (59816070699634200, -80137617172314000), (-59816070699634200, 80137617172314000), (96928123535654900, 24595505033579500),
  (-96928123535654900, -24595505033579500), (24595505033579500, -96928123535654900), (-24595505033579500, 96928123535654900),
  (85930181835700800, -51146885043797000), (-85930181835700800, 51146885043797000), (51146885043797000, 85930181835700800),
  (-51146885043797000, -85930181835700800)]

/-- fft_constants.go:1213-1276: entries 128 to 191 of `phi2048_roots`. -/
def phi2048_roots_2 : List (Int × Int) := [
  (99976940535121500, -2147408027546950), (-99976940535121500, 2147408027546950), (2147408027546950, 99976940535121500),
  (-2147408027546950, -99976940535121500), (72212819392921500, 69175925836415800), (-72212819392921500, -69175925836415800),
  (69175925836415800, -72212819392921500), (-69175925836415800, 72212819392921500), (93188426558166800, 36275572436739700),
  (-93188426558166800, -36275572436739700), (36275572436739700, -93188426558166800), (-36275572436739700, 93188426558166800),
  (91544871608826800, -40243465085941800), (-91544871608826800, 40243465085941800), (40243465085941800, 91544871608826800),
  (-40243465085941800, -91544871608826800), (98474850180190400, 17398387338746400), (-98474850180190400, -17398387338746400),
  (17398387338746400, -98474850180190400), (-17398387338746400, 98474850180190400), (81934752007679700, -57329716669804200),
  (-81934752007679700, 57329716669804200), (57329716669804200, 81934752007679700), (-57329716669804200, -81934752007679700),
  (97636973133002100, -21610679707622000), (-97636973133002100, 21610679707622000), (21610679707622000, 97636973133002100),
  (-21610679707622000, -97636973133002100), (84320823964184500, 53758707629564600), (-84320823964184500, -53758707629564600),
  (53758707629564600, -84320823964184500), (-53758707629564600, 84320823964184500), (99706007033948300, 7662386139203150),
  (-99706007033948300, -7662386139203150), (7662386139203150, -99706007033948300), (-7662386139203150, 99706007033948300),
  (75920918897838800, -65084668499638100), (-75920918897838800, 65084668499638100), (65084668499638100, 75920918897838800),
  (-65084668499638100, -75920918897838800), (95048607394948200, -31076715274961200), (-95048607394948200, 31076715274961200),
  (31076715274961200, 95048607394948200), (-31076715274961200, -95048607394948200), (89184070939234300, 45234958723377100),
  (-89184070939234300, -45234958723377100), (45234958723377100, -89184070939234300), (-45234958723377100, 89184070939234300),
  (99285041445986500, -11936521481099100), (-99285041445986500, 11936521481099100), (11936521481099100, 99285041445986500),
  (-11936521481099100, -99285041445986500), (78645521359908600, 61764730793780400), (-78645521359908600, -61764730793780400),
  (61764730793780400, -78645521359908600), (-61764730793780400, 78645521359908600), (96295326687368400, 26966832557291500),
  (-96295326687368400, -26966832557291500), (26966832557291500, -96295326687368400), (-26966832557291500, 96295326687368400),
  (87159508665595100, -49022648328829100), (-87159508665595100, 49022648328829100), (49022648328829100, 87159508665595100),
  (-49022648328829100, -87159508665595100)]

/-- fft_constants.go:1277-1340: entries 192 to 255 of `phi2048_roots`. -/
def phi2048_roots_3 : List (Int × Int) := [
  (99961882249517900, 2760814577896570), (-99961882249517900, -2760814577896570), (2760814577896570, -99961882249517900),
  (-2760814577896570, 99961882249517900), (72635915508434600, -68731534089175900), (-72635915508434600, 68731534089175900),
  (68731534089175900, 72635915508434600), (-68731534089175900, -72635915508434600), (93409255040425900, -35703096123343000),
  (-93409255040425900, 35703096123343000), (35703096123343000, 93409255040425900), (-35703096123343000, -93409255040425900),
  (91296219042839800, 40804416286497900), (-91296219042839800, -40804416286497900), (40804416286497900, -91296219042839800),
  (-40804416286497900, 91296219042839800), (98579750916756700, -16793829497473100), (-98579750916756700, 16793829497473100),
  (16793829497473100, 98579750916756700), (-16793829497473100, -98579750916756700), (81581441080673400, 57831379641165600),
  (-81581441080673400, -57831379641165600), (57831379641165600, -81581441080673400), (-57831379641165600, 81581441080673400),
  (97502534506699400, 22209362097320400), (-97502534506699400, -22209362097320400), (22209362097320400, -97502534506699400),
  (-22209362097320400, 97502534506699400), (84649093877405200, -53240312787719800), (-84649093877405200, 53240312787719800),
  (53240312787719800, 84649093877405200), (-53240312787719800, -84649093877405200), (99751145614030300, -7050457338961390),
  (-99751145614030300, 7050457338961390), (7050457338961390, 99751145614030300), (-7050457338961390, -99751145614030300),
  (75520137689653700, 65549285299961500), (-75520137689653700, -65549285299961500), (65549285299961500, -75520137689653700),
  (-65549285299961500, 75520137689653700), (94856134991573000, 31659337555616600), (-94856134991573000, -31659337555616600),
  (31659337555616600, -94856134991573000), (-31659337555616600, 94856134991573000), (89459948563138300, -44686884016237400),
  (-89459948563138300, 44686884016237400), (44686884016237400, 89459948563138300), (-44686884016237400, -89459948563138300),
  (99209931314219200, 12545498341154600), (-99209931314219200, -12545498341154600), (12545498341154600, -99209931314219200),
  (-12545498341154600, 99209931314219200), (79023022143731000, -61281008242941000), (-79023022143731000, 61281008242941000),
  (61281008242941000, 79023022143731000), (-61281008242941000, -79023022143731000), (96458979328981300, -26375467897483100),
  (-96458979328981300, 26375467897483100), (26375467897483100, 96458979328981300), (-26375467897483100, -96458979328981300),
  (86857070597134100, 49556526182577200), (-86857070597134100, -49556526182577200), (49556526182577200, -86857070597134100),
  (-49556526182577200, 86857070597134100)]

/-- fft_constants.go:1341-1404: entries 256 to 319 of `phi2048_roots`. -/
def phi2048_roots_4 : List (Int × Int) := [
  (99995764455196400, -920375478205982), (-99995764455196400, 920375478205982), (920375478205982, 99995764455196400),
  (-920375478205982, -99995764455196400), (71358486878079400, 70056879394324800), (-71358486878079400, -70056879394324800),
  (70056879394324800, -71358486878079400), (-70056879394324800, 71358486878079400), (92736252565040100, 37416406297145800),
  (-92736252565040100, -37416406297145800), (37416406297145800, -92736252565040100), (-37416406297145800, 92736252565040100),
  (92031827670911000, -39117038430225400), (-92031827670911000, 39117038430225400), (39117038430225400, 92031827670911100),
  (-39117038430225400, -92031827670911100), (98253930228744100, 18605515166344700), (-98253930228744100, -18605515166344700),
  (18605515166344700, -98253930228744100), (-18605515166344700, 98253930228744100), (82632106284566400, -56319934401383400),
  (-82632106284566400, 56319934401383400), (56319934401383400, 82632106284566400), (-56319934401383400, -82632106284566400),
  (97894817531906200, -20410896609281700), (-97894817531906200, 20410896609281700), (20410896609281700, 97894817531906200),
  (-20410896609281700, -97894817531906200), (83654772722351200, 54789405917310000), (-83654772722351200, -54789405917310000),
  (54789405917310000, -83654772722351200), (-54789405917310000, 83654772722351200), (99604470090125200, 8885355258252460),
  (-99604470090125200, -8885355258252460), (8885355258252460, -99604470090125200), (-8885355258252460, 99604470090125200),
  (76713891193582000, -64148101280858300), (-76713891193582000, 64148101280858300), (64148101280858300, 76713891193582000),
  (-64148101280858300, -76713891193582000), (95422809510910600, -29907982630804000), (-95422809510910600, 29907982630804000),
  (29907982630804000, 95422809510910600), (-29907982630804000, -95422809510910600), (88622253014888100, 46325978355186000),
  (-88622253014888100, -46325978355186000), (46325978355186000, -88622253014888100), (-46325978355186000, 88622253014888100),
  (99424044945318800, -10717242495680900), (-99424044945318800, 10717242495680900), (10717242495680900, 99424044945318800),
  (-10717242495680900, -99424044945318800), (77881651238147600, 62725181549514400), (-77881651238147600, -62725181549514400),
  (62725181549514400, -77881651238147600), (-62725181549514400, 77881651238147600), (95957151308198500, 28146493792575800),
  (-95957151308198500, -28146493792575800), (28146493792575800, -95957151308198500), (-28146493792575800, 95957151308198500),
  (87754529020726100, -47949375766015300), (-87754529020726100, 47949375766015300), (47949375766015300, 87754529020726100),
  (-47949375766015300, -87754529020726100)]

/-- fft_constants.go:1405-1468: entries 320 to 383 of `phi2048_roots`. -/
def phi2048_roots_5 : List (Int × Int) := [
  (99920475861836400, 3987292758773980), (-99920475861836400, -3987292758773980), (3987292758773980, -99920475861836400),
  (-3987292758773980, 99920475861836400), (73473887809596300, -67835004312986200), (-73473887809596300, 67835004312986200),
  (67835004312986100, 73473887809596300), (-67835004312986100, -73473887809596300), (93840353406310800, -34554132496398900),
  (-93840353406310800, 34554132496398900), (34554132496398900, 93840353406310800), (-34554132496398900, -93840353406310800),
  (90788611648766600, 41921688836322400), (-90788611648766600, -41921688836322400), (41921688836322400, -90788611648766600),
  (-41921688836322400, 90788611648766600), (98778414164457200, -15582839765426500), (-98778414164457200, 15582839765426500),
  (15582839765426500, 98778414164457200), (-15582839765426500, -98778414164457200), (80865618158817500, 58828154822264500),
  (-80865618158817500, -58828154822264500), (58828154822264500, -80865618158817500), (-58828154822264500, 80865618158817500),
  (97222649707893600, 23404195858354300), (-97222649707893600, -23404195858354300), (23404195858354300, -97222649707893600),
  (-23404195858354300, 97222649707893600), (85296060493036400, -52197529293715400), (-85296060493036400, 52197529293715400),
  (52197529293715400, 85296060493036400), (-52197529293715400, -85296060493036400), (99830154493389300, -5825826450043580),
  (-99830154493389300, 5825826450043580), (5825826450043580, 99830154493389300), (-5825826450043580, -99830154493389300),
  (74710060598018000, 66471097820334500), (-74710060598018000, -66471097820334500), (66471097820334500, -74710060598018000),
  (-66471097820334500, 74710060598018000), (94460483726148000, 32820984357909200), (-94460483726148000, -32820984357909200),
  (32820984357909200, -94460483726148000), (-32820984357909200, 94460483726148000), (90001589201616000, -43585707992225500),
  (-90001589201616000, 43585707992225500), (43585707992225600, 90001589201616000), (-43585707992225600, -90001589201616000),
  (99048508425645700, 13762012158648600), (-99048508425645700, -13762012158648600), (13762012158648600, -99048508425645700),
  (-13762012158648600, 99048508425645700), (79769084094339100, -60306659854034800), (-79769084094339100, 60306659854034800),
  (60306659854034800, 79769084094339100), (-60306659854034800, -79769084094339100), (96775383709347500, -25189781815421700),
  (-96775383709347500, 25189781815421700), (25189781815421700, 96775383709347500), (-25189781815421700, -96775383709347500),
  (86242395611104100, 50618664534515500), (-86242395611104100, -50618664534515500), (50618664534515500, -86242395611104100),
  (-50618664534515500, 86242395611104100)]

/-- fft_constants.go:1469-1532: entries 384 to 447 of `phi2048_roots`. -/
def phi2048_roots_6 : List (Int × Int) := [
  (99988234745421300, 1533920628498810), (-99988234745421300, -1533920628498810), (1533920628498810, -99988234745421300),
  (-1533920628498810, 99988234745421300), (71787004505573200, -69617713149146300), (-71787004505573200, 69617713149146300),
  (69617713149146300, 71787004505573200), (-69617713149146300, -71787004505573200), (92964089584318100, -36846682995337200),
  (-92964089584318100, 36846682995337200), (36846682995337200, 92964089584318100), (-36846682995337200, -92964089584318100),
  (91790077562139000, 39680998741671000), (-91790077562139000, -39680998741671000), (39680998741671000, -91790077562139000),
  (-39680998741671000, 91790077562139000), (98366241921173000, -18002290140570000), (-98366241921173000, 18002290140570000),
  (18002290140570000, 98366241921173000), (-18002290140570000, -98366241921173000), (82284978137582600, 56825895267013200),
  (-82284978137582600, -56825895267013200), (56825895267013200, -82284978137582600), (-56825895267013200, 82284978137582600),
  (97767735782451000, 21011183688047000), (-97767735782451000, -21011183688047000), (21011183688047000, -97767735782451000),
  (-21011183688047000, 97767735782451000), (83989379419600000, -54275078486451600), (-83989379419600000, 54275078486451600),
  (54275078486451600, 83989379419600000), (-54275078486451600, -83989379419600000), (99657114579055500, -8274026454937570),
  (-99657114579055500, 8274026454937570), (8274026454937570, 99657114579055500), (-8274026454937570, -99657114579055500),
  (76318841726338100, 64617601298331600), (-76318841726338100, -64617601298331600), (64617601298331600, -76318841726338100),
  (-64617601298331600, 76318841726338100), (95237501271976600, 30492922973540200), (-95237501271976600, -30492922973540200),
  (30492922973540200, -95237501271976600), (-30492922973540200, 95237501271976600), (88904835585466500, -45781330359887700),
  (-88904835585466500, 45781330359887700), (45781330359887700, 88904835585466500), (-45781330359887700, -88904835585466500),
  (99356413552059500, 11327095217756400), (-99356413552059500, -11327095217756400), (11327095217756400, -99356413552059500),
  (-11327095217756400, 99356413552059500), (78265059616657600, -62246127937415000), (-78265059616657600, 62246127937415000),
  (62246127937415000, 78265059616657600), (-62246127937415000, -78265059616657600), (96128048581132100, -27557181931095800),
  (-96128048581132100, 27557181931095800), (27557181931095800, 96128048581132100), (-27557181931095800, -96128048581132100),
  (87458665227817600, 48486924800079100), (-87458665227817600, -48486924800079100), (48486924800079100, -87458665227817600),
  (-48486924800079100, 87458665227817600)]

/-- fft_constants.go:1533-1596: entries 448 to 511 of `phi2048_roots`. -/
def phi2048_roots_7 : List (Int × Int) := [
  (99943060455546200, -3374117185137760), (-99943060455546200, 3374117185137760), (3374117185137760, 99943060455546200),
  (-3374117185137760, -99943060455546200), (73056276922782800, 68284554638524800), (-73056276922782800, -68284554638524800),
  (68284554638524800, -73056276922782800), (-68284554638524800, 73056276922782800), (93626566717027800, 35129275608556700),
  (-93626566717027800, -35129275608556700), (35129275608556700, -93626566717027800), (-35129275608556700, 93626566717027800),
  (91044129225806700, -41363831223843500), (-91044129225806700, 41363831223843500), (41363831223843500, 91044129225806700),
  (-41363831223843500, -91044129225806700), (98680940181418500, 16188639378011200), (-98680940181418500, -16188639378011200),
  (16188639378011200, -98680940181418500), (-16188639378011200, 98680940181418500), (81225058658520400, -58330865293769800),
  (-81225058658520400, 58330865293769800), (58330865293769800, 81225058658520400), (-58330865293769800, -81225058658520400),
  (97364424965081200, -22807208317088600), (-97364424965081200, 22807208317088600), (22807208317088600, 97364424965081200),
  (-22807208317088600, -97364424965081200), (84974176800085200, 52719913478190100), (-84974176800085200, -52719913478190100),
  (52719913478190100, -84974176800085300), (-52719913478190100, 84974176800085300), (99792528619859600, 6438263092985750),
  (-99792528619859600, -6438263092985750), (6438263092985750, -99792528619859600), (-6438263092985750, 99792528619859600),
  (75116513190968600, -66011434206742000), (-75116513190968600, 66011434206742000), (66011434206742000, 75116513190968600),
  (-66011434206742000, -75116513190968600), (94660091308328400, -32240767880107000), (-94660091308328400, 32240767880107000),
  (32240767880107000, 94660091308328400), (-32240767880107000, -94660091308328400), (89732458070541800, 44137126873171700),
  (-89732458070541800, -44137126873171700), (44137126873171700, -89732458070541800), (-44137126873171700, 89732458070541800),
  (99131085984611500, -13154002870288300), (-99131085984611500, 13154002870288300), (13154002870288300, 99131085984611500),
  (-13154002870288300, -99131085984611500), (79397547755433700, 60794978496777400), (-79397547755433700, -60794978496777400),
  (60794978496777400, -79397547755433700), (-60794978496777400, 79397547755433700), (96619000344541300, 25783110216215900),
  (-96619000344541300, -25783110216215900), (25783110216215900, -96619000344541300), (-25783110216215900, 96619000344541300),
  (86551362409056900, -50088538261124100), (-86551362409056900, 50088538261124100), (50088538261124100, 86551362409056900),
  (-50088538261124100, -86551362409056900)]

/-- fft_constants.go:1597-1660: entries 512 to 575 of `phi2048_roots`. -/
def phi2048_roots_8 : List (Int × Int) := [
  (99999529380957600, -306795676296598), (-99999529380957600, 306795676296598), (306795676296598, 99999529380957600),
  (-306795676296598, -99999529380957600), (70927282643886600, 70493408037590500), (-70927282643886600, -70493408037590500),
  (70493408037590500, -70927282643886600), (-70493408037590500, 70927282643886600), (92504924078267800, 37984720892405100),
  (-92504924078267800, -37984720892405100), (37984720892405100, -92504924078267800), (-37984720892405100, 92504924078267800),
  (92270112833387900, -38551605384391900), (-92270112833387900, 38551605384391900), (38551605384391900, 92270112833387900),
  (-38551605384391900, -92270112833387900), (98137919331375500, 19208039704989200), (-98137919331375500, -19208039704989200),
  (19208039704989200, -98137919331375500), (-19208039704989200, 98137919331375500), (82976123379452300, -55811853122055600),
  (-82976123379452300, 55811853122055600), (55811853122055600, 82976123379452300), (-55811853122055600, -82976123379452300),
  (98018213596811700, -19809841071795400), (-98018213596811700, 19809841071795400), (19809841071795400, 98018213596811700),
  (-19809841071795400, -98018213596811700), (83317016470191300, 55301670558002800), (-83317016470191300, -55301670558002800),
  (55301670558002800, -83317016470191300), (-55301670558002800, 83317016470191300), (99548075549192700, 9496349532963900),
  (-99548075549192700, -9496349532963900), (9496349532963900, -99548075549192700), (-9496349532963900, 99548075549192700),
  (77106052426181400, -63676186123628400), (-77106052426181400, 63676186123628400), (63676186123628400, 77106052426181400),
  (-63676186123628400, -77106052426181400), (95604525134999600, -29321916269425900), (-95604525134999600, 29321916269425900),
  (29321916269425900, 95604525134999600), (-29321916269425900, -95604525134999600), (88336333866573200, 46868882203582800),
  (-88336333866573200, -46868882203582800), (46868882203582800, -88336333866573200), (-46868882203582800, 88336333866573200),
  (99487933079480600, -10106986275482800), (-99487933079480600, 10106986275482800), (10106986275482800, 99487933079480600),
  (-10106986275482800, -99487933079480600), (77495310659487400, 63201873593980900), (-77495310659487400, -63201873593980900),
  (63201873593980900, -77495310659487400), (-63201873593980900, 77495310659487400), (95782641302753300, 28734745954473000),
  (-95782641302753300, -28734745954473000), (28734745954473000, -95782641302753300), (-28734745954473000, 95782641302753300),
  (88047088905216100, -47410021465055000), (-88047088905216100, 47410021465055000), (47410021465055000, 88047088905216100),
  (-47410021465055000, -88047088905216100)]

/-- fft_constants.go:1661-1724: entries 576 to 639 of `phi2048_roots`. -/
def phi2048_roots_9 : List (Int × Int) := [
  (99894129318685700, 4600318213091460), (-99894129318685700, -4600318213091460), (4600318213091460, -99894129318685700),
  (-4600318213091460, 99894129318685700), (73888732446061500, -67382900037875600), (-73888732446061500, 67382900037875600),
  (67382900037875600, 73888732446061500), (-67382900037875600, -73888732446061500), (94050607059326800, -33977688440682700),
  (-94050607059326800, 33977688440682700), (33977688440682700, 94050607059326800), (-33977688440682700, -94050607059326800),
  (90529675931811900, 42477968120910900), (-90529675931811900, -42477968120910900), (42477968120910900, -90529675931811900),
  (-42477968120910900, 90529675931811900), (98872169196032400, -14976453467732200), (-98872169196032400, 14976453467732200),
  (14976453467732200, 98872169196032400), (-14976453467732200, -98872169196032400), (80503133114296400, 59323229503980000),
  (-80503133114296400, -59323229503980000), (59323229503980000, -80503133114296400), (-59323229503980000, 80503133114296400),
  (97077214072895000, 24000302244874100), (-97077214072895000, -24000302244874100), (24000302244874100, -97077214072895000),
  (-24000302244874100, 97077214072895000), (85614732837519400, -51673179901765000), (-85614732837519400, 51673179901765000),
  (51673179901765000, 85614732837519400), (-51673179901765000, -85614732837519400), (99864021818026500, -5213170468028330),
  (-99864021818026500, 5213170468028330), (5213170468028330, 99864021818026500), (-5213170468028330, -99864021818026500),
  (74300795213512200, 66928258834663600), (-74300795213512200, -66928258834663600), (66928258834663600, -74300795213512200),
  (-66928258834663600, 74300795213512200), (94257319760144700, 33399965144200900), (-94257319760144700, -33399965144200900),
  (33399965144200900, -94257319760144700), (-33399965144200900, 94257319760144700), (90267331823725900, -43032648134008300),
  (-90267331823725900, 43032648134008300), (43032648134008300, 90267331823725900), (-43032648134008300, -90267331823725900),
  (98962201746320100, 14369503315029400), (-98962201746320100, -14369503315029400), (14369503315029400, -98962201746320100),
  (-14369503315029400, 98962201746320100), (80137617172314000, -59816070699634200), (-80137617172314000, 59816070699634200),
  (59816070699634200, 80137617172314000), (-59816070699634200, -80137617172314000), (96928123535654900, -24595505033579500),
  (-96928123535654900, 24595505033579500), (24595505033579500, 96928123535654900), (-24595505033579500, -96928123535654900),
  (85930181835700800, 51146885043797000), (-85930181835700800, -51146885043797000), (51146885043797000, -85930181835700800),
  (-51146885043797000, 85930181835700800)]

/-- fft_constants.go:1725-1788: entries 640 to 703 of `phi2048_roots`. -/
def phi2048_roots_10 : List (Int × Int) := [
  (99976940535121500, 2147408027546950), (-99976940535121500, -2147408027546950), (2147408027546950, -99976940535121500),
  (-2147408027546950, 99976940535121500), (72212819392921500, -69175925836415800), (-72212819392921500, 69175925836415800),
  (69175925836415800, 72212819392921500), (-69175925836415800, -72212819392921500), (93188426558166800, -36275572436739700),
  (-93188426558166800, 36275572436739700), (36275572436739700, 93188426558166800), (-36275572436739700, -93188426558166800),
  (91544871608826800, 40243465085941800), (-91544871608826800, -40243465085941800), (40243465085941800, -91544871608826800),
  (-40243465085941800, 91544871608826800), (98474850180190400, -17398387338746400), (-98474850180190400, 17398387338746400),
  (17398387338746400, 98474850180190400), (-17398387338746400, -98474850180190400), (81934752007679700, 57329716669804200),
  (-81934752007679700, -57329716669804200), (57329716669804200, -81934752007679700), (-57329716669804200, 81934752007679700),
  (97636973133002100, 21610679707622000), (-97636973133002100, -21610679707622000), (21610679707622000, -97636973133002100),
  (-21610679707622000, 97636973133002100), (84320823964184500, -53758707629564600), (-84320823964184500, 53758707629564600),
  (53758707629564600, 84320823964184500), (-53758707629564600, -84320823964184500), (99706007033948300, -7662386139203150),
  (-99706007033948300, 7662386139203150), (7662386139203150, 99706007033948300), (-7662386139203150, -99706007033948300),
  (75920918897838800, 65084668499638100), (-75920918897838800, -65084668499638100), (65084668499638100, -75920918897838800),
  (-65084668499638100, 75920918897838800), (95048607394948200, 31076715274961200), (-95048607394948200, -31076715274961200),
  (31076715274961200, -95048607394948200), (-31076715274961200, 95048607394948200), (89184070939234300, -45234958723377100),
  (-89184070939234300, 45234958723377100), (45234958723377100, 89184070939234300), (-45234958723377100, -89184070939234300),
  (99285041445986500, 11936521481099100), (-99285041445986500, -11936521481099100), (11936521481099100, -99285041445986500),
  (-11936521481099100, 99285041445986500), (78645521359908600, -61764730793780400), (-78645521359908600, 61764730793780400),
  (61764730793780400, 78645521359908600), (-61764730793780400, -78645521359908600), (96295326687368400, -26966832557291500),
  (-96295326687368400, 26966832557291500), (26966832557291500, 96295326687368400), (-26966832557291500, -96295326687368400),
  (87159508665595100, 49022648328829100), (-87159508665595100, -49022648328829100), (49022648328829100, -87159508665595100),
  (-49022648328829100, 87159508665595100)]

/-- fft_constants.go:1789-1852: entries 704 to 767 of `phi2048_roots`. -/
def phi2048_roots_11 : List (Int × Int) := [
  (99961882249517900, -2760814577896570), (-99961882249517900, 2760814577896570), (2760814577896570, 99961882249517900),
  (-2760814577896570, -99961882249517900), (72635915508434600, 68731534089175900), (-72635915508434600, -68731534089175900),
  (68731534089175900, -72635915508434600), (-68731534089175900, 72635915508434600), (93409255040425900, 35703096123343000),
  (-93409255040425900, -35703096123343000), (35703096123343000, -93409255040425900), (-35703096123343000, 93409255040425900),
  (91296219042839800, -40804416286497900), (-91296219042839800, 40804416286497900), (40804416286497900, 91296219042839800),
  (-40804416286497900, -91296219042839800), (98579750916756700, 16793829497473100), (-98579750916756700, -16793829497473100),
  (16793829497473100, -98579750916756700), (-16793829497473100, 98579750916756700), (81581441080673400, -57831379641165600),
  (-81581441080673400, 57831379641165600), (57831379641165600, 81581441080673400), (-57831379641165600, -81581441080673400),
  (97502534506699400, -22209362097320400), (-97502534506699400, 22209362097320400), (22209362097320400, 97502534506699400),
  (-22209362097320400, -97502534506699400), (84649093877405200, 53240312787719800), (-84649093877405200, -53240312787719800),
  (53240312787719800, -84649093877405200), (-53240312787719800, 84649093877405200), (99751145614030300, 7050457338961390),
  (-99751145614030300, -7050457338961390), (7050457338961390, -99751145614030300), (-7050457338961390, 99751145614030300),
  (75520137689653700, -65549285299961500), (-75520137689653700, 65549285299961500), (65549285299961500, 75520137689653700),
  (-65549285299961500, -75520137689653700), (94856134991573000, -31659337555616600), (-94856134991573000, 31659337555616600),
  (31659337555616600, 94856134991573000), (-31659337555616600, -94856134991573000), (89459948563138300, 44686884016237400),
  (-89459948563138300, -44686884016237400), (44686884016237400, -89459948563138300), (-44686884016237400, 89459948563138300),
  (99209931314219200, -12545498341154600), (-99209931314219200, 12545498341154600), (12545498341154600, 99209931314219200),
  (-12545498341154600, -99209931314219200), (79023022143731000, 61281008242941000), (-79023022143731000, -61281008242941000),
  (61281008242941000, -79023022143731000), (-61281008242941000, 79023022143731000), (96458979328981300, 26375467897483100),
  (-96458979328981300, -26375467897483100), (26375467897483100, -96458979328981300), (-26375467897483100, 96458979328981300),
  (86857070597134100, -49556526182577200), (-86857070597134100, 49556526182577200), (49556526182577200, 86857070597134100),
  (-49556526182577200, -86857070597134100)]

/-- fft_constants.go:1853-1916: entries 768 to 831 of `phi2048_roots`. -/
def phi2048_roots_12 : List (Int × Int) := [
  (99995764455196400, 920375478205982), (-99995764455196400, -920375478205982), (920375478205982, -99995764455196400),
  (-920375478205982, 99995764455196400), (71358486878079400, -70056879394324800), (-71358486878079400, 70056879394324800),
  (70056879394324800, 71358486878079400), (-70056879394324800, -71358486878079400), (92736252565040100, -37416406297145800),
  (-92736252565040100, 37416406297145800), (37416406297145800, 92736252565040100), (-37416406297145800, -92736252565040100),
  (92031827670911000, 39117038430225400), (-92031827670911000, -39117038430225400), (39117038430225400, -92031827670911100),
  (-39117038430225400, 92031827670911100), (98253930228744100, -18605515166344700), (-98253930228744100, 18605515166344700),
  (18605515166344700, 98253930228744100), (-18605515166344700, -98253930228744100), (82632106284566400, 56319934401383400),
  (-82632106284566400, -56319934401383400), (56319934401383400, -82632106284566400), (-56319934401383400, 82632106284566400),
  (97894817531906200, 20410896609281700), (-97894817531906200, -20410896609281700), (20410896609281700, -97894817531906200),
  (-20410896609281700, 97894817531906200), (83654772722351200, -54789405917310000), (-83654772722351200, 54789405917310000),
  (54789405917310000, 83654772722351200), (-54789405917310000, -83654772722351200), (99604470090125200, -8885355258252460),
  (-99604470090125200, 8885355258252460), (8885355258252460, 99604470090125200), (-8885355258252460, -99604470090125200),
  (76713891193582000, 64148101280858300), (-76713891193582000, -64148101280858300), (64148101280858300, -76713891193582000),
  (-64148101280858300, 76713891193582000), (95422809510910600, 29907982630804000), (-95422809510910600, -29907982630804000),
  (29907982630804000, -95422809510910600), (-29907982630804000, 95422809510910600), (88622253014888100, -46325978355186000),
  (-88622253014888100, 46325978355186000), (46325978355186000, 88622253014888100), (-46325978355186000, -88622253014888100),
  (99424044945318800, 10717242495680900), (-99424044945318800, -10717242495680900), (10717242495680900, -99424044945318800),
  (-10717242495680900, 99424044945318800), (77881651238147600, -62725181549514400), (-77881651238147600, 62725181549514400),
  (62725181549514400, 77881651238147600), (-62725181549514400, -77881651238147600), (95957151308198500, -28146493792575800),
  (-95957151308198500, 28146493792575800), (28146493792575800, 95957151308198500), (-28146493792575800, -95957151308198500),
  (87754529020726100, 47949375766015300), (-87754529020726100, -47949375766015300), (47949375766015300, -87754529020726100),
  (-47949375766015300, 87754529020726100)]

/-- fft_constants.go:1917-1980: entries 832 to 895 of `phi2048_roots`. -/
def phi2048_roots_13 : List (Int × Int) := [
  (99920475861836400, -3987292758773980), (-99920475861836400, 3987292758773980), (3987292758773980, 99920475861836400),
  (-3987292758773980, -99920475861836400), (73473887809596300, 67835004312986200), (-73473887809596300, -67835004312986200),
  (67835004312986100, -73473887809596300), (-67835004312986100, 73473887809596300), (93840353406310800, 34554132496398900),
  (-93840353406310800, -34554132496398900), (34554132496398900, -93840353406310800), (-34554132496398900, 93840353406310800),
  (90788611648766600, -41921688836322400), (-90788611648766600, 41921688836322400), (41921688836322400, 90788611648766600),
  (-41921688836322400, -90788611648766600), (98778414164457200, 15582839765426500), (-98778414164457200, -15582839765426500),
  (15582839765426500, -98778414164457200), (-15582839765426500, 98778414164457200), (80865618158817500, -58828154822264500),
  (-80865618158817500, 58828154822264500), (58828154822264500, 80865618158817500), (-58828154822264500, -80865618158817500),
  (97222649707893600, -23404195858354300), (-97222649707893600, 23404195858354300), (23404195858354300, 97222649707893600),
  (-23404195858354300, -97222649707893600), (85296060493036400, 52197529293715400), (-85296060493036400, -52197529293715400),
  (52197529293715400, -85296060493036400), (-52197529293715400, 85296060493036400), (99830154493389300, 5825826450043580),
  (-99830154493389300, -5825826450043580), (5825826450043580, -99830154493389300), (-5825826450043580, 99830154493389300),
  (74710060598018000, -66471097820334500), (-74710060598018000, 66471097820334500), (66471097820334500, 74710060598018000),
  (-66471097820334500, -74710060598018000), (94460483726148000, -32820984357909200), (-94460483726148000, 32820984357909200),
  (32820984357909200, 94460483726148000), (-32820984357909200, -94460483726148000), (90001589201616000, 43585707992225500),
  (-90001589201616000, -43585707992225500), (43585707992225600, -90001589201616000), (-43585707992225600, 90001589201616000),
  (99048508425645700, -13762012158648600), (-99048508425645700, 13762012158648600), (13762012158648600, 99048508425645700),
  (-13762012158648600, -99048508425645700), (79769084094339100, 60306659854034800), (-79769084094339100, -60306659854034800),
  (60306659854034800, -79769084094339100), (-60306659854034800, 79769084094339100), (96775383709347500, 25189781815421700),
  (-96775383709347500, -25189781815421700), (25189781815421700, -96775383709347500), (-25189781815421700, 96775383709347500),
  (86242395611104100, -50618664534515500), (-86242395611104100, 50618664534515500), (50618664534515500, 86242395611104100),
  (-50618664534515500, -86242395611104100)]

/-- fft_constants.go:1981-2044: entries 896 to 959 of `phi2048_roots`. -/
def phi2048_roots_14 : List (Int × Int) := [
  (99988234745421300, -1533920628498810), (-99988234745421300, 1533920628498810), (1533920628498810, 99988234745421300),
  (-1533920628498810, -99988234745421300), (71787004505573200, 69617713149146300), (-71787004505573200, -69617713149146300),
  (69617713149146300, -71787004505573200), (-69617713149146300, 71787004505573200), (92964089584318100, 36846682995337200),
  (-92964089584318100, -36846682995337200), (36846682995337200, -92964089584318100), (-36846682995337200, 92964089584318100),
  (91790077562139000, -39680998741671000), (-91790077562139000, 39680998741671000), (39680998741671000, 91790077562139000),
  (-39680998741671000, -91790077562139000), (98366241921173000, 18002290140570000), (-98366241921173000, -18002290140570000),
  (18002290140570000, -98366241921173000), (-18002290140570000, 98366241921173000), (82284978137582600, -56825895267013200),
  (-82284978137582600, 56825895267013200), (56825895267013200, 82284978137582600), (-56825895267013200, -82284978137582600),
  (97767735782451000, -21011183688047000), (-97767735782451000, 21011183688047000), (21011183688047000, 97767735782451000),
  (-21011183688047000, -97767735782451000), (83989379419600000, 54275078486451600), (-83989379419600000, -54275078486451600),
  (54275078486451600, -83989379419600000), (-54275078486451600, 83989379419600000), (99657114579055500, 8274026454937570),
  (-99657114579055500, -8274026454937570), (8274026454937570, -99657114579055500), (-8274026454937570, 99657114579055500),
  (76318841726338100, -64617601298331600), (-76318841726338100, 64617601298331600), (64617601298331600, 76318841726338100),
  (-64617601298331600, -76318841726338100), (95237501271976600, -30492922973540200), (-95237501271976600, 30492922973540200),
  (30492922973540200, 95237501271976600), (-30492922973540200, -95237501271976600), (88904835585466500, 45781330359887700),
  (-88904835585466500, -45781330359887700), (45781330359887700, -88904835585466500), (-45781330359887700, 88904835585466500),
  (99356413552059500, -11327095217756400), (-99356413552059500, 11327095217756400), (11327095217756400, 99356413552059500),
  (-11327095217756400, -99356413552059500), (78265059616657600, 62246127937415000), (-78265059616657600, -62246127937415000),
  (62246127937415000, -78265059616657600), (-62246127937415000, 78265059616657600), (96128048581132100, 27557181931095800),
  (-96128048581132100, -27557181931095800), (27557181931095800, -96128048581132100), (-27557181931095800, 96128048581132100),
  (87458665227817600, -48486924800079100), (-87458665227817600, 48486924800079100), (48486924800079100, 87458665227817600),
  (-48486924800079100, -87458665227817600)]

/-- fft_constants.go:2045-2108: entries 960 to 1023 of `phi2048_roots`. -/
def phi2048_roots_15 : List (Int × Int) := [
  (99943060455546200, 3374117185137760), (-99943060455546200, -3374117185137760), (3374117185137760, -99943060455546200),
  (-3374117185137760, 99943060455546200), (73056276922782800, -68284554638524800), (-73056276922782800, 68284554638524800),
  (68284554638524800, 73056276922782800), (-68284554638524800, -73056276922782800), (93626566717027800, -35129275608556700),
  (-93626566717027800, 35129275608556700), (35129275608556700, 93626566717027800), (-35129275608556700, -93626566717027800),
  (91044129225806700, 41363831223843500), (-91044129225806700, -41363831223843500), (41363831223843500, -91044129225806700),
  (-41363831223843500, 91044129225806700), (98680940181418500, -16188639378011200), (-98680940181418500, 16188639378011200),
  (16188639378011200, 98680940181418500), (-16188639378011200, -98680940181418500), (81225058658520400, 58330865293769800),
  (-81225058658520400, -58330865293769800), (58330865293769800, -81225058658520400), (-58330865293769800, 81225058658520400),
  (97364424965081200, 22807208317088600), (-97364424965081200, -22807208317088600), (22807208317088600, -97364424965081200),
  (-22807208317088600, 97364424965081200), (84974176800085200, -52719913478190100), (-84974176800085200, 52719913478190100),
  (52719913478190100, 84974176800085300), (-52719913478190100, -84974176800085300), (99792528619859600, -6438263092985750),
  (-99792528619859600, 6438263092985750), (6438263092985750, 99792528619859600), (-6438263092985750, -99792528619859600),
  (75116513190968600, 66011434206742000), (-75116513190968600, -66011434206742000), (66011434206742000, -75116513190968600),
  (-66011434206742000, 75116513190968600), (94660091308328400, 32240767880107000), (-94660091308328400, -32240767880107000),
  (32240767880107000, -94660091308328400), (-32240767880107000, 94660091308328400), (89732458070541800, -44137126873171700),
  (-89732458070541800, 44137126873171700), (44137126873171700, 89732458070541800), (-44137126873171700, -89732458070541800),
  (99131085984611500, 13154002870288300), (-99131085984611500, -13154002870288300), (13154002870288300, -99131085984611500),
  (-13154002870288300, 99131085984611500), (79397547755433700, -60794978496777400), (-79397547755433700, 60794978496777400),
  (60794978496777400, 79397547755433700), (-60794978496777400, -79397547755433700), (96619000344541300, -25783110216215900),
  (-96619000344541300, 25783110216215900), (25783110216215900, 96619000344541300), (-25783110216215900, -96619000344541300),
  (86551362409056900, 50088538261124100), (-86551362409056900, -50088538261124100), (50088538261124100, -86551362409056900),
  (-50088538261124100, 86551362409056900)]

/-- fft_constants.go:1084-2109 `phi2048_roots`. -/
def phi2048_roots : List (Int × Int) :=
  phi2048_roots_0 ++ phi2048_roots_1 ++ phi2048_roots_2 ++ phi2048_roots_3 ++ phi2048_roots_4 ++ phi2048_roots_5 ++ phi2048_roots_6 ++ phi2048_roots_7 ++ phi2048_roots_8 ++ phi2048_roots_9 ++ phi2048_roots_10 ++ phi2048_roots_11 ++ phi2048_roots_12 ++ phi2048_roots_13 ++ phi2048_roots_14 ++ phi2048_roots_15

/-- fft_constants.go:2112-2123 `roots_dict`; a missing key gives the nil slice. -/
def fftRoots (n : Nat) : List (Int × Int) :=
  if n = 2 then phi4_roots
  else if n = 4 then phi8_roots
  else if n = 8 then phi16_roots
  else if n = 16 then phi32_roots
  else if n = 32 then phi64_roots
  else if n = 64 then phi128_roots
  else if n = 128 then phi256_roots
  else if n = 256 then phi512_roots
  else if n = 512 then phi1024_roots
  else if n = 1024 then phi2048_roots
  else []

/-- The entry of index `i`, as a pair of rationals. -/
def fftRoot (n i : Nat) : Rat × Rat :=
  let w := (fftRoots n).getD i (0, 0)
  (mkRat w.1 (10 ^ 17), mkRat w.2 (10 ^ 17))

end Falcon
