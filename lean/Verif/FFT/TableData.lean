/-! The tables of pythonref/fft_constants.py (lines 10-2108), every decimal times 10^17; written by tools/mkroots.py. -/

namespace Verif.FFT.Table

/-- Signs. -/
def p (x : Nat) : Int := x
def m (x : Nat) : Int := -x

def t1 : List (Int × Int) := [
  (p 0, p 100000000000000000), (p 0, m 100000000000000000)]

def t2 : List (Int × Int) := [
  (p 70710678118654800, p 70710678118654700), (m 70710678118654800, m 70710678118654700), (p 70710678118654800, m 70710678118654700), (m 70710678118654800, p 70710678118654700)]

def t3 : List (Int × Int) := [
  (p 92387953251128700, p 38268343236509000), (m 92387953251128700, m 38268343236509000), (p 38268343236509000, m 92387953251128700), (m 38268343236509000, p 92387953251128700),
  (p 92387953251128700, m 38268343236509000), (m 92387953251128700, p 38268343236509000), (p 38268343236509000, p 92387953251128700), (m 38268343236509000, m 92387953251128700)]

def t4 : List (Int × Int) := [
  (p 98078528040323000, p 19509032201612800), (m 98078528040323000, m 19509032201612800), (p 19509032201612800, m 98078528040323000), (m 19509032201612800, p 98078528040323000),
  (p 83146961230254500, m 55557023301960200), (m 83146961230254500, p 55557023301960200), (p 55557023301960200, p 83146961230254500), (m 55557023301960200, m 83146961230254500),
  (p 98078528040323000, m 19509032201612800), (m 98078528040323000, p 19509032201612800), (p 19509032201612800, p 98078528040323000), (m 19509032201612800, m 98078528040323000),
  (p 83146961230254500, p 55557023301960200), (m 83146961230254500, m 55557023301960200), (p 55557023301960200, m 83146961230254500), (m 55557023301960200, p 83146961230254500)]

def t5 : List (Int × Int) := [
  (p 99518472667219700, p 9801714032956060), (m 99518472667219700, m 9801714032956060), (p 9801714032956060, m 99518472667219700), (m 9801714032956060, p 99518472667219700),
  (p 77301045336273700, m 63439328416364600), (m 77301045336273700, p 63439328416364600), (p 63439328416364500, p 77301045336273700), (m 63439328416364500, m 77301045336273700),
  (p 95694033573220900, m 29028467725446200), (m 95694033573220900, p 29028467725446200), (p 29028467725446200, p 95694033573220900), (m 29028467725446200, m 95694033573220900),
  (p 88192126434835500, p 47139673682599800), (m 88192126434835500, m 47139673682599800), (p 47139673682599800, m 88192126434835500), (m 47139673682599800, p 88192126434835500),
  (p 99518472667219700, m 9801714032956060), (m 99518472667219700, p 9801714032956060), (p 9801714032956060, p 99518472667219700), (m 9801714032956060, m 99518472667219700),
  (p 77301045336273700, p 63439328416364600), (m 77301045336273700, m 63439328416364600), (p 63439328416364500, m 77301045336273700), (m 63439328416364500, p 77301045336273700),
  (p 95694033573220900, p 29028467725446200), (m 95694033573220900, m 29028467725446200), (p 29028467725446200, m 95694033573220900), (m 29028467725446200, p 95694033573220900),
  (p 88192126434835500, m 47139673682599800), (m 88192126434835500, p 47139673682599800), (p 47139673682599800, p 88192126434835500), (m 47139673682599800, m 88192126434835500)]

def t6 : List (Int × Int) := [
  (p 99879545620517200, p 4906767432741800), (m 99879545620517200, m 4906767432741800), (p 4906767432741800, m 99879545620517200), (m 4906767432741800, p 99879545620517200),
  (p 74095112535495900, m 67155895484701800), (m 74095112535495900, p 67155895484701800), (p 67155895484701800, p 74095112535495900), (m 67155895484701800, m 74095112535495900),
  (p 94154406518302100, m 33688985339222000), (m 94154406518302100, p 33688985339222000), (p 33688985339222000, p 94154406518302100), (m 33688985339222000, m 94154406518302100),
  (p 90398929312344300, p 42755509343028200), (m 90398929312344300, m 42755509343028200), (p 42755509343028200, m 90398929312344300), (m 42755509343028200, p 90398929312344300),
  (p 98917650996478100, m 14673047445536200), (m 98917650996478100, p 14673047445536200), (p 14673047445536200, p 98917650996478100), (m 14673047445536200, m 98917650996478100),
  (p 80320753148064500, p 59569930449243300), (m 80320753148064500, m 59569930449243300), (p 59569930449243300, m 80320753148064500), (m 59569930449243300, p 80320753148064500),
  (p 97003125319454400, p 24298017990326400), (m 97003125319454400, m 24298017990326400), (p 24298017990326400, m 97003125319454400), (m 24298017990326400, p 97003125319454400),
  (p 85772861000027200, m 51410274419322200), (m 85772861000027200, p 51410274419322200), (p 51410274419322200, p 85772861000027200), (m 51410274419322200, m 85772861000027200),
  (p 99879545620517200, m 4906767432741800), (m 99879545620517200, p 4906767432741800), (p 4906767432741800, p 99879545620517200), (m 4906767432741800, m 99879545620517200),
  (p 74095112535495900, p 67155895484701800), (m 74095112535495900, m 67155895484701800), (p 67155895484701800, m 74095112535495900), (m 67155895484701800, p 74095112535495900),
  (p 94154406518302100, p 33688985339222000), (m 94154406518302100, m 33688985339222000), (p 33688985339222000, m 94154406518302100), (m 33688985339222000, p 94154406518302100),
  (p 90398929312344300, m 42755509343028200), (m 90398929312344300, p 42755509343028200), (p 42755509343028200, p 90398929312344300), (m 42755509343028200, m 90398929312344300),
  (p 98917650996478100, p 14673047445536200), (m 98917650996478100, m 14673047445536200), (p 14673047445536200, m 98917650996478100), (m 14673047445536200, p 98917650996478100),
  (p 80320753148064500, m 59569930449243300), (m 80320753148064500, p 59569930449243300), (p 59569930449243300, p 80320753148064500), (m 59569930449243300, m 80320753148064500),
  (p 97003125319454400, m 24298017990326400), (m 97003125319454400, p 24298017990326400), (p 24298017990326400, p 97003125319454400), (m 24298017990326400, m 97003125319454400),
  (p 85772861000027200, p 51410274419322200), (m 85772861000027200, m 51410274419322200), (p 51410274419322200, m 85772861000027200), (m 51410274419322200, p 85772861000027200)]

def t7_0 : List (Int × Int) := [
  (p 99969881869620400, p 2454122852291230), (m 99969881869620400, m 2454122852291230), (p 2454122852291230, m 99969881869620400), (m 2454122852291230, p 99969881869620400),
  (p 72424708295146700, m 68954054473706700), (m 72424708295146700, p 68954054473706700), (p 68954054473706700, p 72424708295146700), (m 68954054473706700, m 72424708295146700),
  (p 93299279883473900, m 35989503653498800), (m 93299279883473900, p 35989503653498800), (p 35989503653498800, p 93299279883473900), (m 35989503653498800, m 93299279883473900),
  (p 91420975570353100, p 40524131400499000), (m 91420975570353100, m 40524131400499000), (p 40524131400499000, m 91420975570353100), (m 40524131400499000, p 91420975570353100),
  (p 98527764238894100, m 17096188876030100), (m 98527764238894100, p 17096188876030100), (p 17096188876030100, p 98527764238894100), (m 17096188876030100, m 98527764238894100),
  (p 81758481315158400, p 57580819141784500), (m 81758481315158400, m 57580819141784500), (p 57580819141784500, m 81758481315158400), (m 57580819141784500, p 81758481315158400),
  (p 97570213003852900, p 21910124015687000), (m 97570213003852900, m 21910124015687000), (p 21910124015687000, m 97570213003852900), (m 21910124015687000, p 97570213003852900),
  (p 84485356524970700, m 53499761988709700), (m 84485356524970700, p 53499761988709700), (p 53499761988709700, p 84485356524970700), (m 53499761988709700, m 84485356524970700),
  (p 99729045667869000, m 7356456359966740), (m 99729045667869000, p 7356456359966740), (p 7356456359966740, p 99729045667869000), (m 7356456359966740, m 99729045667869000),
  (p 75720884650648500, p 65317284295377700), (m 75720884650648500, m 65317284295377700), (p 65317284295377700, m 75720884650648500), (m 65317284295377700, p 75720884650648500),
  (p 94952818059303700, p 31368174039889200), (m 94952818059303700, m 31368174039889200), (p 31368174039889200, m 94952818059303700), (m 31368174039889200, p 94952818059303700),
  (p 89322430119551500, m 44961132965460700), (m 89322430119551500, p 44961132965460700), (p 44961132965460700, p 89322430119551500), (m 44961132965460700, m 89322430119551500),
  (p 99247953459871000, p 12241067519921600), (m 99247953459871000, m 12241067519921600), (p 12241067519921600, m 99247953459871000), (m 12241067519921600, p 99247953459871000),
  (p 78834642762660600, m 61523159058062700), (m 78834642762660600, p 61523159058062700), (p 61523159058062700, p 78834642762660600), (m 61523159058062700, m 78834642762660600),
  (p 96377606579544000, m 26671275747489800), (m 96377606579544000, p 26671275747489800), (p 26671275747489800, p 96377606579544000), (m 26671275747489800, m 96377606579544000),
  (p 87008699110871100, p 49289819222978400), (m 87008699110871100, m 49289819222978400), (p 49289819222978400, m 87008699110871100), (m 49289819222978400, p 87008699110871100)]

def t7_1 : List (Int × Int) := [
  (p 99969881869620400, m 2454122852291230), (m 99969881869620400, p 2454122852291230), (p 2454122852291230, p 99969881869620400), (m 2454122852291230, m 99969881869620400),
  (p 72424708295146700, p 68954054473706700), (m 72424708295146700, m 68954054473706700), (p 68954054473706700, m 72424708295146700), (m 68954054473706700, p 72424708295146700),
  (p 93299279883473900, p 35989503653498800), (m 93299279883473900, m 35989503653498800), (p 35989503653498800, m 93299279883473900), (m 35989503653498800, p 93299279883473900),
  (p 91420975570353100, m 40524131400499000), (m 91420975570353100, p 40524131400499000), (p 40524131400499000, p 91420975570353100), (m 40524131400499000, m 91420975570353100),
  (p 98527764238894100, p 17096188876030100), (m 98527764238894100, m 17096188876030100), (p 17096188876030100, m 98527764238894100), (m 17096188876030100, p 98527764238894100),
  (p 81758481315158400, m 57580819141784500), (m 81758481315158400, p 57580819141784500), (p 57580819141784500, p 81758481315158400), (m 57580819141784500, m 81758481315158400),
  (p 97570213003852900, m 21910124015687000), (m 97570213003852900, p 21910124015687000), (p 21910124015687000, p 97570213003852900), (m 21910124015687000, m 97570213003852900),
  (p 84485356524970700, p 53499761988709700), (m 84485356524970700, m 53499761988709700), (p 53499761988709700, m 84485356524970700), (m 53499761988709700, p 84485356524970700),
  (p 99729045667869000, p 7356456359966740), (m 99729045667869000, m 7356456359966740), (p 7356456359966740, m 99729045667869000), (m 7356456359966740, p 99729045667869000),
  (p 75720884650648500, m 65317284295377700), (m 75720884650648500, p 65317284295377700), (p 65317284295377700, p 75720884650648500), (m 65317284295377700, m 75720884650648500),
  (p 94952818059303700, m 31368174039889200), (m 94952818059303700, p 31368174039889200), (p 31368174039889200, p 94952818059303700), (m 31368174039889200, m 94952818059303700),
  (p 89322430119551500, p 44961132965460700), (m 89322430119551500, m 44961132965460700), (p 44961132965460700, m 89322430119551500), (m 44961132965460700, p 89322430119551500),
  (p 99247953459871000, m 12241067519921600), (m 99247953459871000, p 12241067519921600), (p 12241067519921600, p 99247953459871000), (m 12241067519921600, m 99247953459871000),
  (p 78834642762660600, p 61523159058062700), (m 78834642762660600, m 61523159058062700), (p 61523159058062700, m 78834642762660600), (m 61523159058062700, p 78834642762660600),
  (p 96377606579544000, p 26671275747489800), (m 96377606579544000, m 26671275747489800), (p 26671275747489800, m 96377606579544000), (m 26671275747489800, p 96377606579544000),
  (p 87008699110871100, m 49289819222978400), (m 87008699110871100, p 49289819222978400), (p 49289819222978400, p 87008699110871100), (m 49289819222978400, m 87008699110871100)]

def t7 : List (Int × Int) := t7_0 ++ t7_1

def t8_0 : List (Int × Int) := [
  (p 99992470183914500, p 1227153828571990), (m 99992470183914500, m 1227153828571990), (p 1227153828571990, m 99992470183914500), (m 1227153828571990, p 99992470183914500),
  (p 71573082528381900, m 69837624940897300), (m 71573082528381900, p 69837624940897300), (p 69837624940897300, p 71573082528381900), (m 69837624940897300, m 71573082528381900),
  (p 92850608047321600, m 37131719395183700), (m 92850608047321600, p 37131719395183700), (p 37131719395183700, p 92850608047321600), (m 37131719395183700, m 92850608047321600),
  (p 91911385169005800, p 39399204006104800), (m 91911385169005800, m 39399204006104800), (p 39399204006104800, m 91911385169005800), (m 39399204006104800, p 91911385169005800),
  (p 98310548743121600, m 18303988795514100), (m 98310548743121600, p 18303988795514100), (p 18303988795514100, p 98310548743121600), (m 18303988795514100, m 98310548743121600),
  (p 82458930278502500, p 56573181078361300), (m 82458930278502500, m 56573181078361300), (p 56573181078361300, m 82458930278502500), (m 56573181078361300, p 82458930278502500),
  (p 97831737071962800, p 20711137619221900), (m 97831737071962800, m 20711137619221900), (p 20711137619221900, m 97831737071962800), (m 20711137619221900, p 97831737071962800),
  (p 83822470555483800, m 54532498842204600), (m 83822470555483800, p 54532498842204600), (p 54532498842204600, p 83822470555483800), (m 54532498842204600, m 83822470555483800),
  (p 99631261218277800, m 8579731234443990), (m 99631261218277800, p 8579731234443990), (p 8579731234443990, p 99631261218277800), (m 8579731234443990, m 99631261218277800),
  (p 76516726562245900, p 64383154288979100), (m 76516726562245900, m 64383154288979100), (p 64383154288979100, m 76516726562245900), (m 64383154288979100, p 76516726562245900),
  (p 95330604035419400, p 30200594931922800), (m 95330604035419400, m 30200594931922800), (p 30200594931922800, m 95330604035419400), (m 30200594931922800, p 95330604035419400),
  (p 88763962040285400, m 46053871095824000), (m 88763962040285400, p 46053871095824000), (p 46053871095824000, p 88763962040285400), (m 46053871095824000, m 88763962040285400),
  (p 99390697000235600, p 11022220729388300), (m 99390697000235600, m 11022220729388300), (p 11022220729388300, m 99390697000235600), (m 11022220729388300, p 99390697000235600),
  (p 78073722857209400, m 62485948814238600), (m 78073722857209400, p 62485948814238600), (p 62485948814238600, p 78073722857209400), (m 62485948814238600, m 78073722857209400),
  (p 96043051941556600, m 27851968938505300), (m 96043051941556600, p 27851968938505300), (p 27851968938505300, p 96043051941556600), (m 27851968938505300, m 96043051941556600),
  (p 87607009419540700, p 48218377207912300), (m 87607009419540700, m 48218377207912300), (p 48218377207912300, m 87607009419540700), (m 48218377207912300, p 87607009419540700)]

def t8_1 : List (Int × Int) := [
  (p 99932238458835000, m 3680722294135880), (m 99932238458835000, p 3680722294135880), (p 3680722294135880, p 99932238458835000), (m 3680722294135880, m 99932238458835000),
  (p 73265427167241300, p 68060099779545300), (m 73265427167241300, m 68060099779545300), (p 68060099779545300, m 73265427167241300), (m 68060099779545300, p 73265427167241300),
  (p 93733901191257500, p 34841868024943500), (m 93733901191257500, m 34841868024943500), (p 34841868024943500, m 93733901191257500), (m 34841868024943500, p 93733901191257500),
  (p 90916798309052200, m 41642956009763700), (m 90916798309052200, p 41642956009763700), (p 41642956009763700, p 90916798309052200), (m 41642956009763700, m 90916798309052200),
  (p 98730141815785800, p 15885814333386100), (m 98730141815785800, m 15885814333386100), (p 15885814333386100, m 98730141815785800), (m 15885814333386100, p 98730141815785800),
  (p 81045719825259500, m 58579785745643900), (m 81045719825259500, p 58579785745643900), (p 58579785745643900, p 81045719825259500), (m 58579785745643900, m 81045719825259500),
  (p 97293995220556000, m 23105810828067100), (m 97293995220556000, p 23105810828067100), (p 23105810828067100, p 97293995220556000), (m 23105810828067100, m 97293995220556000),
  (p 85135519310526500, p 52458968267846900), (m 85135519310526500, m 52458968267846900), (p 52458968267846900, m 85135519310526500), (m 52458968267846900, p 85135519310526500),
  (p 99811811290014900, p 6132073630220860), (m 99811811290014900, m 6132073630220860), (p 6132073630220860, m 99811811290014900), (m 6132073630220860, p 99811811290014900),
  (p 74913639452345900, m 66241577759017200), (m 74913639452345900, p 66241577759017200), (p 66241577759017200, p 74913639452345900), (m 66241577759017200, m 74913639452345900),
  (p 94560732538052100, m 32531029216226300), (m 94560732538052100, p 32531029216226300), (p 32531029216226300, p 94560732538052100), (m 32531029216226300, m 94560732538052100),
  (p 89867446569395400, p 43861623853852800), (m 89867446569395400, m 43861623853852800), (p 43861623853852800, m 89867446569395400), (m 43861623853852800, p 89867446569395400),
  (p 99090263542778000, m 13458070850712600), (m 99090263542778000, p 13458070850712600), (p 13458070850712600, p 99090263542778000), (m 13458070850712600, m 99090263542778000),
  (p 79583690460888400, p 60551104140432500), (m 79583690460888400, m 60551104140432500), (p 60551104140432600, m 79583690460888300), (m 60551104140432600, p 79583690460888300),
  (p 96697647104485200, p 25486565960451500), (m 96697647104485200, m 25486565960451500), (p 25486565960451500, m 96697647104485200), (m 25486565960451500, p 96697647104485200),
  (p 86397285612158700, m 50353838372571800), (m 86397285612158700, p 50353838372571800), (p 50353838372571800, p 86397285612158700), (m 50353838372571800, m 86397285612158700)]

def t8_2 : List (Int × Int) := [
  (p 99992470183914500, m 1227153828571990), (m 99992470183914500, p 1227153828571990), (p 1227153828571990, p 99992470183914500), (m 1227153828571990, m 99992470183914500),
  (p 71573082528381900, p 69837624940897300), (m 71573082528381900, m 69837624940897300), (p 69837624940897300, m 71573082528381900), (m 69837624940897300, p 71573082528381900),
  (p 92850608047321600, p 37131719395183700), (m 92850608047321600, m 37131719395183700), (p 37131719395183700, m 92850608047321600), (m 37131719395183700, p 92850608047321600),
  (p 91911385169005800, m 39399204006104800), (m 91911385169005800, p 39399204006104800), (p 39399204006104800, p 91911385169005800), (m 39399204006104800, m 91911385169005800),
  (p 98310548743121600, p 18303988795514100), (m 98310548743121600, m 18303988795514100), (p 18303988795514100, m 98310548743121600), (m 18303988795514100, p 98310548743121600),
  (p 82458930278502500, m 56573181078361300), (m 82458930278502500, p 56573181078361300), (p 56573181078361300, p 82458930278502500), (m 56573181078361300, m 82458930278502500),
  (p 97831737071962800, m 20711137619221900), (m 97831737071962800, p 20711137619221900), (p 20711137619221900, p 97831737071962800), (m 20711137619221900, m 97831737071962800),
  (p 83822470555483800, p 54532498842204600), (m 83822470555483800, m 54532498842204600), (p 54532498842204600, m 83822470555483800), (m 54532498842204600, p 83822470555483800),
  (p 99631261218277800, p 8579731234443990), (m 99631261218277800, m 8579731234443990), (p 8579731234443990, m 99631261218277800), (m 8579731234443990, p 99631261218277800),
  (p 76516726562245900, m 64383154288979100), (m 76516726562245900, p 64383154288979100), (p 64383154288979100, p 76516726562245900), (m 64383154288979100, m 76516726562245900),
  (p 95330604035419400, m 30200594931922800), (m 95330604035419400, p 30200594931922800), (p 30200594931922800, p 95330604035419400), (m 30200594931922800, m 95330604035419400),
  (p 88763962040285400, p 46053871095824000), (m 88763962040285400, m 46053871095824000), (p 46053871095824000, m 88763962040285400), (m 46053871095824000, p 88763962040285400),
  (p 99390697000235600, m 11022220729388300), (m 99390697000235600, p 11022220729388300), (p 11022220729388300, p 99390697000235600), (m 11022220729388300, m 99390697000235600),
  (p 78073722857209400, p 62485948814238600), (m 78073722857209400, m 62485948814238600), (p 62485948814238600, m 78073722857209400), (m 62485948814238600, p 78073722857209400),
  (p 96043051941556600, p 27851968938505300), (m 96043051941556600, m 27851968938505300), (p 27851968938505300, m 96043051941556600), (m 27851968938505300, p 96043051941556600),
  (p 87607009419540700, m 48218377207912300), (m 87607009419540700, p 48218377207912300), (p 48218377207912300, p 87607009419540700), (m 48218377207912300, m 87607009419540700)]

def t8_3 : List (Int × Int) := [
  (p 99932238458835000, p 3680722294135880), (m 99932238458835000, m 3680722294135880), (p 3680722294135880, m 99932238458835000), (m 3680722294135880, p 99932238458835000),
  (p 73265427167241300, m 68060099779545300), (m 73265427167241300, p 68060099779545300), (p 68060099779545300, p 73265427167241300), (m 68060099779545300, m 73265427167241300),
  (p 93733901191257500, m 34841868024943500), (m 93733901191257500, p 34841868024943500), (p 34841868024943500, p 93733901191257500), (m 34841868024943500, m 93733901191257500),
  (p 90916798309052200, p 41642956009763700), (m 90916798309052200, m 41642956009763700), (p 41642956009763700, m 90916798309052200), (m 41642956009763700, p 90916798309052200),
  (p 98730141815785800, m 15885814333386100), (m 98730141815785800, p 15885814333386100), (p 15885814333386100, p 98730141815785800), (m 15885814333386100, m 98730141815785800),
  (p 81045719825259500, p 58579785745643900), (m 81045719825259500, m 58579785745643900), (p 58579785745643900, m 81045719825259500), (m 58579785745643900, p 81045719825259500),
  (p 97293995220556000, p 23105810828067100), (m 97293995220556000, m 23105810828067100), (p 23105810828067100, m 97293995220556000), (m 23105810828067100, p 97293995220556000),
  (p 85135519310526500, m 52458968267846900), (m 85135519310526500, p 52458968267846900), (p 52458968267846900, p 85135519310526500), (m 52458968267846900, m 85135519310526500),
  (p 99811811290014900, m 6132073630220860), (m 99811811290014900, p 6132073630220860), (p 6132073630220860, p 99811811290014900), (m 6132073630220860, m 99811811290014900),
  (p 74913639452345900, p 66241577759017200), (m 74913639452345900, m 66241577759017200), (p 66241577759017200, m 74913639452345900), (m 66241577759017200, p 74913639452345900),
  (p 94560732538052100, p 32531029216226300), (m 94560732538052100, m 32531029216226300), (p 32531029216226300, m 94560732538052100), (m 32531029216226300, p 94560732538052100),
  (p 89867446569395400, m 43861623853852800), (m 89867446569395400, p 43861623853852800), (p 43861623853852800, p 89867446569395400), (m 43861623853852800, m 89867446569395400),
  (p 99090263542778000, p 13458070850712600), (m 99090263542778000, m 13458070850712600), (p 13458070850712600, m 99090263542778000), (m 13458070850712600, p 99090263542778000),
  (p 79583690460888400, m 60551104140432500), (m 79583690460888400, p 60551104140432500), (p 60551104140432600, p 79583690460888300), (m 60551104140432600, m 79583690460888300),
  (p 96697647104485200, m 25486565960451500), (m 96697647104485200, p 25486565960451500), (p 25486565960451500, p 96697647104485200), (m 25486565960451500, m 96697647104485200),
  (p 86397285612158700, p 50353838372571800), (m 86397285612158700, m 50353838372571800), (p 50353838372571800, m 86397285612158700), (m 50353838372571800, p 86397285612158700)]

def t8 : List (Int × Int) := t8_0 ++ t8_1 ++ t8_2 ++ t8_3

def t9_0 : List (Int × Int) := [
  (p 99998117528260100, p 613588464915448), (m 99998117528260100, m 613588464915448), (p 613588464915448, m 99998117528260100), (m 613588464915448, p 99998117528260100),
  (p 71143219574521600, m 70275474445722500), (m 71143219574521600, p 70275474445722500), (p 70275474445722500, p 71143219574521600), (m 70275474445722500, m 71143219574521600),
  (p 92621024213831100, m 37700741021641800), (m 92621024213831100, p 37700741021641800), (p 37700741021641800, p 92621024213831100), (m 37700741021641800, m 92621024213831100),
  (p 92151403934204200, p 38834504669882600), (m 92151403934204200, m 38834504669882600), (p 38834504669882600, m 92151403934204200), (m 38834504669882600, p 92151403934204200),
  (p 98196386910955500, m 18906866414980600), (m 98196386910955500, p 18906866414980600), (p 18906866414980600, p 98196386910955500), (m 18906866414980600, m 98196386910955500),
  (p 82804504525775600, p 56066157619733600), (m 82804504525775600, m 56066157619733600), (p 56066157619733600, m 82804504525775600), (m 56066157619733600, p 82804504525775600),
  (p 97956976568544100, p 20110463484209200), (m 97956976568544100, m 20110463484209200), (p 20110463484209200, m 97956976568544100), (m 20110463484209200, p 97956976568544100),
  (p 83486287498638000, m 55045797293660500), (m 83486287498638000, p 55045797293660500), (p 55045797293660500, p 83486287498638000), (m 55045797293660500, m 83486287498638000),
  (p 99576741446766000, m 9190895649713270), (m 99576741446766000, p 9190895649713270), (p 9190895649713270, p 99576741446766000), (m 9190895649713270, m 99576741446766000),
  (p 76910333764558000, p 63912444486377600), (m 76910333764558000, m 63912444486377600), (p 63912444486377600, m 76910333764558000), (m 63912444486377600, p 76910333764558000),
  (p 95514116830577100, p 29615088824362400), (m 95514116830577100, m 29615088824362400), (p 29615088824362400, m 95514116830577100), (m 29615088824362400, p 95514116830577100),
  (p 88479709843093800, m 46597649576796600), (m 88479709843093800, p 46597649576796600), (p 46597649576796600, p 88479709843093800), (m 46597649576796600, m 88479709843093800),
  (p 99456457073425500, p 10412163387205500), (m 99456457073425500, m 10412163387205500), (p 10412163387205500, m 99456457073425500), (m 10412163387205500, p 99456457073425500),
  (p 77688846567323200, m 62963823891492700), (m 77688846567323200, p 62963823891492700), (p 62963823891492700, p 77688846567323300), (m 62963823891492700, m 77688846567323300),
  (p 95870347489587100, m 28440753721127200), (m 95870347489587100, p 28440753721127200), (p 28440753721127200, p 95870347489587100), (m 28440753721127200, m 95870347489587100),
  (p 87901222642863300, p 47679923006332200), (m 87901222642863300, m 47679923006332200), (p 47679923006332200, m 87901222642863400), (m 47679923006332200, p 87901222642863400)]

def t9_1 : List (Int × Int) := [
  (p 99907772775264500, m 4293825693494080), (m 99907772775264500, p 4293825693494080), (p 4293825693494080, p 99907772775264500), (m 4293825693494080, m 99907772775264500),
  (p 73681656887737000, p 67609270357531600), (m 73681656887737000, m 67609270357531600), (p 67609270357531600, m 73681656887737000), (m 67609270357531600, p 73681656887737000),
  (p 93945922360219000, p 34266071731199400), (m 93945922360219000, m 34266071731199400), (p 34266071731199400, m 93945922360219000), (m 34266071731199400, p 93945922360219000),
  (p 90659570451491500, m 42200027079980000), (m 90659570451491500, p 42200027079980000), (p 42200027079980000, p 90659570451491500), (m 42200027079980000, m 90659570451491500),
  (p 98825756773074900, p 15279718525844300), (m 98825756773074900, m 15279718525844300), (p 15279718525844300, m 98825756773074900), (m 15279718525844300, p 98825756773074900),
  (p 80684755354379900, m 59075970185887400), (m 80684755354379900, p 59075970185887400), (p 59075970185887400, p 80684755354379900), (m 59075970185887400, m 80684755354379900),
  (p 97150389098625200, m 23702360599436700), (m 97150389098625200, p 23702360599436700), (p 23702360599436700, p 97150389098625200), (m 23702360599436700, m 97150389098625200),
  (p 85455798836540100, p 51935599016559000), (m 85455798836540100, m 51935599016559000), (p 51935599016559000, m 85455798836540100), (m 51935599016559000, p 85455798836540100),
  (p 99847558057329500, p 5519524434968990), (m 99847558057329500, m 5519524434968990), (p 5519524434968990, m 99847558057329500), (m 5519524434968990, p 99847558057329500),
  (p 74505778544146600, m 66699992230363800), (m 74505778544146600, p 66699992230363800), (p 66699992230363700, p 74505778544146600), (m 66699992230363700, m 74505778544146600),
  (p 94359345816196000, m 33110630575987600), (m 94359345816196000, p 33110630575987600), (p 33110630575987600, p 94359345816196000), (m 33110630575987600, m 94359345816196000),
  (p 90134884704602200, p 43309381885315200), (m 90134884704602200, m 43309381885315200), (p 43309381885315200, m 90134884704602200), (m 43309381885315200, p 90134884704602200),
  (p 99005821026229700, m 14065823933284900), (m 99005821026229700, p 14065823933284900), (p 14065823933284900, p 99005821026229700), (m 14065823933284900, m 99005821026229700),
  (p 79953726910790500, p 60061647938386900), (m 79953726910790500, m 60061647938386900), (p 60061647938386900, m 79953726910790500), (m 60061647938386900, p 79953726910790500),
  (p 96852209427441700, p 24892760574572000), (m 96852209427441700, m 24892760574572000), (p 24892760574572000, m 96852209427441700), (m 24892760574572000, p 96852209427441700),
  (p 86086693863776700, m 50883014254310700), (m 86086693863776700, p 50883014254310700), (p 50883014254310700, p 86086693863776700), (m 50883014254310700, m 86086693863776700)]

def t9_2 : List (Int × Int) := [
  (p 99983058179582300, m 1840672990580480), (m 99983058179582300, p 1840672990580480), (p 1840672990580480, p 99983058179582300), (m 1840672990580480, m 99983058179582300),
  (p 72000250796138200, p 69397146088965400), (m 72000250796138200, m 69397146088965400), (p 69397146088965400, m 72000250796138200), (m 69397146088965400, p 72000250796138200),
  (p 93076696107898400, p 36561299780477400), (m 93076696107898400, m 36561299780477400), (p 36561299780477400, m 93076696107898400), (m 36561299780477400, p 93076696107898400),
  (p 91667905992104300, m 39962419984564700), (m 91667905992104300, p 39962419984564700), (p 39962419984564700, p 91667905992104300), (m 39962419984564700, m 91667905992104300),
  (p 98421009238692900, p 17700422041214900), (m 98421009238692900, m 17700422041214900), (p 17700422041214900, m 98421009238692900), (m 17700422041214900, p 98421009238692900),
  (p 82110251499110500, m 57078074588696700), (m 82110251499110500, p 57078074588696700), (p 57078074588696700, p 82110251499110500), (m 57078074588696700, m 82110251499110500),
  (p 97702814265775400, m 21311031991609100), (m 97702814265775400, p 21311031991609100), (p 21311031991609100, p 97702814265775400), (m 21311031991609100, m 97702814265775400),
  (p 84155497743689800, p 54017147272989300), (m 84155497743689800, m 54017147272989300), (p 54017147272989300, m 84155497743689800), (m 54017147272989300, p 84155497743689800),
  (p 99682029929116600, p 7968243797143010), (m 99682029929116600, m 7968243797143010), (p 7968243797143010, m 99682029929116600), (m 7968243797143010, p 99682029929116600),
  (p 76120238548426200, m 64851440102211300), (m 76120238548426200, p 64851440102211300), (p 64851440102211200, p 76120238548426200), (m 64851440102211200, m 76120238548426200),
  (p 95143502096900800, m 30784964004153500), (m 95143502096900800, p 30784964004153500), (p 30784964004153500, p 95143502096900800), (m 30784964004153500, m 95143502096900800),
  (p 89044872324475800, p 45508358712634400), (m 89044872324475800, m 45508358712634400), (p 45508358712634400, m 89044872324475800), (m 45508358712634400, p 89044872324475800),
  (p 99321194923479500, m 11631863091190500), (m 99321194923479500, p 11631863091190500), (p 11631863091190500, p 99321194923479500), (m 11631863091190500, m 99321194923479500),
  (p 78455659715557500, p 62005721176328900), (m 78455659715557500, m 62005721176328900), (p 62005721176328900, m 78455659715557500), (m 62005721176328900, p 78455659715557500),
  (p 96212140426904200, p 27262135544994900), (m 96212140426904200, m 27262135544994900), (p 27262135544994900, m 96212140426904200), (m 27262135544994900, p 96212140426904200),
  (p 87309497841829000, m 48755016014843600), (m 87309497841829000, p 48755016014843600), (p 48755016014843600, p 87309497841829000), (m 48755016014843600, m 87309497841829000)]

def t9_3 : List (Int × Int) := [
  (p 99952941750109300, p 3067480317663660), (m 99952941750109300, m 3067480317663660), (p 3067480317663660, m 99952941750109300), (m 3067480317663660, p 99952941750109300),
  (p 72846439044822500, m 68508366777270000), (m 72846439044822500, p 68508366777270000), (p 68508366777270000, p 72846439044822500), (m 68508366777270000, m 72846439044822500),
  (p 93518350993894800, m 35416352542049000), (m 93518350993894800, p 35416352542049000), (p 35416352542049000, p 93518350993894800), (m 35416352542049000, m 93518350993894800),
  (p 91170603200543000, p 41084317105790400), (m 91170603200543000, m 41084317105790400), (p 41084317105790400, m 91170603200543000), (m 41084317105790400, p 91170603200543000),
  (p 98630809724459900, m 16491312048997000), (m 98630809724459900, p 16491312048997000), (p 16491312048997000, p 98630809724459900), (m 16491312048997000, m 98630809724459900),
  (p 81403632970594800, p 58081395809576500), (m 81403632970594800, m 58081395809576500), (p 58081395809576500, m 81403632970594800), (m 58081395809576500, p 81403632970594800),
  (p 97433938278557600, p 22508391135979300), (m 97433938278557600, m 22508391135979300), (p 22508391135979300, m 97433938278557600), (m 22508391135979300, p 97433938278557600),
  (p 84812034480329700, m 52980362468629500), (m 84812034480329700, p 52980362468629500), (p 52980362468629500, p 84812034480329700), (m 52980362468629500, m 84812034480329700),
  (p 99772306664419200, m 6744391956366410), (m 99772306664419200, p 6744391956366410), (p 6744391956366410, p 99772306664419200), (m 6744391956366410, m 99772306664419200),
  (p 75318679904361300, p 65780669329707900), (m 75318679904361300, m 65780669329707900), (p 65780669329707900, m 75318679904361300), (m 65780669329707900, p 75318679904361300),
  (p 94758559101774100, p 31950203081601600), (m 94758559101774100, m 31950203081601600), (p 31950203081601600, m 94758559101774100), (m 31950203081601600, p 94758559101774100),
  (p 89596624975618500, m 44412214457042900), (m 89596624975618500, p 44412214457042900), (p 44412214457042900, p 89596624975618500), (m 44412214457042900, m 89596624975618500),
  (p 99170975366910000, p 12849811079379300), (m 99170975366910000, m 12849811079379300), (p 12849811079379300, m 99170975366910000), (m 12849811079379300, p 99170975366910000),
  (p 79210657730021200, m 61038280627630900), (m 79210657730021200, p 61038280627630900), (p 61038280627630900, p 79210657730021200), (m 61038280627630900, m 79210657730021200),
  (p 96539444169768900, m 26079411791527600), (m 96539444169768900, p 26079411791527600), (p 26079411791527600, p 96539444169768900), (m 26079411791527600, m 96539444169768900),
  (p 86704624551569300, p 49822766697278200), (m 86704624551569300, m 49822766697278200), (p 49822766697278200, m 86704624551569300), (m 49822766697278200, p 86704624551569300)]

def t9_4 : List (Int × Int) := [
  (p 99998117528260100, m 613588464915448), (m 99998117528260100, p 613588464915448), (p 613588464915448, p 99998117528260100), (m 613588464915448, m 99998117528260100),
  (p 71143219574521600, p 70275474445722500), (m 71143219574521600, m 70275474445722500), (p 70275474445722500, m 71143219574521600), (m 70275474445722500, p 71143219574521600),
  (p 92621024213831100, p 37700741021641800), (m 92621024213831100, m 37700741021641800), (p 37700741021641800, m 92621024213831100), (m 37700741021641800, p 92621024213831100),
  (p 92151403934204200, m 38834504669882600), (m 92151403934204200, p 38834504669882600), (p 38834504669882600, p 92151403934204200), (m 38834504669882600, m 92151403934204200),
  (p 98196386910955500, p 18906866414980600), (m 98196386910955500, m 18906866414980600), (p 18906866414980600, m 98196386910955500), (m 18906866414980600, p 98196386910955500),
  (p 82804504525775600, m 56066157619733600), (m 82804504525775600, p 56066157619733600), (p 56066157619733600, p 82804504525775600), (m 56066157619733600, m 82804504525775600),
  (p 97956976568544100, m 20110463484209200), (m 97956976568544100, p 20110463484209200), (p 20110463484209200, p 97956976568544100), (m 20110463484209200, m 97956976568544100),
  (p 83486287498638000, p 55045797293660500), (m 83486287498638000, m 55045797293660500), (p 55045797293660500, m 83486287498638000), (m 55045797293660500, p 83486287498638000),
  (p 99576741446766000, p 9190895649713270), (m 99576741446766000, m 9190895649713270), (p 9190895649713270, m 99576741446766000), (m 9190895649713270, p 99576741446766000),
  (p 76910333764558000, m 63912444486377600), (m 76910333764558000, p 63912444486377600), (p 63912444486377600, p 76910333764558000), (m 63912444486377600, m 76910333764558000),
  (p 95514116830577100, m 29615088824362400), (m 95514116830577100, p 29615088824362400), (p 29615088824362400, p 95514116830577100), (m 29615088824362400, m 95514116830577100),
  (p 88479709843093800, p 46597649576796600), (m 88479709843093800, m 46597649576796600), (p 46597649576796600, m 88479709843093800), (m 46597649576796600, p 88479709843093800),
  (p 99456457073425500, m 10412163387205500), (m 99456457073425500, p 10412163387205500), (p 10412163387205500, p 99456457073425500), (m 10412163387205500, m 99456457073425500),
  (p 77688846567323200, p 62963823891492700), (m 77688846567323200, m 62963823891492700), (p 62963823891492700, m 77688846567323300), (m 62963823891492700, p 77688846567323300),
  (p 95870347489587100, p 28440753721127200), (m 95870347489587100, m 28440753721127200), (p 28440753721127200, m 95870347489587100), (m 28440753721127200, p 95870347489587100),
  (p 87901222642863300, m 47679923006332200), (m 87901222642863300, p 47679923006332200), (p 47679923006332200, p 87901222642863400), (m 47679923006332200, m 87901222642863400)]

def t9_5 : List (Int × Int) := [
  (p 99907772775264500, p 4293825693494080), (m 99907772775264500, m 4293825693494080), (p 4293825693494080, m 99907772775264500), (m 4293825693494080, p 99907772775264500),
  (p 73681656887737000, m 67609270357531600), (m 73681656887737000, p 67609270357531600), (p 67609270357531600, p 73681656887737000), (m 67609270357531600, m 73681656887737000),
  (p 93945922360219000, m 34266071731199400), (m 93945922360219000, p 34266071731199400), (p 34266071731199400, p 93945922360219000), (m 34266071731199400, m 93945922360219000),
  (p 90659570451491500, p 42200027079980000), (m 90659570451491500, m 42200027079980000), (p 42200027079980000, m 90659570451491500), (m 42200027079980000, p 90659570451491500),
  (p 98825756773074900, m 15279718525844300), (m 98825756773074900, p 15279718525844300), (p 15279718525844300, p 98825756773074900), (m 15279718525844300, m 98825756773074900),
  (p 80684755354379900, p 59075970185887400), (m 80684755354379900, m 59075970185887400), (p 59075970185887400, m 80684755354379900), (m 59075970185887400, p 80684755354379900),
  (p 97150389098625200, p 23702360599436700), (m 97150389098625200, m 23702360599436700), (p 23702360599436700, m 97150389098625200), (m 23702360599436700, p 97150389098625200),
  (p 85455798836540100, m 51935599016559000), (m 85455798836540100, p 51935599016559000), (p 51935599016559000, p 85455798836540100), (m 51935599016559000, m 85455798836540100),
  (p 99847558057329500, m 5519524434968990), (m 99847558057329500, p 5519524434968990), (p 5519524434968990, p 99847558057329500), (m 5519524434968990, m 99847558057329500),
  (p 74505778544146600, p 66699992230363800), (m 74505778544146600, m 66699992230363800), (p 66699992230363700, m 74505778544146600), (m 66699992230363700, p 74505778544146600),
  (p 94359345816196000, p 33110630575987600), (m 94359345816196000, m 33110630575987600), (p 33110630575987600, m 94359345816196000), (m 33110630575987600, p 94359345816196000),
  (p 90134884704602200, m 43309381885315200), (m 90134884704602200, p 43309381885315200), (p 43309381885315200, p 90134884704602200), (m 43309381885315200, m 90134884704602200),
  (p 99005821026229700, p 14065823933284900), (m 99005821026229700, m 14065823933284900), (p 14065823933284900, m 99005821026229700), (m 14065823933284900, p 99005821026229700),
  (p 79953726910790500, m 60061647938386900), (m 79953726910790500, p 60061647938386900), (p 60061647938386900, p 79953726910790500), (m 60061647938386900, m 79953726910790500),
  (p 96852209427441700, m 24892760574572000), (m 96852209427441700, p 24892760574572000), (p 24892760574572000, p 96852209427441700), (m 24892760574572000, m 96852209427441700),
  (p 86086693863776700, p 50883014254310700), (m 86086693863776700, m 50883014254310700), (p 50883014254310700, m 86086693863776700), (m 50883014254310700, p 86086693863776700)]

def t9_6 : List (Int × Int) := [
  (p 99983058179582300, p 1840672990580480), (m 99983058179582300, m 1840672990580480), (p 1840672990580480, m 99983058179582300), (m 1840672990580480, p 99983058179582300),
  (p 72000250796138200, m 69397146088965400), (m 72000250796138200, p 69397146088965400), (p 69397146088965400, p 72000250796138200), (m 69397146088965400, m 72000250796138200),
  (p 93076696107898400, m 36561299780477400), (m 93076696107898400, p 36561299780477400), (p 36561299780477400, p 93076696107898400), (m 36561299780477400, m 93076696107898400),
  (p 91667905992104300, p 39962419984564700), (m 91667905992104300, m 39962419984564700), (p 39962419984564700, m 91667905992104300), (m 39962419984564700, p 91667905992104300),
  (p 98421009238692900, m 17700422041214900), (m 98421009238692900, p 17700422041214900), (p 17700422041214900, p 98421009238692900), (m 17700422041214900, m 98421009238692900),
  (p 82110251499110500, p 57078074588696700), (m 82110251499110500, m 57078074588696700), (p 57078074588696700, m 82110251499110500), (m 57078074588696700, p 82110251499110500),
  (p 97702814265775400, p 21311031991609100), (m 97702814265775400, m 21311031991609100), (p 21311031991609100, m 97702814265775400), (m 21311031991609100, p 97702814265775400),
  (p 84155497743689800, m 54017147272989300), (m 84155497743689800, p 54017147272989300), (p 54017147272989300, p 84155497743689800), (m 54017147272989300, m 84155497743689800),
  (p 99682029929116600, m 7968243797143010), (m 99682029929116600, p 7968243797143010), (p 7968243797143010, p 99682029929116600), (m 7968243797143010, m 99682029929116600),
  (p 76120238548426200, p 64851440102211300), (m 76120238548426200, m 64851440102211300), (p 64851440102211200, m 76120238548426200), (m 64851440102211200, p 76120238548426200),
  (p 95143502096900800, p 30784964004153500), (m 95143502096900800, m 30784964004153500), (p 30784964004153500, m 95143502096900800), (m 30784964004153500, p 95143502096900800),
  (p 89044872324475800, m 45508358712634400), (m 89044872324475800, p 45508358712634400), (p 45508358712634400, p 89044872324475800), (m 45508358712634400, m 89044872324475800),
  (p 99321194923479500, p 11631863091190500), (m 99321194923479500, m 11631863091190500), (p 11631863091190500, m 99321194923479500), (m 11631863091190500, p 99321194923479500),
  (p 78455659715557500, m 62005721176328900), (m 78455659715557500, p 62005721176328900), (p 62005721176328900, p 78455659715557500), (m 62005721176328900, m 78455659715557500),
  (p 96212140426904200, m 27262135544994900), (m 96212140426904200, p 27262135544994900), (p 27262135544994900, p 96212140426904200), (m 27262135544994900, m 96212140426904200),
  (p 87309497841829000, p 48755016014843600), (m 87309497841829000, m 48755016014843600), (p 48755016014843600, m 87309497841829000), (m 48755016014843600, p 87309497841829000)]

def t9_7 : List (Int × Int) := [
  (p 99952941750109300, m 3067480317663660), (m 99952941750109300, p 3067480317663660), (p 3067480317663660, p 99952941750109300), (m 3067480317663660, m 99952941750109300),
  (p 72846439044822500, p 68508366777270000), (m 72846439044822500, m 68508366777270000), (p 68508366777270000, m 72846439044822500), (m 68508366777270000, p 72846439044822500),
  (p 93518350993894800, p 35416352542049000), (m 93518350993894800, m 35416352542049000), (p 35416352542049000, m 93518350993894800), (m 35416352542049000, p 93518350993894800),
  (p 91170603200543000, m 41084317105790400), (m 91170603200543000, p 41084317105790400), (p 41084317105790400, p 91170603200543000), (m 41084317105790400, m 91170603200543000),
  (p 98630809724459900, p 16491312048997000), (m 98630809724459900, m 16491312048997000), (p 16491312048997000, m 98630809724459900), (m 16491312048997000, p 98630809724459900),
  (p 81403632970594800, m 58081395809576500), (m 81403632970594800, p 58081395809576500), (p 58081395809576500, p 81403632970594800), (m 58081395809576500, m 81403632970594800),
  (p 97433938278557600, m 22508391135979300), (m 97433938278557600, p 22508391135979300), (p 22508391135979300, p 97433938278557600), (m 22508391135979300, m 97433938278557600),
  (p 84812034480329700, p 52980362468629500), (m 84812034480329700, m 52980362468629500), (p 52980362468629500, m 84812034480329700), (m 52980362468629500, p 84812034480329700),
  (p 99772306664419200, p 6744391956366410), (m 99772306664419200, m 6744391956366410), (p 6744391956366410, m 99772306664419200), (m 6744391956366410, p 99772306664419200),
  (p 75318679904361300, m 65780669329707900), (m 75318679904361300, p 65780669329707900), (p 65780669329707900, p 75318679904361300), (m 65780669329707900, m 75318679904361300),
  (p 94758559101774100, m 31950203081601600), (m 94758559101774100, p 31950203081601600), (p 31950203081601600, p 94758559101774100), (m 31950203081601600, m 94758559101774100),
  (p 89596624975618500, p 44412214457042900), (m 89596624975618500, m 44412214457042900), (p 44412214457042900, m 89596624975618500), (m 44412214457042900, p 89596624975618500),
  (p 99170975366910000, m 12849811079379300), (m 99170975366910000, p 12849811079379300), (p 12849811079379300, p 99170975366910000), (m 12849811079379300, m 99170975366910000),
  (p 79210657730021200, p 61038280627630900), (m 79210657730021200, m 61038280627630900), (p 61038280627630900, m 79210657730021200), (m 61038280627630900, p 79210657730021200),
  (p 96539444169768900, p 26079411791527600), (m 96539444169768900, m 26079411791527600), (p 26079411791527600, m 96539444169768900), (m 26079411791527600, p 96539444169768900),
  (p 86704624551569300, m 49822766697278200), (m 86704624551569300, p 49822766697278200), (p 49822766697278200, p 86704624551569300), (m 49822766697278200, m 86704624551569300)]

def t9 : List (Int × Int) := t9_0 ++ t9_1 ++ t9_2 ++ t9_3 ++ t9_4 ++ t9_5 ++ t9_6 ++ t9_7

def t10_0 : List (Int × Int) := [
  (p 99999529380957600, p 306795676296598), (m 99999529380957600, m 306795676296598), (p 306795676296598, m 99999529380957600), (m 306795676296598, p 99999529380957600),
  (p 70927282643886600, m 70493408037590500), (m 70927282643886600, p 70493408037590500), (p 70493408037590500, p 70927282643886600), (m 70493408037590500, m 70927282643886600),
  (p 92504924078267800, m 37984720892405100), (m 92504924078267800, p 37984720892405100), (p 37984720892405100, p 92504924078267800), (m 37984720892405100, m 92504924078267800),
  (p 92270112833387900, p 38551605384391900), (m 92270112833387900, m 38551605384391900), (p 38551605384391900, m 92270112833387900), (m 38551605384391900, p 92270112833387900),
  (p 98137919331375500, m 19208039704989200), (m 98137919331375500, p 19208039704989200), (p 19208039704989200, p 98137919331375500), (m 19208039704989200, m 98137919331375500),
  (p 82976123379452300, p 55811853122055600), (m 82976123379452300, m 55811853122055600), (p 55811853122055600, m 82976123379452300), (m 55811853122055600, p 82976123379452300),
  (p 98018213596811700, p 19809841071795400), (m 98018213596811700, m 19809841071795400), (p 19809841071795400, m 98018213596811700), (m 19809841071795400, p 98018213596811700),
  (p 83317016470191300, m 55301670558002800), (m 83317016470191300, p 55301670558002800), (p 55301670558002800, p 83317016470191300), (m 55301670558002800, m 83317016470191300),
  (p 99548075549192700, m 9496349532963900), (m 99548075549192700, p 9496349532963900), (p 9496349532963900, p 99548075549192700), (m 9496349532963900, m 99548075549192700),
  (p 77106052426181400, p 63676186123628400), (m 77106052426181400, m 63676186123628400), (p 63676186123628400, m 77106052426181400), (m 63676186123628400, p 77106052426181400),
  (p 95604525134999600, p 29321916269425900), (m 95604525134999600, m 29321916269425900), (p 29321916269425900, m 95604525134999600), (m 29321916269425900, p 95604525134999600),
  (p 88336333866573200, m 46868882203582800), (m 88336333866573200, p 46868882203582800), (p 46868882203582800, p 88336333866573200), (m 46868882203582800, m 88336333866573200),
  (p 99487933079480600, p 10106986275482800), (m 99487933079480600, m 10106986275482800), (p 10106986275482800, m 99487933079480600), (m 10106986275482800, p 99487933079480600),
  (p 77495310659487400, m 63201873593980900), (m 77495310659487400, p 63201873593980900), (p 63201873593980900, p 77495310659487400), (m 63201873593980900, m 77495310659487400),
  (p 95782641302753300, m 28734745954473000), (m 95782641302753300, p 28734745954473000), (p 28734745954473000, p 95782641302753300), (m 28734745954473000, m 95782641302753300),
  (p 88047088905216100, p 47410021465055000), (m 88047088905216100, m 47410021465055000), (p 47410021465055000, m 88047088905216100), (m 47410021465055000, p 88047088905216100)]

def t10_1 : List (Int × Int) := [
  (p 99894129318685700, m 4600318213091460), (m 99894129318685700, p 4600318213091460), (p 4600318213091460, p 99894129318685700), (m 4600318213091460, m 99894129318685700),
  (p 73888732446061500, p 67382900037875600), (m 73888732446061500, m 67382900037875600), (p 67382900037875600, m 73888732446061500), (m 67382900037875600, p 73888732446061500),
  (p 94050607059326800, p 33977688440682700), (m 94050607059326800, m 33977688440682700), (p 33977688440682700, m 94050607059326800), (m 33977688440682700, p 94050607059326800),
  (p 90529675931811900, m 42477968120910900), (m 90529675931811900, p 42477968120910900), (p 42477968120910900, p 90529675931811900), (m 42477968120910900, m 90529675931811900),
  (p 98872169196032400, p 14976453467732200), (m 98872169196032400, m 14976453467732200), (p 14976453467732200, m 98872169196032400), (m 14976453467732200, p 98872169196032400),
  (p 80503133114296400, m 59323229503980000), (m 80503133114296400, p 59323229503980000), (p 59323229503980000, p 80503133114296400), (m 59323229503980000, m 80503133114296400),
  (p 97077214072895000, m 24000302244874100), (m 97077214072895000, p 24000302244874100), (p 24000302244874100, p 97077214072895000), (m 24000302244874100, m 97077214072895000),
  (p 85614732837519400, p 51673179901765000), (m 85614732837519400, m 51673179901765000), (p 51673179901765000, m 85614732837519400), (m 51673179901765000, p 85614732837519400),
  (p 99864021818026500, p 5213170468028330), (m 99864021818026500, m 5213170468028330), (p 5213170468028330, m 99864021818026500), (m 5213170468028330, p 99864021818026500),
  (p 74300795213512200, m 66928258834663600), (m 74300795213512200, p 66928258834663600), (p 66928258834663600, p 74300795213512200), (m 66928258834663600, m 74300795213512200),
  (p 94257319760144700, m 33399965144200900), (m 94257319760144700, p 33399965144200900), (p 33399965144200900, p 94257319760144700), (m 33399965144200900, m 94257319760144700),
  (p 90267331823725900, p 43032648134008300), (m 90267331823725900, m 43032648134008300), (p 43032648134008300, m 90267331823725900), (m 43032648134008300, p 90267331823725900),
  (p 98962201746320100, m 14369503315029400), (m 98962201746320100, p 14369503315029400), (p 14369503315029400, p 98962201746320100), (m 14369503315029400, m 98962201746320100),
  (p 80137617172314000, p 59816070699634200), (m 80137617172314000, m 59816070699634200), (p 59816070699634200, m 80137617172314000), (m 59816070699634200, p 80137617172314000),
  (p 96928123535654900, p 24595505033579500), (m 96928123535654900, m 24595505033579500), (p 24595505033579500, m 96928123535654900), (m 24595505033579500, p 96928123535654900),
  (p 85930181835700800, m 51146885043797000), (m 85930181835700800, p 51146885043797000), (p 51146885043797000, p 85930181835700800), (m 51146885043797000, m 85930181835700800)]

def t10_2 : List (Int × Int) := [
  (p 99976940535121500, m 2147408027546950), (m 99976940535121500, p 2147408027546950), (p 2147408027546950, p 99976940535121500), (m 2147408027546950, m 99976940535121500),
  (p 72212819392921500, p 69175925836415800), (m 72212819392921500, m 69175925836415800), (p 69175925836415800, m 72212819392921500), (m 69175925836415800, p 72212819392921500),
  (p 93188426558166800, p 36275572436739700), (m 93188426558166800, m 36275572436739700), (p 36275572436739700, m 93188426558166800), (m 36275572436739700, p 93188426558166800),
  (p 91544871608826800, m 40243465085941800), (m 91544871608826800, p 40243465085941800), (p 40243465085941800, p 91544871608826800), (m 40243465085941800, m 91544871608826800),
  (p 98474850180190400, p 17398387338746400), (m 98474850180190400, m 17398387338746400), (p 17398387338746400, m 98474850180190400), (m 17398387338746400, p 98474850180190400),
  (p 81934752007679700, m 57329716669804200), (m 81934752007679700, p 57329716669804200), (p 57329716669804200, p 81934752007679700), (m 57329716669804200, m 81934752007679700),
  (p 97636973133002100, m 21610679707622000), (m 97636973133002100, p 21610679707622000), (p 21610679707622000, p 97636973133002100), (m 21610679707622000, m 97636973133002100),
  (p 84320823964184500, p 53758707629564600), (m 84320823964184500, m 53758707629564600), (p 53758707629564600, m 84320823964184500), (m 53758707629564600, p 84320823964184500),
  (p 99706007033948300, p 7662386139203150), (m 99706007033948300, m 7662386139203150), (p 7662386139203150, m 99706007033948300), (m 7662386139203150, p 99706007033948300),
  (p 75920918897838800, m 65084668499638100), (m 75920918897838800, p 65084668499638100), (p 65084668499638100, p 75920918897838800), (m 65084668499638100, m 75920918897838800),
  (p 95048607394948200, m 31076715274961200), (m 95048607394948200, p 31076715274961200), (p 31076715274961200, p 95048607394948200), (m 31076715274961200, m 95048607394948200),
  (p 89184070939234300, p 45234958723377100), (m 89184070939234300, m 45234958723377100), (p 45234958723377100, m 89184070939234300), (m 45234958723377100, p 89184070939234300),
  (p 99285041445986500, m 11936521481099100), (m 99285041445986500, p 11936521481099100), (p 11936521481099100, p 99285041445986500), (m 11936521481099100, m 99285041445986500),
  (p 78645521359908600, p 61764730793780400), (m 78645521359908600, m 61764730793780400), (p 61764730793780400, m 78645521359908600), (m 61764730793780400, p 78645521359908600),
  (p 96295326687368400, p 26966832557291500), (m 96295326687368400, m 26966832557291500), (p 26966832557291500, m 96295326687368400), (m 26966832557291500, p 96295326687368400),
  (p 87159508665595100, m 49022648328829100), (m 87159508665595100, p 49022648328829100), (p 49022648328829100, p 87159508665595100), (m 49022648328829100, m 87159508665595100)]

def t10_3 : List (Int × Int) := [
  (p 99961882249517900, p 2760814577896570), (m 99961882249517900, m 2760814577896570), (p 2760814577896570, m 99961882249517900), (m 2760814577896570, p 99961882249517900),
  (p 72635915508434600, m 68731534089175900), (m 72635915508434600, p 68731534089175900), (p 68731534089175900, p 72635915508434600), (m 68731534089175900, m 72635915508434600),
  (p 93409255040425900, m 35703096123343000), (m 93409255040425900, p 35703096123343000), (p 35703096123343000, p 93409255040425900), (m 35703096123343000, m 93409255040425900),
  (p 91296219042839800, p 40804416286497900), (m 91296219042839800, m 40804416286497900), (p 40804416286497900, m 91296219042839800), (m 40804416286497900, p 91296219042839800),
  (p 98579750916756700, m 16793829497473100), (m 98579750916756700, p 16793829497473100), (p 16793829497473100, p 98579750916756700), (m 16793829497473100, m 98579750916756700),
  (p 81581441080673400, p 57831379641165600), (m 81581441080673400, m 57831379641165600), (p 57831379641165600, m 81581441080673400), (m 57831379641165600, p 81581441080673400),
  (p 97502534506699400, p 22209362097320400), (m 97502534506699400, m 22209362097320400), (p 22209362097320400, m 97502534506699400), (m 22209362097320400, p 97502534506699400),
  (p 84649093877405200, m 53240312787719800), (m 84649093877405200, p 53240312787719800), (p 53240312787719800, p 84649093877405200), (m 53240312787719800, m 84649093877405200),
  (p 99751145614030300, m 7050457338961390), (m 99751145614030300, p 7050457338961390), (p 7050457338961390, p 99751145614030300), (m 7050457338961390, m 99751145614030300),
  (p 75520137689653700, p 65549285299961500), (m 75520137689653700, m 65549285299961500), (p 65549285299961500, m 75520137689653700), (m 65549285299961500, p 75520137689653700),
  (p 94856134991573000, p 31659337555616600), (m 94856134991573000, m 31659337555616600), (p 31659337555616600, m 94856134991573000), (m 31659337555616600, p 94856134991573000),
  (p 89459948563138300, m 44686884016237400), (m 89459948563138300, p 44686884016237400), (p 44686884016237400, p 89459948563138300), (m 44686884016237400, m 89459948563138300),
  (p 99209931314219200, p 12545498341154600), (m 99209931314219200, m 12545498341154600), (p 12545498341154600, m 99209931314219200), (m 12545498341154600, p 99209931314219200),
  (p 79023022143731000, m 61281008242941000), (m 79023022143731000, p 61281008242941000), (p 61281008242941000, p 79023022143731000), (m 61281008242941000, m 79023022143731000),
  (p 96458979328981300, m 26375467897483100), (m 96458979328981300, p 26375467897483100), (p 26375467897483100, p 96458979328981300), (m 26375467897483100, m 96458979328981300),
  (p 86857070597134100, p 49556526182577200), (m 86857070597134100, m 49556526182577200), (p 49556526182577200, m 86857070597134100), (m 49556526182577200, p 86857070597134100)]

def t10_4 : List (Int × Int) := [
  (p 99995764455196400, m 920375478205982), (m 99995764455196400, p 920375478205982), (p 920375478205982, p 99995764455196400), (m 920375478205982, m 99995764455196400),
  (p 71358486878079400, p 70056879394324800), (m 71358486878079400, m 70056879394324800), (p 70056879394324800, m 71358486878079400), (m 70056879394324800, p 71358486878079400),
  (p 92736252565040100, p 37416406297145800), (m 92736252565040100, m 37416406297145800), (p 37416406297145800, m 92736252565040100), (m 37416406297145800, p 92736252565040100),
  (p 92031827670911000, m 39117038430225400), (m 92031827670911000, p 39117038430225400), (p 39117038430225400, p 92031827670911100), (m 39117038430225400, m 92031827670911100),
  (p 98253930228744100, p 18605515166344700), (m 98253930228744100, m 18605515166344700), (p 18605515166344700, m 98253930228744100), (m 18605515166344700, p 98253930228744100),
  (p 82632106284566400, m 56319934401383400), (m 82632106284566400, p 56319934401383400), (p 56319934401383400, p 82632106284566400), (m 56319934401383400, m 82632106284566400),
  (p 97894817531906200, m 20410896609281700), (m 97894817531906200, p 20410896609281700), (p 20410896609281700, p 97894817531906200), (m 20410896609281700, m 97894817531906200),
  (p 83654772722351200, p 54789405917310000), (m 83654772722351200, m 54789405917310000), (p 54789405917310000, m 83654772722351200), (m 54789405917310000, p 83654772722351200),
  (p 99604470090125200, p 8885355258252460), (m 99604470090125200, m 8885355258252460), (p 8885355258252460, m 99604470090125200), (m 8885355258252460, p 99604470090125200),
  (p 76713891193582000, m 64148101280858300), (m 76713891193582000, p 64148101280858300), (p 64148101280858300, p 76713891193582000), (m 64148101280858300, m 76713891193582000),
  (p 95422809510910600, m 29907982630804000), (m 95422809510910600, p 29907982630804000), (p 29907982630804000, p 95422809510910600), (m 29907982630804000, m 95422809510910600),
  (p 88622253014888100, p 46325978355186000), (m 88622253014888100, m 46325978355186000), (p 46325978355186000, m 88622253014888100), (m 46325978355186000, p 88622253014888100),
  (p 99424044945318800, m 10717242495680900), (m 99424044945318800, p 10717242495680900), (p 10717242495680900, p 99424044945318800), (m 10717242495680900, m 99424044945318800),
  (p 77881651238147600, p 62725181549514400), (m 77881651238147600, m 62725181549514400), (p 62725181549514400, m 77881651238147600), (m 62725181549514400, p 77881651238147600),
  (p 95957151308198500, p 28146493792575800), (m 95957151308198500, m 28146493792575800), (p 28146493792575800, m 95957151308198500), (m 28146493792575800, p 95957151308198500),
  (p 87754529020726100, m 47949375766015300), (m 87754529020726100, p 47949375766015300), (p 47949375766015300, p 87754529020726100), (m 47949375766015300, m 87754529020726100)]

def t10_5 : List (Int × Int) := [
  (p 99920475861836400, p 3987292758773980), (m 99920475861836400, m 3987292758773980), (p 3987292758773980, m 99920475861836400), (m 3987292758773980, p 99920475861836400),
  (p 73473887809596300, m 67835004312986200), (m 73473887809596300, p 67835004312986200), (p 67835004312986100, p 73473887809596300), (m 67835004312986100, m 73473887809596300),
  (p 93840353406310800, m 34554132496398900), (m 93840353406310800, p 34554132496398900), (p 34554132496398900, p 93840353406310800), (m 34554132496398900, m 93840353406310800),
  (p 90788611648766600, p 41921688836322400), (m 90788611648766600, m 41921688836322400), (p 41921688836322400, m 90788611648766600), (m 41921688836322400, p 90788611648766600),
  (p 98778414164457200, m 15582839765426500), (m 98778414164457200, p 15582839765426500), (p 15582839765426500, p 98778414164457200), (m 15582839765426500, m 98778414164457200),
  (p 80865618158817500, p 58828154822264500), (m 80865618158817500, m 58828154822264500), (p 58828154822264500, m 80865618158817500), (m 58828154822264500, p 80865618158817500),
  (p 97222649707893600, p 23404195858354300), (m 97222649707893600, m 23404195858354300), (p 23404195858354300, m 97222649707893600), (m 23404195858354300, p 97222649707893600),
  (p 85296060493036400, m 52197529293715400), (m 85296060493036400, p 52197529293715400), (p 52197529293715400, p 85296060493036400), (m 52197529293715400, m 85296060493036400),
  (p 99830154493389300, m 5825826450043580), (m 99830154493389300, p 5825826450043580), (p 5825826450043580, p 99830154493389300), (m 5825826450043580, m 99830154493389300),
  (p 74710060598018000, p 66471097820334500), (m 74710060598018000, m 66471097820334500), (p 66471097820334500, m 74710060598018000), (m 66471097820334500, p 74710060598018000),
  (p 94460483726148000, p 32820984357909200), (m 94460483726148000, m 32820984357909200), (p 32820984357909200, m 94460483726148000), (m 32820984357909200, p 94460483726148000),
  (p 90001589201616000, m 43585707992225500), (m 90001589201616000, p 43585707992225500), (p 43585707992225600, p 90001589201616000), (m 43585707992225600, m 90001589201616000),
  (p 99048508425645700, p 13762012158648600), (m 99048508425645700, m 13762012158648600), (p 13762012158648600, m 99048508425645700), (m 13762012158648600, p 99048508425645700),
  (p 79769084094339100, m 60306659854034800), (m 79769084094339100, p 60306659854034800), (p 60306659854034800, p 79769084094339100), (m 60306659854034800, m 79769084094339100),
  (p 96775383709347500, m 25189781815421700), (m 96775383709347500, p 25189781815421700), (p 25189781815421700, p 96775383709347500), (m 25189781815421700, m 96775383709347500),
  (p 86242395611104100, p 50618664534515500), (m 86242395611104100, m 50618664534515500), (p 50618664534515500, m 86242395611104100), (m 50618664534515500, p 86242395611104100)]

def t10_6 : List (Int × Int) := [
  (p 99988234745421300, p 1533920628498810), (m 99988234745421300, m 1533920628498810), (p 1533920628498810, m 99988234745421300), (m 1533920628498810, p 99988234745421300),
  (p 71787004505573200, m 69617713149146300), (m 71787004505573200, p 69617713149146300), (p 69617713149146300, p 71787004505573200), (m 69617713149146300, m 71787004505573200),
  (p 92964089584318100, m 36846682995337200), (m 92964089584318100, p 36846682995337200), (p 36846682995337200, p 92964089584318100), (m 36846682995337200, m 92964089584318100),
  (p 91790077562139000, p 39680998741671000), (m 91790077562139000, m 39680998741671000), (p 39680998741671000, m 91790077562139000), (m 39680998741671000, p 91790077562139000),
  (p 98366241921173000, m 18002290140570000), (m 98366241921173000, p 18002290140570000), (p 18002290140570000, p 98366241921173000), (m 18002290140570000, m 98366241921173000),
  (p 82284978137582600, p 56825895267013200), (m 82284978137582600, m 56825895267013200), (p 56825895267013200, m 82284978137582600), (m 56825895267013200, p 82284978137582600),
  (p 97767735782451000, p 21011183688047000), (m 97767735782451000, m 21011183688047000), (p 21011183688047000, m 97767735782451000), (m 21011183688047000, p 97767735782451000),
  (p 83989379419600000, m 54275078486451600), (m 83989379419600000, p 54275078486451600), (p 54275078486451600, p 83989379419600000), (m 54275078486451600, m 83989379419600000),
  (p 99657114579055500, m 8274026454937570), (m 99657114579055500, p 8274026454937570), (p 8274026454937570, p 99657114579055500), (m 8274026454937570, m 99657114579055500),
  (p 76318841726338100, p 64617601298331600), (m 76318841726338100, m 64617601298331600), (p 64617601298331600, m 76318841726338100), (m 64617601298331600, p 76318841726338100),
  (p 95237501271976600, p 30492922973540200), (m 95237501271976600, m 30492922973540200), (p 30492922973540200, m 95237501271976600), (m 30492922973540200, p 95237501271976600),
  (p 88904835585466500, m 45781330359887700), (m 88904835585466500, p 45781330359887700), (p 45781330359887700, p 88904835585466500), (m 45781330359887700, m 88904835585466500),
  (p 99356413552059500, p 11327095217756400), (m 99356413552059500, m 11327095217756400), (p 11327095217756400, m 99356413552059500), (m 11327095217756400, p 99356413552059500),
  (p 78265059616657600, m 62246127937415000), (m 78265059616657600, p 62246127937415000), (p 62246127937415000, p 78265059616657600), (m 62246127937415000, m 78265059616657600),
  (p 96128048581132100, m 27557181931095800), (m 96128048581132100, p 27557181931095800), (p 27557181931095800, p 96128048581132100), (m 27557181931095800, m 96128048581132100),
  (p 87458665227817600, p 48486924800079100), (m 87458665227817600, m 48486924800079100), (p 48486924800079100, m 87458665227817600), (m 48486924800079100, p 87458665227817600)]

def t10_7 : List (Int × Int) := [
  (p 99943060455546200, m 3374117185137760), (m 99943060455546200, p 3374117185137760), (p 3374117185137760, p 99943060455546200), (m 3374117185137760, m 99943060455546200),
  (p 73056276922782800, p 68284554638524800), (m 73056276922782800, m 68284554638524800), (p 68284554638524800, m 73056276922782800), (m 68284554638524800, p 73056276922782800),
  (p 93626566717027800, p 35129275608556700), (m 93626566717027800, m 35129275608556700), (p 35129275608556700, m 93626566717027800), (m 35129275608556700, p 93626566717027800),
  (p 91044129225806700, m 41363831223843500), (m 91044129225806700, p 41363831223843500), (p 41363831223843500, p 91044129225806700), (m 41363831223843500, m 91044129225806700),
  (p 98680940181418500, p 16188639378011200), (m 98680940181418500, m 16188639378011200), (p 16188639378011200, m 98680940181418500), (m 16188639378011200, p 98680940181418500),
  (p 81225058658520400, m 58330865293769800), (m 81225058658520400, p 58330865293769800), (p 58330865293769800, p 81225058658520400), (m 58330865293769800, m 81225058658520400),
  (p 97364424965081200, m 22807208317088600), (m 97364424965081200, p 22807208317088600), (p 22807208317088600, p 97364424965081200), (m 22807208317088600, m 97364424965081200),
  (p 84974176800085200, p 52719913478190100), (m 84974176800085200, m 52719913478190100), (p 52719913478190100, m 84974176800085300), (m 52719913478190100, p 84974176800085300),
  (p 99792528619859600, p 6438263092985750), (m 99792528619859600, m 6438263092985750), (p 6438263092985750, m 99792528619859600), (m 6438263092985750, p 99792528619859600),
  (p 75116513190968600, m 66011434206742000), (m 75116513190968600, p 66011434206742000), (p 66011434206742000, p 75116513190968600), (m 66011434206742000, m 75116513190968600),
  (p 94660091308328400, m 32240767880107000), (m 94660091308328400, p 32240767880107000), (p 32240767880107000, p 94660091308328400), (m 32240767880107000, m 94660091308328400),
  (p 89732458070541800, p 44137126873171700), (m 89732458070541800, m 44137126873171700), (p 44137126873171700, m 89732458070541800), (m 44137126873171700, p 89732458070541800),
  (p 99131085984611500, m 13154002870288300), (m 99131085984611500, p 13154002870288300), (p 13154002870288300, p 99131085984611500), (m 13154002870288300, m 99131085984611500),
  (p 79397547755433700, p 60794978496777400), (m 79397547755433700, m 60794978496777400), (p 60794978496777400, m 79397547755433700), (m 60794978496777400, p 79397547755433700),
  (p 96619000344541300, p 25783110216215900), (m 96619000344541300, m 25783110216215900), (p 25783110216215900, m 96619000344541300), (m 25783110216215900, p 96619000344541300),
  (p 86551362409056900, m 50088538261124100), (m 86551362409056900, p 50088538261124100), (p 50088538261124100, p 86551362409056900), (m 50088538261124100, m 86551362409056900)]

def t10_8 : List (Int × Int) := [
  (p 99999529380957600, m 306795676296598), (m 99999529380957600, p 306795676296598), (p 306795676296598, p 99999529380957600), (m 306795676296598, m 99999529380957600),
  (p 70927282643886600, p 70493408037590500), (m 70927282643886600, m 70493408037590500), (p 70493408037590500, m 70927282643886600), (m 70493408037590500, p 70927282643886600),
  (p 92504924078267800, p 37984720892405100), (m 92504924078267800, m 37984720892405100), (p 37984720892405100, m 92504924078267800), (m 37984720892405100, p 92504924078267800),
  (p 92270112833387900, m 38551605384391900), (m 92270112833387900, p 38551605384391900), (p 38551605384391900, p 92270112833387900), (m 38551605384391900, m 92270112833387900),
  (p 98137919331375500, p 19208039704989200), (m 98137919331375500, m 19208039704989200), (p 19208039704989200, m 98137919331375500), (m 19208039704989200, p 98137919331375500),
  (p 82976123379452300, m 55811853122055600), (m 82976123379452300, p 55811853122055600), (p 55811853122055600, p 82976123379452300), (m 55811853122055600, m 82976123379452300),
  (p 98018213596811700, m 19809841071795400), (m 98018213596811700, p 19809841071795400), (p 19809841071795400, p 98018213596811700), (m 19809841071795400, m 98018213596811700),
  (p 83317016470191300, p 55301670558002800), (m 83317016470191300, m 55301670558002800), (p 55301670558002800, m 83317016470191300), (m 55301670558002800, p 83317016470191300),
  (p 99548075549192700, p 9496349532963900), (m 99548075549192700, m 9496349532963900), (p 9496349532963900, m 99548075549192700), (m 9496349532963900, p 99548075549192700),
  (p 77106052426181400, m 63676186123628400), (m 77106052426181400, p 63676186123628400), (p 63676186123628400, p 77106052426181400), (m 63676186123628400, m 77106052426181400),
  (p 95604525134999600, m 29321916269425900), (m 95604525134999600, p 29321916269425900), (p 29321916269425900, p 95604525134999600), (m 29321916269425900, m 95604525134999600),
  (p 88336333866573200, p 46868882203582800), (m 88336333866573200, m 46868882203582800), (p 46868882203582800, m 88336333866573200), (m 46868882203582800, p 88336333866573200),
  (p 99487933079480600, m 10106986275482800), (m 99487933079480600, p 10106986275482800), (p 10106986275482800, p 99487933079480600), (m 10106986275482800, m 99487933079480600),
  (p 77495310659487400, p 63201873593980900), (m 77495310659487400, m 63201873593980900), (p 63201873593980900, m 77495310659487400), (m 63201873593980900, p 77495310659487400),
  (p 95782641302753300, p 28734745954473000), (m 95782641302753300, m 28734745954473000), (p 28734745954473000, m 95782641302753300), (m 28734745954473000, p 95782641302753300),
  (p 88047088905216100, m 47410021465055000), (m 88047088905216100, p 47410021465055000), (p 47410021465055000, p 88047088905216100), (m 47410021465055000, m 88047088905216100)]

def t10_9 : List (Int × Int) := [
  (p 99894129318685700, p 4600318213091460), (m 99894129318685700, m 4600318213091460), (p 4600318213091460, m 99894129318685700), (m 4600318213091460, p 99894129318685700),
  (p 73888732446061500, m 67382900037875600), (m 73888732446061500, p 67382900037875600), (p 67382900037875600, p 73888732446061500), (m 67382900037875600, m 73888732446061500),
  (p 94050607059326800, m 33977688440682700), (m 94050607059326800, p 33977688440682700), (p 33977688440682700, p 94050607059326800), (m 33977688440682700, m 94050607059326800),
  (p 90529675931811900, p 42477968120910900), (m 90529675931811900, m 42477968120910900), (p 42477968120910900, m 90529675931811900), (m 42477968120910900, p 90529675931811900),
  (p 98872169196032400, m 14976453467732200), (m 98872169196032400, p 14976453467732200), (p 14976453467732200, p 98872169196032400), (m 14976453467732200, m 98872169196032400),
  (p 80503133114296400, p 59323229503980000), (m 80503133114296400, m 59323229503980000), (p 59323229503980000, m 80503133114296400), (m 59323229503980000, p 80503133114296400),
  (p 97077214072895000, p 24000302244874100), (m 97077214072895000, m 24000302244874100), (p 24000302244874100, m 97077214072895000), (m 24000302244874100, p 97077214072895000),
  (p 85614732837519400, m 51673179901765000), (m 85614732837519400, p 51673179901765000), (p 51673179901765000, p 85614732837519400), (m 51673179901765000, m 85614732837519400),
  (p 99864021818026500, m 5213170468028330), (m 99864021818026500, p 5213170468028330), (p 5213170468028330, p 99864021818026500), (m 5213170468028330, m 99864021818026500),
  (p 74300795213512200, p 66928258834663600), (m 74300795213512200, m 66928258834663600), (p 66928258834663600, m 74300795213512200), (m 66928258834663600, p 74300795213512200),
  (p 94257319760144700, p 33399965144200900), (m 94257319760144700, m 33399965144200900), (p 33399965144200900, m 94257319760144700), (m 33399965144200900, p 94257319760144700),
  (p 90267331823725900, m 43032648134008300), (m 90267331823725900, p 43032648134008300), (p 43032648134008300, p 90267331823725900), (m 43032648134008300, m 90267331823725900),
  (p 98962201746320100, p 14369503315029400), (m 98962201746320100, m 14369503315029400), (p 14369503315029400, m 98962201746320100), (m 14369503315029400, p 98962201746320100),
  (p 80137617172314000, m 59816070699634200), (m 80137617172314000, p 59816070699634200), (p 59816070699634200, p 80137617172314000), (m 59816070699634200, m 80137617172314000),
  (p 96928123535654900, m 24595505033579500), (m 96928123535654900, p 24595505033579500), (p 24595505033579500, p 96928123535654900), (m 24595505033579500, m 96928123535654900),
  (p 85930181835700800, p 51146885043797000), (m 85930181835700800, m 51146885043797000), (p 51146885043797000, m 85930181835700800), (m 51146885043797000, p 85930181835700800)]

def t10_10 : List (Int × Int) := [
  (p 99976940535121500, p 2147408027546950), (m 99976940535121500, m 2147408027546950), (p 2147408027546950, m 99976940535121500), (m 2147408027546950, p 99976940535121500),
  (p 72212819392921500, m 69175925836415800), (m 72212819392921500, p 69175925836415800), (p 69175925836415800, p 72212819392921500), (m 69175925836415800, m 72212819392921500),
  (p 93188426558166800, m 36275572436739700), (m 93188426558166800, p 36275572436739700), (p 36275572436739700, p 93188426558166800), (m 36275572436739700, m 93188426558166800),
  (p 91544871608826800, p 40243465085941800), (m 91544871608826800, m 40243465085941800), (p 40243465085941800, m 91544871608826800), (m 40243465085941800, p 91544871608826800),
  (p 98474850180190400, m 17398387338746400), (m 98474850180190400, p 17398387338746400), (p 17398387338746400, p 98474850180190400), (m 17398387338746400, m 98474850180190400),
  (p 81934752007679700, p 57329716669804200), (m 81934752007679700, m 57329716669804200), (p 57329716669804200, m 81934752007679700), (m 57329716669804200, p 81934752007679700),
  (p 97636973133002100, p 21610679707622000), (m 97636973133002100, m 21610679707622000), (p 21610679707622000, m 97636973133002100), (m 21610679707622000, p 97636973133002100),
  (p 84320823964184500, m 53758707629564600), (m 84320823964184500, p 53758707629564600), (p 53758707629564600, p 84320823964184500), (m 53758707629564600, m 84320823964184500),
  (p 99706007033948300, m 7662386139203150), (m 99706007033948300, p 7662386139203150), (p 7662386139203150, p 99706007033948300), (m 7662386139203150, m 99706007033948300),
  (p 75920918897838800, p 65084668499638100), (m 75920918897838800, m 65084668499638100), (p 65084668499638100, m 75920918897838800), (m 65084668499638100, p 75920918897838800),
  (p 95048607394948200, p 31076715274961200), (m 95048607394948200, m 31076715274961200), (p 31076715274961200, m 95048607394948200), (m 31076715274961200, p 95048607394948200),
  (p 89184070939234300, m 45234958723377100), (m 89184070939234300, p 45234958723377100), (p 45234958723377100, p 89184070939234300), (m 45234958723377100, m 89184070939234300),
  (p 99285041445986500, p 11936521481099100), (m 99285041445986500, m 11936521481099100), (p 11936521481099100, m 99285041445986500), (m 11936521481099100, p 99285041445986500),
  (p 78645521359908600, m 61764730793780400), (m 78645521359908600, p 61764730793780400), (p 61764730793780400, p 78645521359908600), (m 61764730793780400, m 78645521359908600),
  (p 96295326687368400, m 26966832557291500), (m 96295326687368400, p 26966832557291500), (p 26966832557291500, p 96295326687368400), (m 26966832557291500, m 96295326687368400),
  (p 87159508665595100, p 49022648328829100), (m 87159508665595100, m 49022648328829100), (p 49022648328829100, m 87159508665595100), (m 49022648328829100, p 87159508665595100)]

def t10_11 : List (Int × Int) := [
  (p 99961882249517900, m 2760814577896570), (m 99961882249517900, p 2760814577896570), (p 2760814577896570, p 99961882249517900), (m 2760814577896570, m 99961882249517900),
  (p 72635915508434600, p 68731534089175900), (m 72635915508434600, m 68731534089175900), (p 68731534089175900, m 72635915508434600), (m 68731534089175900, p 72635915508434600),
  (p 93409255040425900, p 35703096123343000), (m 93409255040425900, m 35703096123343000), (p 35703096123343000, m 93409255040425900), (m 35703096123343000, p 93409255040425900),
  (p 91296219042839800, m 40804416286497900), (m 91296219042839800, p 40804416286497900), (p 40804416286497900, p 91296219042839800), (m 40804416286497900, m 91296219042839800),
  (p 98579750916756700, p 16793829497473100), (m 98579750916756700, m 16793829497473100), (p 16793829497473100, m 98579750916756700), (m 16793829497473100, p 98579750916756700),
  (p 81581441080673400, m 57831379641165600), (m 81581441080673400, p 57831379641165600), (p 57831379641165600, p 81581441080673400), (m 57831379641165600, m 81581441080673400),
  (p 97502534506699400, m 22209362097320400), (m 97502534506699400, p 22209362097320400), (p 22209362097320400, p 97502534506699400), (m 22209362097320400, m 97502534506699400),
  (p 84649093877405200, p 53240312787719800), (m 84649093877405200, m 53240312787719800), (p 53240312787719800, m 84649093877405200), (m 53240312787719800, p 84649093877405200),
  (p 99751145614030300, p 7050457338961390), (m 99751145614030300, m 7050457338961390), (p 7050457338961390, m 99751145614030300), (m 7050457338961390, p 99751145614030300),
  (p 75520137689653700, m 65549285299961500), (m 75520137689653700, p 65549285299961500), (p 65549285299961500, p 75520137689653700), (m 65549285299961500, m 75520137689653700),
  (p 94856134991573000, m 31659337555616600), (m 94856134991573000, p 31659337555616600), (p 31659337555616600, p 94856134991573000), (m 31659337555616600, m 94856134991573000),
  (p 89459948563138300, p 44686884016237400), (m 89459948563138300, m 44686884016237400), (p 44686884016237400, m 89459948563138300), (m 44686884016237400, p 89459948563138300),
  (p 99209931314219200, m 12545498341154600), (m 99209931314219200, p 12545498341154600), (p 12545498341154600, p 99209931314219200), (m 12545498341154600, m 99209931314219200),
  (p 79023022143731000, p 61281008242941000), (m 79023022143731000, m 61281008242941000), (p 61281008242941000, m 79023022143731000), (m 61281008242941000, p 79023022143731000),
  (p 96458979328981300, p 26375467897483100), (m 96458979328981300, m 26375467897483100), (p 26375467897483100, m 96458979328981300), (m 26375467897483100, p 96458979328981300),
  (p 86857070597134100, m 49556526182577200), (m 86857070597134100, p 49556526182577200), (p 49556526182577200, p 86857070597134100), (m 49556526182577200, m 86857070597134100)]

def t10_12 : List (Int × Int) := [
  (p 99995764455196400, p 920375478205982), (m 99995764455196400, m 920375478205982), (p 920375478205982, m 99995764455196400), (m 920375478205982, p 99995764455196400),
  (p 71358486878079400, m 70056879394324800), (m 71358486878079400, p 70056879394324800), (p 70056879394324800, p 71358486878079400), (m 70056879394324800, m 71358486878079400),
  (p 92736252565040100, m 37416406297145800), (m 92736252565040100, p 37416406297145800), (p 37416406297145800, p 92736252565040100), (m 37416406297145800, m 92736252565040100),
  (p 92031827670911000, p 39117038430225400), (m 92031827670911000, m 39117038430225400), (p 39117038430225400, m 92031827670911100), (m 39117038430225400, p 92031827670911100),
  (p 98253930228744100, m 18605515166344700), (m 98253930228744100, p 18605515166344700), (p 18605515166344700, p 98253930228744100), (m 18605515166344700, m 98253930228744100),
  (p 82632106284566400, p 56319934401383400), (m 82632106284566400, m 56319934401383400), (p 56319934401383400, m 82632106284566400), (m 56319934401383400, p 82632106284566400),
  (p 97894817531906200, p 20410896609281700), (m 97894817531906200, m 20410896609281700), (p 20410896609281700, m 97894817531906200), (m 20410896609281700, p 97894817531906200),
  (p 83654772722351200, m 54789405917310000), (m 83654772722351200, p 54789405917310000), (p 54789405917310000, p 83654772722351200), (m 54789405917310000, m 83654772722351200),
  (p 99604470090125200, m 8885355258252460), (m 99604470090125200, p 8885355258252460), (p 8885355258252460, p 99604470090125200), (m 8885355258252460, m 99604470090125200),
  (p 76713891193582000, p 64148101280858300), (m 76713891193582000, m 64148101280858300), (p 64148101280858300, m 76713891193582000), (m 64148101280858300, p 76713891193582000),
  (p 95422809510910600, p 29907982630804000), (m 95422809510910600, m 29907982630804000), (p 29907982630804000, m 95422809510910600), (m 29907982630804000, p 95422809510910600),
  (p 88622253014888100, m 46325978355186000), (m 88622253014888100, p 46325978355186000), (p 46325978355186000, p 88622253014888100), (m 46325978355186000, m 88622253014888100),
  (p 99424044945318800, p 10717242495680900), (m 99424044945318800, m 10717242495680900), (p 10717242495680900, m 99424044945318800), (m 10717242495680900, p 99424044945318800),
  (p 77881651238147600, m 62725181549514400), (m 77881651238147600, p 62725181549514400), (p 62725181549514400, p 77881651238147600), (m 62725181549514400, m 77881651238147600),
  (p 95957151308198500, m 28146493792575800), (m 95957151308198500, p 28146493792575800), (p 28146493792575800, p 95957151308198500), (m 28146493792575800, m 95957151308198500),
  (p 87754529020726100, p 47949375766015300), (m 87754529020726100, m 47949375766015300), (p 47949375766015300, m 87754529020726100), (m 47949375766015300, p 87754529020726100)]

def t10_13 : List (Int × Int) := [
  (p 99920475861836400, m 3987292758773980), (m 99920475861836400, p 3987292758773980), (p 3987292758773980, p 99920475861836400), (m 3987292758773980, m 99920475861836400),
  (p 73473887809596300, p 67835004312986200), (m 73473887809596300, m 67835004312986200), (p 67835004312986100, m 73473887809596300), (m 67835004312986100, p 73473887809596300),
  (p 93840353406310800, p 34554132496398900), (m 93840353406310800, m 34554132496398900), (p 34554132496398900, m 93840353406310800), (m 34554132496398900, p 93840353406310800),
  (p 90788611648766600, m 41921688836322400), (m 90788611648766600, p 41921688836322400), (p 41921688836322400, p 90788611648766600), (m 41921688836322400, m 90788611648766600),
  (p 98778414164457200, p 15582839765426500), (m 98778414164457200, m 15582839765426500), (p 15582839765426500, m 98778414164457200), (m 15582839765426500, p 98778414164457200),
  (p 80865618158817500, m 58828154822264500), (m 80865618158817500, p 58828154822264500), (p 58828154822264500, p 80865618158817500), (m 58828154822264500, m 80865618158817500),
  (p 97222649707893600, m 23404195858354300), (m 97222649707893600, p 23404195858354300), (p 23404195858354300, p 97222649707893600), (m 23404195858354300, m 97222649707893600),
  (p 85296060493036400, p 52197529293715400), (m 85296060493036400, m 52197529293715400), (p 52197529293715400, m 85296060493036400), (m 52197529293715400, p 85296060493036400),
  (p 99830154493389300, p 5825826450043580), (m 99830154493389300, m 5825826450043580), (p 5825826450043580, m 99830154493389300), (m 5825826450043580, p 99830154493389300),
  (p 74710060598018000, m 66471097820334500), (m 74710060598018000, p 66471097820334500), (p 66471097820334500, p 74710060598018000), (m 66471097820334500, m 74710060598018000),
  (p 94460483726148000, m 32820984357909200), (m 94460483726148000, p 32820984357909200), (p 32820984357909200, p 94460483726148000), (m 32820984357909200, m 94460483726148000),
  (p 90001589201616000, p 43585707992225500), (m 90001589201616000, m 43585707992225500), (p 43585707992225600, m 90001589201616000), (m 43585707992225600, p 90001589201616000),
  (p 99048508425645700, m 13762012158648600), (m 99048508425645700, p 13762012158648600), (p 13762012158648600, p 99048508425645700), (m 13762012158648600, m 99048508425645700),
  (p 79769084094339100, p 60306659854034800), (m 79769084094339100, m 60306659854034800), (p 60306659854034800, m 79769084094339100), (m 60306659854034800, p 79769084094339100),
  (p 96775383709347500, p 25189781815421700), (m 96775383709347500, m 25189781815421700), (p 25189781815421700, m 96775383709347500), (m 25189781815421700, p 96775383709347500),
  (p 86242395611104100, m 50618664534515500), (m 86242395611104100, p 50618664534515500), (p 50618664534515500, p 86242395611104100), (m 50618664534515500, m 86242395611104100)]

def t10_14 : List (Int × Int) := [
  (p 99988234745421300, m 1533920628498810), (m 99988234745421300, p 1533920628498810), (p 1533920628498810, p 99988234745421300), (m 1533920628498810, m 99988234745421300),
  (p 71787004505573200, p 69617713149146300), (m 71787004505573200, m 69617713149146300), (p 69617713149146300, m 71787004505573200), (m 69617713149146300, p 71787004505573200),
  (p 92964089584318100, p 36846682995337200), (m 92964089584318100, m 36846682995337200), (p 36846682995337200, m 92964089584318100), (m 36846682995337200, p 92964089584318100),
  (p 91790077562139000, m 39680998741671000), (m 91790077562139000, p 39680998741671000), (p 39680998741671000, p 91790077562139000), (m 39680998741671000, m 91790077562139000),
  (p 98366241921173000, p 18002290140570000), (m 98366241921173000, m 18002290140570000), (p 18002290140570000, m 98366241921173000), (m 18002290140570000, p 98366241921173000),
  (p 82284978137582600, m 56825895267013200), (m 82284978137582600, p 56825895267013200), (p 56825895267013200, p 82284978137582600), (m 56825895267013200, m 82284978137582600),
  (p 97767735782451000, m 21011183688047000), (m 97767735782451000, p 21011183688047000), (p 21011183688047000, p 97767735782451000), (m 21011183688047000, m 97767735782451000),
  (p 83989379419600000, p 54275078486451600), (m 83989379419600000, m 54275078486451600), (p 54275078486451600, m 83989379419600000), (m 54275078486451600, p 83989379419600000),
  (p 99657114579055500, p 8274026454937570), (m 99657114579055500, m 8274026454937570), (p 8274026454937570, m 99657114579055500), (m 8274026454937570, p 99657114579055500),
  (p 76318841726338100, m 64617601298331600), (m 76318841726338100, p 64617601298331600), (p 64617601298331600, p 76318841726338100), (m 64617601298331600, m 76318841726338100),
  (p 95237501271976600, m 30492922973540200), (m 95237501271976600, p 30492922973540200), (p 30492922973540200, p 95237501271976600), (m 30492922973540200, m 95237501271976600),
  (p 88904835585466500, p 45781330359887700), (m 88904835585466500, m 45781330359887700), (p 45781330359887700, m 88904835585466500), (m 45781330359887700, p 88904835585466500),
  (p 99356413552059500, m 11327095217756400), (m 99356413552059500, p 11327095217756400), (p 11327095217756400, p 99356413552059500), (m 11327095217756400, m 99356413552059500),
  (p 78265059616657600, p 62246127937415000), (m 78265059616657600, m 62246127937415000), (p 62246127937415000, m 78265059616657600), (m 62246127937415000, p 78265059616657600),
  (p 96128048581132100, p 27557181931095800), (m 96128048581132100, m 27557181931095800), (p 27557181931095800, m 96128048581132100), (m 27557181931095800, p 96128048581132100),
  (p 87458665227817600, m 48486924800079100), (m 87458665227817600, p 48486924800079100), (p 48486924800079100, p 87458665227817600), (m 48486924800079100, m 87458665227817600)]

def t10_15 : List (Int × Int) := [
  (p 99943060455546200, p 3374117185137760), (m 99943060455546200, m 3374117185137760), (p 3374117185137760, m 99943060455546200), (m 3374117185137760, p 99943060455546200),
  (p 73056276922782800, m 68284554638524800), (m 73056276922782800, p 68284554638524800), (p 68284554638524800, p 73056276922782800), (m 68284554638524800, m 73056276922782800),
  (p 93626566717027800, m 35129275608556700), (m 93626566717027800, p 35129275608556700), (p 35129275608556700, p 93626566717027800), (m 35129275608556700, m 93626566717027800),
  (p 91044129225806700, p 41363831223843500), (m 91044129225806700, m 41363831223843500), (p 41363831223843500, m 91044129225806700), (m 41363831223843500, p 91044129225806700),
  (p 98680940181418500, m 16188639378011200), (m 98680940181418500, p 16188639378011200), (p 16188639378011200, p 98680940181418500), (m 16188639378011200, m 98680940181418500),
  (p 81225058658520400, p 58330865293769800), (m 81225058658520400, m 58330865293769800), (p 58330865293769800, m 81225058658520400), (m 58330865293769800, p 81225058658520400),
  (p 97364424965081200, p 22807208317088600), (m 97364424965081200, m 22807208317088600), (p 22807208317088600, m 97364424965081200), (m 22807208317088600, p 97364424965081200),
  (p 84974176800085200, m 52719913478190100), (m 84974176800085200, p 52719913478190100), (p 52719913478190100, p 84974176800085300), (m 52719913478190100, m 84974176800085300),
  (p 99792528619859600, m 6438263092985750), (m 99792528619859600, p 6438263092985750), (p 6438263092985750, p 99792528619859600), (m 6438263092985750, m 99792528619859600),
  (p 75116513190968600, p 66011434206742000), (m 75116513190968600, m 66011434206742000), (p 66011434206742000, m 75116513190968600), (m 66011434206742000, p 75116513190968600),
  (p 94660091308328400, p 32240767880107000), (m 94660091308328400, m 32240767880107000), (p 32240767880107000, m 94660091308328400), (m 32240767880107000, p 94660091308328400),
  (p 89732458070541800, m 44137126873171700), (m 89732458070541800, p 44137126873171700), (p 44137126873171700, p 89732458070541800), (m 44137126873171700, m 89732458070541800),
  (p 99131085984611500, p 13154002870288300), (m 99131085984611500, m 13154002870288300), (p 13154002870288300, m 99131085984611500), (m 13154002870288300, p 99131085984611500),
  (p 79397547755433700, m 60794978496777400), (m 79397547755433700, p 60794978496777400), (p 60794978496777400, p 79397547755433700), (m 60794978496777400, m 79397547755433700),
  (p 96619000344541300, m 25783110216215900), (m 96619000344541300, p 25783110216215900), (p 25783110216215900, p 96619000344541300), (m 25783110216215900, m 96619000344541300),
  (p 86551362409056900, p 50088538261124100), (m 86551362409056900, m 50088538261124100), (p 50088538261124100, m 86551362409056900), (m 50088538261124100, p 86551362409056900)]

def t10 : List (Int × Int) := t10_0 ++ t10_1 ++ t10_2 ++ t10_3 ++ t10_4 ++ t10_5 ++ t10_6 ++ t10_7 ++ t10_8 ++ t10_9 ++ t10_10 ++ t10_11 ++ t10_12 ++ t10_13 ++ t10_14 ++ t10_15

end Verif.FFT.Table
