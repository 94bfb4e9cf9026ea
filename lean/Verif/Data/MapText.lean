/-
The text of lib/IdnaMappingTable.txt.
Each number holds the bytes of a line without its line feed, the first byte being the least
significant.  Written by tools/gen_data.py; do not edit.
-/

namespace Idn2.Shipped

def mapText0 : List Nat := [
  0x7478742E656C626154676E697070614D616E64492023,
  0x544D472035333A34343A3331202C37302D31312D39313032203A657461442023,
  0x2E636E49202CAEC265646F63696E55203931303220A9C22023,
  0x2E73656972746E756F6320726568746F20646E61202E532E5520656874206E69202E636E49202C65646F63696E5520666F20736B72616D6564617274206465726574736967657220657261206F676F4C2065646F63696E552065687420646E612065646F63696E552023,
  0x6C6D74682E6573755F666F5F736D7265742F67726F2E65646F63696E752E7777772F2F3A7074746820656573202C65737520666F20736D72657420726F462023,
  0x23,
  0x3634232053545520726F6620676E69737365636F727065725020656C62697461706D6F4320414E44492065646F63696E552023,
  0x302E302E3331203A6E6F69737265562023,
  0x23,
  0x363472742F7374726F7065722F67726F2E65646F63696E752E7777772F2F3A7074746820656573202C656761737520646E61206E6F697461746E656D75636F6420726F462023,
  0x23,
  0x414D4D4F432E2E3E303030302D6C6F72746E6F633C2020312E31202320202020202020202020202020202020202064696C61765F334454535F6465776F6C6C61736964203B20202020433230302E2E30303030,
  0x504F5453204C4C55462E2E53554E494D2D4E45485059482020312E3120232020202020202020202020202020202020202020202020202020202020202020202064696C6176203B20202020453230302E2E44323030,
  0x535544494C4F532020312E31202320202020202020202020202020202020202064696C61765F334454535F6465776F6C6C61736964203B2020202020202020202046323030,
  0x454E494E2054494749442E2E4F52455A2054494749442020312E3120232020202020202020202020202020202020202020202020202020202020202020202064696C6176203B20202020393330302E2E30333030,
  0x5441204C41494352454D4D4F432E2E4E4F4C4F432020312E31202320202020202020202020202020202020202064696C61765F334454535F6465776F6C6C61736964203B20202020303430302E2E41333030,
  0x412052455454454C204C415449504143204E4954414C2020312E3120232020202020202020202031363030203B202020202020202020202020202020202064657070616D203B2020202020202020202031343030,
  0x422052455454454C204C415449504143204E4954414C2020312E3120232020202020202020202032363030203B202020202020202020202020202020202064657070616D203B2020202020202020202032343030,
  0x432052455454454C204C415449504143204E4954414C2020312E3120232020202020202020202033363030203B202020202020202020202020202020202064657070616D203B2020202020202020202033343030,
  0x442052455454454C204C415449504143204E4954414C2020312E3120232020202020202020202034363030203B202020202020202020202020202020202064657070616D203B2020202020202020202034343030,
  0x452052455454454C204C415449504143204E4954414C2020312E3120232020202020202020202035363030203B202020202020202020202020202020202064657070616D203B2020202020202020202035343030,
  0x462052455454454C204C415449504143204E4954414C2020312E3120232020202020202020202036363030203B202020202020202020202020202020202064657070616D203B2020202020202020202036343030,
  0x472052455454454C204C415449504143204E4954414C2020312E3120232020202020202020202037363030203B202020202020202020202020202020202064657070616D203B2020202020202020202037343030,
  0x482052455454454C204C415449504143204E4954414C2020312E3120232020202020202020202038363030203B202020202020202020202020202020202064657070616D203B2020202020202020202038343030,
  0x492052455454454C204C415449504143204E4954414C2020312E3120232020202020202020202039363030203B202020202020202020202020202020202064657070616D203B2020202020202020202039343030,
  0x4A2052455454454C204C415449504143204E4954414C2020312E3120232020202020202020202041363030203B202020202020202020202020202020202064657070616D203B2020202020202020202041343030,
  0x4B2052455454454C204C415449504143204E4954414C2020312E3120232020202020202020202042363030203B202020202020202020202020202020202064657070616D203B2020202020202020202042343030,
  0x4C2052455454454C204C415449504143204E4954414C2020312E3120232020202020202020202043363030203B202020202020202020202020202020202064657070616D203B2020202020202020202043343030,
  0x4D2052455454454C204C415449504143204E4954414C2020312E3120232020202020202020202044363030203B202020202020202020202020202020202064657070616D203B2020202020202020202044343030,
  0x4E2052455454454C204C415449504143204E4954414C2020312E3120232020202020202020202045363030203B202020202020202020202020202020202064657070616D203B2020202020202020202045343030,
  0x4F2052455454454C204C415449504143204E4954414C2020312E3120232020202020202020202046363030203B202020202020202020202020202020202064657070616D203B2020202020202020202046343030,
  0x502052455454454C204C415449504143204E4954414C2020312E3120232020202020202020202030373030203B202020202020202020202020202020202064657070616D203B2020202020202020202030353030,
  0x512052455454454C204C415449504143204E4954414C2020312E3120232020202020202020202031373030203B202020202020202020202020202020202064657070616D203B2020202020202020202031353030,
  0x522052455454454C204C415449504143204E4954414C2020312E3120232020202020202020202032373030203B202020202020202020202020202020202064657070616D203B2020202020202020202032353030,
  0x532052455454454C204C415449504143204E4954414C2020312E3120232020202020202020202033373030203B202020202020202020202020202020202064657070616D203B2020202020202020202033353030,
  0x542052455454454C204C415449504143204E4954414C2020312E3120232020202020202020202034373030203B202020202020202020202020202020202064657070616D203B2020202020202020202034353030,
  0x552052455454454C204C415449504143204E4954414C2020312E3120232020202020202020202035373030203B202020202020202020202020202020202064657070616D203B2020202020202020202035353030,
  0x562052455454454C204C415449504143204E4954414C2020312E3120232020202020202020202036373030203B202020202020202020202020202020202064657070616D203B2020202020202020202036353030,
  0x572052455454454C204C415449504143204E4954414C2020312E3120232020202020202020202037373030203B202020202020202020202020202020202064657070616D203B2020202020202020202037353030,
  0x582052455454454C204C415449504143204E4954414C2020312E3120232020202020202020202038373030203B202020202020202020202020202020202064657070616D203B2020202020202020202038353030,
  0x592052455454454C204C415449504143204E4954414C2020312E3120232020202020202020202039373030203B202020202020202020202020202020202064657070616D203B2020202020202020202039353030,
  0x5A2052455454454C204C415449504143204E4954414C2020312E3120232020202020202020202041373030203B202020202020202020202020202020202064657070616D203B2020202020202020202041353030,
  0x544E454343412045564152472E2E54454B4341524220455241555153205446454C2020312E31202320202020202020202020202020202020202064696C61765F334454535F6465776F6C6C61736964203B20202020303630302E2E42353030,
  0x5A2052455454454C204C4C414D53204E4954414C2E2E412052455454454C204C4C414D53204E4954414C2020312E3120232020202020202020202020202020202020202020202020202020202020202020202064696C6176203B20202020413730302E2E31363030,
  0x3E463730302D6C6F72746E6F633C2E2E54454B4341524220594C525543205446454C2020312E31202320202020202020202020202020202020202064696C61765F334454535F6465776F6C6C61736964203B20202020463730302E2E42373030,
  0x3E463930302D6C6F72746E6F633C2E2E3E303830302D6C6F72746E6F633C2020312E31202320202020202020202020202020202020202020202020202020202020206465776F6C6C61736964203B20202020463930302E2E30383030,
  0x4543415053204B414552422D4F4E2020312E3120232020202020202020202030323030203B2064657070616D5F334454535F6465776F6C6C61736964203B2020202020202020202030413030,
  0x4E474953204E4F49544345532E2E4B52414D204E4F4954414D414C435845204445545245564E492020312E3120232020202038564E203B2020202020203B20202020202020202020202020202020202064696C6176203B20202020374130302E2E31413030,
  0x5349534552454149442020312E3120232020202020383033302030323030203B2064657070616D5F334454535F6465776F6C6C61736964203B2020202020202020202038413030,
  0x4E47495320544847495259504F432020312E3120232020202038564E203B2020202020203B20202020202020202020202020202020202064696C6176203B2020202020202020202039413030,
  0x524F54414349444E49204C414E4944524F20454E494E494D45462020312E3120232020202020202020202031363030203B202020202020202020202020202020202064657070616D203B2020202020202020202041413030,
  0x4E47495320544F4E2E2E4B52414D204E4F495441544F555120454C474E4120454C42554F4420474E49544E494F502D5446454C2020312E3120232020202038564E203B2020202020203B20202020202020202020202020202020202064696C6176203B20202020434130302E2E42413030,
  0x4E45485059482054464F532020312E31202320202020202020202020202020202020202020202020202020202020202020206465726F6E6769203B2020202020202020202044413030,
  0x4E47495320444552455453494745522020312E3120232020202038564E203B2020202020203B20202020202020202020202020202020202064696C6176203B2020202020202020202045413030,
  0x4E4F5243414D2020312E3120232020202020343033302030323030203B2064657070616D5F334454535F6465776F6C6C61736964203B2020202020202020202046413030,
  0x4E4749532053554E494D2D53554C502E2E4E474953204545524745442020312E3120232020202038564E203B2020202020203B20202020202020202020202020202020202064696C6176203B20202020314230302E2E30423030,
  0x4F57542054504952435352455055532020312E3120232020202020202020202032333030203B202020202020202020202020202020202064657070616D203B2020202020202020202032423030,
  0x45455248542054504952435352455055532020312E3120232020202020202020202033333030203B202020202020202020202020202020202064657070616D203B2020202020202020202033423030,
  0x544E454343412045545543412020312E3120232020202020313033302030323030203B2064657070616D5F334454535F6465776F6C6C61736964203B2020202020202020202034423030,
  0x4E474953204F5243494D2020312E3120232020202020202020202043423330203B202020202020202020202020202020202064657070616D203B2020202020202020202035423030,
  0x4E47495320574F52434C49502020312E3120232020202038564E203B2020202020203B20202020202020202020202020202020202064696C6176203B2020202020202020202036423030,
  0x544F4420454C4444494D2020312E3120232020202020202020202020202020202020202020202020202020202020202020202064696C6176203B2020202020202020202037423030,
  0x414C4C494445432020312E3120232020202020373233302030323030203B2064657070616D5F334454535F6465776F6C6C61736964203B2020202020202020202038423030,
  0x454E4F2054504952435352455055532020312E3120232020202020202020202031333030203B202020202020202020202020202020202064657070616D203B2020202020202020202039423030,
  0x524F54414349444E49204C414E4944524F20454E494C554353414D2020312E3120232020202020202020202046363030203B202020202020202020202020202020202064657070616D203B2020202020202020202041423030,
  0x4B52414D204E4F495441544F555120454C474E4120454C42554F4420474E49544E494F502D54484749522020312E3120232020202038564E203B2020202020203B20202020202020202020202020202020202064696C6176203B2020202020202020202042423030,
  0x5245545241555120454E4F204E4F495443415246205241474C55562020312E3123203433303020343430322031333030203B202020202020202020202020202020202064657070616D203B2020202020202020202043423030,
  0x464C414820454E4F204E4F495443415246205241474C55562020312E3123203233303020343430322031333030203B202020202020202020202020202020202064657070616D203B2020202020202020202044423030,
  0x5352455452415551204545524854204E4F495443415246205241474C55562020312E3123203433303020343430322033333030203B202020202020202020202020202020202064657070616D203B2020202020202020202045423030,
  0x4B52414D204E4F495453455551204445545245564E492020312E3120232020202038564E203B2020202020203B20202020202020202020202020202020202064696C6176203B2020202020202020202046423030,
  0x4556415247204854495720412052455454454C204C415449504143204E4954414C2020312E3120232020202020202020202030453030203B202020202020202020202020202020202064657070616D203B2020202020202020202030433030,
  0x4554554341204854495720412052455454454C204C415449504143204E4954414C2020312E3120232020202020202020202031453030203B202020202020202020202020202020202064657070616D203B2020202020202020202031433030,
  0x58454C464D5543524943204854495720412052455454454C204C415449504143204E4954414C2020312E3120232020202020202020202032453030203B202020202020202020202020202020202064657070616D203B2020202020202020202032433030,
  0x45444C4954204854495720412052455454454C204C415449504143204E4954414C2020312E3120232020202020202020202033453030203B202020202020202020202020202020202064657070616D203B2020202020202020202033433030,
  0x534953455245414944204854495720412052455454454C204C415449504143204E4954414C2020312E3120232020202020202020202034453030203B202020202020202020202020202020202064657070616D203B2020202020202020202034433030,
  0x45564F424120474E4952204854495720412052455454454C204C415449504143204E4954414C2020312E3120232020202020202020202035453030203B202020202020202020202020202020202064657070616D203B2020202020202020202035433030,
  0x45412052455454454C204C415449504143204E4954414C2020312E3120232020202020202020202036453030203B202020202020202020202020202020202064657070616D203B2020202020202020202036433030,
  0x414C4C49444543204854495720432052455454454C204C415449504143204E4954414C2020312E3120232020202020202020202037453030203B202020202020202020202020202020202064657070616D203B2020202020202020202037433030,
  0x4556415247204854495720452052455454454C204C415449504143204E4954414C2020312E3120232020202020202020202038453030203B202020202020202020202020202020202064657070616D203B2020202020202020202038433030,
  0x4554554341204854495720452052455454454C204C415449504143204E4954414C2020312E3120232020202020202020202039453030203B202020202020202020202020202020202064657070616D203B2020202020202020202039433030,
  0x58454C464D5543524943204854495720452052455454454C204C415449504143204E4954414C2020312E3120232020202020202020202041453030203B202020202020202020202020202020202064657070616D203B2020202020202020202041433030,
  0x534953455245414944204854495720452052455454454C204C415449504143204E4954414C2020312E3120232020202020202020202042453030203B202020202020202020202020202020202064657070616D203B2020202020202020202042433030,
  0x4556415247204854495720492052455454454C204C415449504143204E4954414C2020312E3120232020202020202020202043453030203B202020202020202020202020202020202064657070616D203B2020202020202020202043433030,
  0x4554554341204854495720492052455454454C204C415449504143204E4954414C2020312E3120232020202020202020202044453030203B202020202020202020202020202020202064657070616D203B2020202020202020202044433030,
  0x58454C464D5543524943204854495720492052455454454C204C415449504143204E4954414C2020312E3120232020202020202020202045453030203B202020202020202020202020202020202064657070616D203B2020202020202020202045433030,
  0x534953455245414944204854495720492052455454454C204C415449504143204E4954414C2020312E3120232020202020202020202046453030203B202020202020202020202020202020202064657070616D203B2020202020202020202046433030,
  0x4854452052455454454C204C415449504143204E4954414C2020312E3120232020202020202020202030463030203B202020202020202020202020202020202064657070616D203B2020202020202020202030443030,
  0x45444C49542048544957204E2052455454454C204C415449504143204E4954414C2020312E3120232020202020202020202031463030203B202020202020202020202020202020202064657070616D203B2020202020202020202031443030,
  0x45564152472048544957204F2052455454454C204C415449504143204E4954414C2020312E3120232020202020202020202032463030203B202020202020202020202020202020202064657070616D203B2020202020202020202032443030,
  0x45545543412048544957204F2052455454454C204C415449504143204E4954414C2020312E3120232020202020202020202033463030203B202020202020202020202020202020202064657070616D203B2020202020202020202033443030,
  0x58454C464D55435249432048544957204F2052455454454C204C415449504143204E4954414C2020312E3120232020202020202020202034463030203B202020202020202020202020202020202064657070616D203B2020202020202020202034443030,
  0x45444C49542048544957204F2052455454454C204C415449504143204E4954414C2020312E3120232020202020202020202035463030203B202020202020202020202020202020202064657070616D203B2020202020202020202035443030,
  0x5349534552454149442048544957204F2052455454454C204C415449504143204E4954414C2020312E3120232020202020202020202036463030203B202020202020202020202020202020202064657070616D203B2020202020202020202036443030,
  0x4E474953204E4F49544143494C5049544C554D2020312E3120232020202038564E203B2020202020203B20202020202020202020202020202020202064696C6176203B2020202020202020202037443030,
  0x454B4F5254532048544957204F2052455454454C204C415449504143204E4954414C2020312E3120232020202020202020202038463030203B202020202020202020202020202020202064657070616D203B2020202020202020202038443030,
  0x4556415247204854495720552052455454454C204C415449504143204E4954414C2020312E3120232020202020202020202039463030203B202020202020202020202020202020202064657070616D203B2020202020202020202039443030,
  0x4554554341204854495720552052455454454C204C415449504143204E4954414C2020312E3120232020202020202020202041463030203B202020202020202020202020202020202064657070616D203B2020202020202020202041443030,
  0x58454C464D5543524943204854495720552052455454454C204C415449504143204E4954414C2020312E3120232020202020202020202042463030203B202020202020202020202020202020202064657070616D203B2020202020202020202042443030,
  0x534953455245414944204854495720552052455454454C204C415449504143204E4954414C2020312E3120232020202020202020202043463030203B202020202020202020202020202020202064657070616D203B2020202020202020202043443030,
  0x4554554341204854495720592052455454454C204C415449504143204E4954414C2020312E3120232020202020202020202044463030203B202020202020202020202020202020202064657070616D203B2020202020202020202044443030,
  0x4E524F48542052455454454C204C415449504143204E4954414C2020312E3120232020202020202020202045463030203B202020202020202020202020202020202064657070616D203B2020202020202020202045443030,
  0x532050524148532052455454454C204C4C414D53204E4954414C2020312E3120232020202020333730302033373030203B20202020202020202020202020206E6F69746169766564203B2020202020202020202046443030,
  0x5349534552454149442048544957204F2052455454454C204C4C414D53204E4954414C2E2E4556415247204854495720412052455454454C204C4C414D53204E4954414C2020312E3120232020202020202020202020202020202020202020202020202020202020202020202064696C6176203B20202020364630302E2E30453030,
  0x4E474953204E4F4953495649442020312E3120232020202038564E203B2020202020203B20202020202020202020202020202020202064696C6176203B2020202020202020202037463030,
  0x534953455245414944204854495720592052455454454C204C4C414D53204E4954414C2E2E454B4F5254532048544957204F2052455454454C204C4C414D53204E4954414C2020312E3120232020202020202020202020202020202020202020202020202020202020202020202064696C6176203B20202020464630302E2E38463030,
  0x4E4F5243414D204854495720412052455454454C204C415449504143204E4954414C2020312E3120232020202020202020202031303130203B202020202020202020202020202020202064657070616D203B2020202020202020202030303130,
  0x4E4F5243414D204854495720412052455454454C204C4C414D53204E4954414C2020312E3120232020202020202020202020202020202020202020202020202020202020202020202064696C6176203B2020202020202020202031303130,
  0x4556455242204854495720412052455454454C204C415449504143204E4954414C2020312E3120232020202020202020202033303130203B202020202020202020202020202020202064657070616D203B2020202020202020202032303130,
  0x4556455242204854495720412052455454454C204C4C414D53204E4954414C2020312E3120232020202020202020202020202020202020202020202020202020202020202020202064696C6176203B2020202020202020202033303130,
  0x4B454E4F474F204854495720412052455454454C204C415449504143204E4954414C2020312E3120232020202020202020202035303130203B202020202020202020202020202020202064657070616D203B2020202020202020202034303130,
  0x4B454E4F474F204854495720412052455454454C204C4C414D53204E4954414C2020312E3120232020202020202020202020202020202020202020202020202020202020202020202064696C6176203B2020202020202020202035303130,
  0x4554554341204854495720432052455454454C204C415449504143204E4954414C2020312E3120232020202020202020202037303130203B202020202020202020202020202020202064657070616D203B2020202020202020202036303130,
  0x4554554341204854495720432052455454454C204C4C414D53204E4954414C2020312E3120232020202020202020202020202020202020202020202020202020202020202020202064696C6176203B2020202020202020202037303130,
  0x58454C464D5543524943204854495720432052455454454C204C415449504143204E4954414C2020312E3120232020202020202020202039303130203B202020202020202020202020202020202064657070616D203B2020202020202020202038303130,
  0x58454C464D5543524943204854495720432052455454454C204C4C414D53204E4954414C2020312E3120232020202020202020202020202020202020202020202020202020202020202020202064696C6176203B2020202020202020202039303130,
  0x45564F424120544F44204854495720432052455454454C204C415449504143204E4954414C2020312E3120232020202020202020202042303130203B202020202020202020202020202020202064657070616D203B2020202020202020202041303130,
  0x45564F424120544F44204854495720432052455454454C204C4C414D53204E4954414C2020312E3120232020202020202020202020202020202020202020202020202020202020202020202064696C6176203B2020202020202020202042303130,
  0x4E4F524143204854495720432052455454454C204C415449504143204E4954414C2020312E3120232020202020202020202044303130203B202020202020202020202020202020202064657070616D203B2020202020202020202043303130,
  0x4E4F524143204854495720432052455454454C204C4C414D53204E4954414C2020312E3120232020202020202020202020202020202020202020202020202020202020202020202064696C6176203B2020202020202020202044303130,
  0x4E4F524143204854495720442052455454454C204C415449504143204E4954414C2020312E3120232020202020202020202046303130203B202020202020202020202020202020202064657070616D203B2020202020202020202045303130,
  0x4E4F524143204854495720442052455454454C204C4C414D53204E4954414C2020312E3120232020202020202020202020202020202020202020202020202020202020202020202064696C6176203B2020202020202020202046303130,
  0x454B4F525453204854495720442052455454454C204C415449504143204E4954414C2020312E3120232020202020202020202031313130203B202020202020202020202020202020202064657070616D203B2020202020202020202030313130,
  0x454B4F525453204854495720442052455454454C204C4C414D53204E4954414C2020312E3120232020202020202020202020202020202020202020202020202020202020202020202064696C6176203B2020202020202020202031313130,
  0x4E4F5243414D204854495720452052455454454C204C415449504143204E4954414C2020312E3120232020202020202020202033313130203B202020202020202020202020202020202064657070616D203B2020202020202020202032313130,
  0x4E4F5243414D204854495720452052455454454C204C4C414D53204E4954414C2020312E3120232020202020202020202020202020202020202020202020202020202020202020202064696C6176203B2020202020202020202033313130,
  0x4556455242204854495720452052455454454C204C415449504143204E4954414C2020312E3120232020202020202020202035313130203B202020202020202020202020202020202064657070616D203B2020202020202020202034313130,
  0x4556455242204854495720452052455454454C204C4C414D53204E4954414C2020312E3120232020202020202020202020202020202020202020202020202020202020202020202064696C6176203B2020202020202020202035313130,
  0x45564F424120544F44204854495720452052455454454C204C415449504143204E4954414C2020312E3120232020202020202020202037313130203B202020202020202020202020202020202064657070616D203B2020202020202020202036313130,
  0x45564F424120544F44204854495720452052455454454C204C4C414D53204E4954414C2020312E3120232020202020202020202020202020202020202020202020202020202020202020202064696C6176203B2020202020202020202037313130,
  0x4B454E4F474F204854495720452052455454454C204C415449504143204E4954414C2020312E3120232020202020202020202039313130203B202020202020202020202020202020202064657070616D203B2020202020202020202038313130,
  0x4B454E4F474F204854495720452052455454454C204C4C414D53204E4954414C2020312E3120232020202020202020202020202020202020202020202020202020202020202020202064696C6176203B2020202020202020202039313130,
  0x4E4F524143204854495720452052455454454C204C415449504143204E4954414C2020312E3120232020202020202020202042313130203B202020202020202020202020202020202064657070616D203B2020202020202020202041313130,
  0x4E4F524143204854495720452052455454454C204C4C414D53204E4954414C2020312E3120232020202020202020202020202020202020202020202020202020202020202020202064696C6176203B2020202020202020202042313130,
  0x58454C464D5543524943204854495720472052455454454C204C415449504143204E4954414C2020312E3120232020202020202020202044313130203B202020202020202020202020202020202064657070616D203B2020202020202020202043313130,
  0x58454C464D5543524943204854495720472052455454454C204C4C414D53204E4954414C2020312E3120232020202020202020202020202020202020202020202020202020202020202020202064696C6176203B2020202020202020202044313130,
  0x4556455242204854495720472052455454454C204C415449504143204E4954414C2020312E3120232020202020202020202046313130203B202020202020202020202020202020202064657070616D203B2020202020202020202045313130,
  0x4556455242204854495720472052455454454C204C4C414D53204E4954414C2020312E3120232020202020202020202020202020202020202020202020202020202020202020202064696C6176203B2020202020202020202046313130,
  0x45564F424120544F44204854495720472052455454454C204C415449504143204E4954414C2020312E3120232020202020202020202031323130203B202020202020202020202020202020202064657070616D203B2020202020202020202030323130,
  0x45564F424120544F44204854495720472052455454454C204C4C414D53204E4954414C2020312E3120232020202020202020202020202020202020202020202020202020202020202020202064696C6176203B2020202020202020202031323130,
  0x414C4C49444543204854495720472052455454454C204C415449504143204E4954414C2020312E3120232020202020202020202033323130203B202020202020202020202020202020202064657070616D203B2020202020202020202032323130,
  0x414C4C49444543204854495720472052455454454C204C4C414D53204E4954414C2020312E3120232020202020202020202020202020202020202020202020202020202020202020202064696C6176203B2020202020202020202033323130,
  0x58454C464D5543524943204854495720482052455454454C204C415449504143204E4954414C2020312E3120232020202020202020202035323130203B202020202020202020202020202020202064657070616D203B2020202020202020202034323130,
  0x58454C464D5543524943204854495720482052455454454C204C4C414D53204E4954414C2020312E3120232020202020202020202020202020202020202020202020202020202020202020202064696C6176203B2020202020202020202035323130,
  0x454B4F525453204854495720482052455454454C204C415449504143204E4954414C2020312E3120232020202020202020202037323130203B202020202020202020202020202020202064657070616D203B2020202020202020202036323130,
  0x454B4F525453204854495720482052455454454C204C4C414D53204E4954414C2020312E3120232020202020202020202020202020202020202020202020202020202020202020202064696C6176203B2020202020202020202037323130,
  0x45444C4954204854495720492052455454454C204C415449504143204E4954414C2020312E3120232020202020202020202039323130203B202020202020202020202020202020202064657070616D203B2020202020202020202038323130,
  0x45444C4954204854495720492052455454454C204C4C414D53204E4954414C2020312E3120232020202020202020202020202020202020202020202020202020202020202020202064696C6176203B2020202020202020202039323130,
  0x4E4F5243414D204854495720492052455454454C204C415449504143204E4954414C2020312E3120232020202020202020202042323130203B202020202020202020202020202020202064657070616D203B2020202020202020202041323130,
  0x4E4F5243414D204854495720492052455454454C204C4C414D53204E4954414C2020312E3120232020202020202020202020202020202020202020202020202020202020202020202064696C6176203B2020202020202020202042323130,
  0x4556455242204854495720492052455454454C204C415449504143204E4954414C2020312E3120232020202020202020202044323130203B202020202020202020202020202020202064657070616D203B2020202020202020202043323130,
  0x4556455242204854495720492052455454454C204C4C414D53204E4954414C2020312E3120232020202020202020202020202020202020202020202020202020202020202020202064696C6176203B2020202020202020202044323130,
  0x4B454E4F474F204854495720492052455454454C204C415449504143204E4954414C2020312E3120232020202020202020202046323130203B202020202020202020202020202020202064657070616D203B2020202020202020202045323130,
  0x4B454E4F474F204854495720492052455454454C204C4C414D53204E4954414C2020312E3120232020202020202020202020202020202020202020202020202020202020202020202064696C6176203B2020202020202020202046323130,
  0x45564F424120544F44204854495720492052455454454C204C415449504143204E4954414C2020312E3120232020202020373033302039363030203B202020202020202020202020202020202064657070616D203B2020202020202020202030333130,
  0x49205353454C544F442052455454454C204C4C414D53204E4954414C2020312E3120232020202020202020202020202020202020202020202020202020202020202020202064696C6176203B2020202020202020202031333130,
  0x4A4920455255544147494C204C4C414D53204E4954414C2E2E4A4920455255544147494C204C415449504143204E4954414C2020312E3120232020202020413630302039363030203B202020202020202020202020202020202064657070616D203B20202020333331302E2E32333130,
  0x58454C464D55435249432048544957204A2052455454454C204C415449504143204E4954414C2020312E3120232020202020202020202035333130203B202020202020202020202020202020202064657070616D203B2020202020202020202034333130,
  0x58454C464D55435249432048544957204A2052455454454C204C4C414D53204E4954414C2020312E3120232020202020202020202020202020202020202020202020202020202020202020202064696C6176203B2020202020202020202035333130,
  0x414C4C494445432048544957204B2052455454454C204C415449504143204E4954414C2020312E3120232020202020202020202037333130203B202020202020202020202020202020202064657070616D203B2020202020202020202036333130,
  0x41524B2052455454454C204C4C414D53204E4954414C2E2E414C4C494445432048544957204B2052455454454C204C4C414D53204E4954414C2020312E3120232020202020202020202020202020202020202020202020202020202020202020202064696C6176203B20202020383331302E2E37333130,
  0x45545543412048544957204C2052455454454C204C415449504143204E4954414C2020312E3120232020202020202020202041333130203B202020202020202020202020202020202064657070616D203B2020202020202020202039333130,
  0x45545543412048544957204C2052455454454C204C4C414D53204E4954414C2020312E3120232020202020202020202020202020202020202020202020202020202020202020202064696C6176203B2020202020202020202041333130,
  0x414C4C494445432048544957204C2052455454454C204C415449504143204E4954414C2020312E3120232020202020202020202043333130203B202020202020202020202020202020202064657070616D203B2020202020202020202042333130,
  0x414C4C494445432048544957204C2052455454454C204C4C414D53204E4954414C2020312E3120232020202020202020202020202020202020202020202020202020202020202020202064696C6176203B2020202020202020202043333130,
  0x4E4F5241432048544957204C2052455454454C204C415449504143204E4954414C2020312E3120232020202020202020202045333130203B202020202020202020202020202020202064657070616D203B2020202020202020202044333130,
  0x4E4F5241432048544957204C2052455454454C204C4C414D53204E4954414C2020312E3120232020202020202020202020202020202020202020202020202020202020202020202064696C6176203B2020202020202020202045333130,
  0x544F4420454C4444494D2048544957204C2052455454454C204C4C414D53204E4954414C2E2E544F4420454C4444494D2048544957204C2052455454454C204C415449504143204E4954414C2020312E3120232020202020374230302043363030203B202020202020202020202020202020202064657070616D203B20202020303431302E2E46333130,
  0x454B4F5254532048544957204C2052455454454C204C415449504143204E4954414C2020312E3120232020202020202020202032343130203B202020202020202020202020202020202064657070616D203B2020202020202020202031343130,
  0x454B4F5254532048544957204C2052455454454C204C4C414D53204E4954414C2020312E3120232020202020202020202020202020202020202020202020202020202020202020202064696C6176203B2020202020202020202032343130,
  0x45545543412048544957204E2052455454454C204C415449504143204E4954414C2020312E3120232020202020202020202034343130203B202020202020202020202020202020202064657070616D203B2020202020202020202033343130,
  0x45545543412048544957204E2052455454454C204C4C414D53204E4954414C2020312E3120232020202020202020202020202020202020202020202020202020202020202020202064696C6176203B2020202020202020202034343130,
  0x414C4C494445432048544957204E2052455454454C204C415449504143204E4954414C2020312E3120232020202020202020202036343130203B202020202020202020202020202020202064657070616D203B2020202020202020202035343130,
  0x414C4C494445432048544957204E2052455454454C204C4C414D53204E4954414C2020312E3120232020202020202020202020202020202020202020202020202020202020202020202064696C6176203B2020202020202020202036343130,
  0x4E4F5241432048544957204E2052455454454C204C415449504143204E4954414C2020312E3120232020202020202020202038343130203B202020202020202020202020202020202064657070616D203B2020202020202020202037343130,
  0x4E4F5241432048544957204E2052455454454C204C4C414D53204E4954414C2020312E3120232020202020202020202020202020202020202020202020202020202020202020202064696C6176203B2020202020202020202038343130,
  0x4548504F5254534F5041205942204445444543455250204E2052455454454C204C4C414D53204E4954414C2020312E3120232020202020453630302043423230203B202020202020202020202020202020202064657070616D203B2020202020202020202039343130,
  0x474E452052455454454C204C415449504143204E4954414C2020312E3120232020202020202020202042343130203B202020202020202020202020202020202064657070616D203B2020202020202020202041343130,
  0x474E452052455454454C204C4C414D53204E4954414C2020312E3120232020202020202020202020202020202020202020202020202020202020202020202064696C6176203B2020202020202020202042343130,
  0x4E4F5243414D2048544957204F2052455454454C204C415449504143204E4954414C2020312E3120232020202020202020202044343130203B202020202020202020202020202020202064657070616D203B2020202020202020202043343130,
  0x4E4F5243414D2048544957204F2052455454454C204C4C414D53204E4954414C2020312E3120232020202020202020202020202020202020202020202020202020202020202020202064696C6176203B2020202020202020202044343130,
  0x45564552422048544957204F2052455454454C204C415449504143204E4954414C2020312E3120232020202020202020202046343130203B202020202020202020202020202020202064657070616D203B2020202020202020202045343130,
  0x45564552422048544957204F2052455454454C204C4C414D53204E4954414C2020312E3120232020202020202020202020202020202020202020202020202020202020202020202064696C6176203B2020202020202020202046343130,
  0x455455434120454C42554F442048544957204F2052455454454C204C415449504143204E4954414C2020312E3120232020202020202020202031353130203B202020202020202020202020202020202064657070616D203B2020202020202020202030353130,
  0x455455434120454C42554F442048544957204F2052455454454C204C4C414D53204E4954414C2020312E3120232020202020202020202020202020202020202020202020202020202020202020202064696C6176203B2020202020202020202031353130,
  0x454F20455255544147494C204C415449504143204E4954414C2020312E3120232020202020202020202033353130203B202020202020202020202020202020202064657070616D203B2020202020202020202032353130,
  0x454F20455255544147494C204C4C414D53204E4954414C2020312E3120232020202020202020202020202020202020202020202020202020202020202020202064696C6176203B2020202020202020202033353130,
  0x4554554341204854495720522052455454454C204C415449504143204E4954414C2020312E3120232020202020202020202035353130203B202020202020202020202020202020202064657070616D203B2020202020202020202034353130,
  0x4554554341204854495720522052455454454C204C4C414D53204E4954414C2020312E3120232020202020202020202020202020202020202020202020202020202020202020202064696C6176203B2020202020202020202035353130,
  0x414C4C49444543204854495720522052455454454C204C415449504143204E4954414C2020312E3120232020202020202020202037353130203B202020202020202020202020202020202064657070616D203B2020202020202020202036353130,
  0x414C4C49444543204854495720522052455454454C204C4C414D53204E4954414C2020312E3120232020202020202020202020202020202020202020202020202020202020202020202064696C6176203B2020202020202020202037353130,
  0x4E4F524143204854495720522052455454454C204C415449504143204E4954414C2020312E3120232020202020202020202039353130203B202020202020202020202020202020202064657070616D203B2020202020202020202038353130,
  0x4E4F524143204854495720522052455454454C204C4C414D53204E4954414C2020312E3120232020202020202020202020202020202020202020202020202020202020202020202064696C6176203B2020202020202020202039353130,
  0x4554554341204854495720532052455454454C204C415449504143204E4954414C2020312E3120232020202020202020202042353130203B202020202020202020202020202020202064657070616D203B2020202020202020202041353130,
  0x4554554341204854495720532052455454454C204C4C414D53204E4954414C2020312E3120232020202020202020202020202020202020202020202020202020202020202020202064696C6176203B2020202020202020202042353130,
  0x58454C464D5543524943204854495720532052455454454C204C415449504143204E4954414C2020312E3120232020202020202020202044353130203B202020202020202020202020202020202064657070616D203B2020202020202020202043353130,
  0x58454C464D5543524943204854495720532052455454454C204C4C414D53204E4954414C2020312E3120232020202020202020202020202020202020202020202020202020202020202020202064696C6176203B2020202020202020202044353130,
  0x414C4C49444543204854495720532052455454454C204C415449504143204E4954414C2020312E3120232020202020202020202046353130203B202020202020202020202020202020202064657070616D203B2020202020202020202045353130,
  0x414C4C49444543204854495720532052455454454C204C4C414D53204E4954414C2020312E3120232020202020202020202020202020202020202020202020202020202020202020202064696C6176203B2020202020202020202046353130,
  0x4E4F524143204854495720532052455454454C204C415449504143204E4954414C2020312E3120232020202020202020202031363130203B202020202020202020202020202020202064657070616D203B2020202020202020202030363130,
  0x4E4F524143204854495720532052455454454C204C4C414D53204E4954414C2020312E3120232020202020202020202020202020202020202020202020202020202020202020202064696C6176203B2020202020202020202031363130,
  0x414C4C49444543204854495720542052455454454C204C415449504143204E4954414C2020312E3120232020202020202020202033363130203B202020202020202020202020202020202064657070616D203B2020202020202020202032363130,
  0x414C4C49444543204854495720542052455454454C204C4C414D53204E4954414C2020312E3120232020202020202020202020202020202020202020202020202020202020202020202064696C6176203B2020202020202020202033363130,
  0x4E4F524143204854495720542052455454454C204C415449504143204E4954414C2020312E3120232020202020202020202035363130203B202020202020202020202020202020202064657070616D203B2020202020202020202034363130,
  0x4E4F524143204854495720542052455454454C204C4C414D53204E4954414C2020312E3120232020202020202020202020202020202020202020202020202020202020202020202064696C6176203B2020202020202020202035363130,
  0x454B4F525453204854495720542052455454454C204C415449504143204E4954414C2020312E3120232020202020202020202037363130203B202020202020202020202020202020202064657070616D203B2020202020202020202036363130,
  0x454B4F525453204854495720542052455454454C204C4C414D53204E4954414C2020312E3120232020202020202020202020202020202020202020202020202020202020202020202064696C6176203B2020202020202020202037363130,
  0x45444C4954204854495720552052455454454C204C415449504143204E4954414C2020312E3120232020202020202020202039363130203B202020202020202020202020202020202064657070616D203B2020202020202020202038363130,
  0x45444C4954204854495720552052455454454C204C4C414D53204E4954414C2020312E3120232020202020202020202020202020202020202020202020202020202020202020202064696C6176203B2020202020202020202039363130,
  0x4E4F5243414D204854495720552052455454454C204C415449504143204E4954414C2020312E3120232020202020202020202042363130203B202020202020202020202020202020202064657070616D203B2020202020202020202041363130,
  0x4E4F5243414D204854495720552052455454454C204C4C414D53204E4954414C2020312E3120232020202020202020202020202020202020202020202020202020202020202020202064696C6176203B2020202020202020202042363130,
  0x4556455242204854495720552052455454454C204C415449504143204E4954414C2020312E3120232020202020202020202044363130203B202020202020202020202020202020202064657070616D203B2020202020202020202043363130,
  0x4556455242204854495720552052455454454C204C4C414D53204E4954414C2020312E3120232020202020202020202020202020202020202020202020202020202020202020202064696C6176203B2020202020202020202044363130,
  0x45564F424120474E4952204854495720552052455454454C204C415449504143204E4954414C2020312E3120232020202020202020202046363130203B202020202020202020202020202020202064657070616D203B2020202020202020202045363130,
  0x45564F424120474E4952204854495720552052455454454C204C4C414D53204E4954414C2020312E3120232020202020202020202020202020202020202020202020202020202020202020202064696C6176203B2020202020202020202046363130,
  0x455455434120454C42554F44204854495720552052455454454C204C415449504143204E4954414C2020312E3120232020202020202020202031373130203B202020202020202020202020202020202064657070616D203B2020202020202020202030373130,
  0x455455434120454C42554F44204854495720552052455454454C204C4C414D53204E4954414C2020312E3120232020202020202020202020202020202020202020202020202020202020202020202064696C6176203B2020202020202020202031373130,
  0x4B454E4F474F204854495720552052455454454C204C415449504143204E4954414C2020312E3120232020202020202020202033373130203B202020202020202020202020202020202064657070616D203B2020202020202020202032373130,
  0x4B454E4F474F204854495720552052455454454C204C4C414D53204E4954414C2020312E3120232020202020202020202020202020202020202020202020202020202020202020202064696C6176203B2020202020202020202033373130,
  0x58454C464D5543524943204854495720572052455454454C204C415449504143204E4954414C2020312E3120232020202020202020202035373130203B202020202020202020202020202020202064657070616D203B2020202020202020202034373130,
  0x58454C464D5543524943204854495720572052455454454C204C4C414D53204E4954414C2020312E3120232020202020202020202020202020202020202020202020202020202020202020202064696C6176203B2020202020202020202035373130,
  0x58454C464D5543524943204854495720592052455454454C204C415449504143204E4954414C2020312E3120232020202020202020202037373130203B202020202020202020202020202020202064657070616D203B2020202020202020202036373130,
  0x58454C464D5543524943204854495720592052455454454C204C4C414D53204E4954414C2020312E3120232020202020202020202020202020202020202020202020202020202020202020202064696C6176203B2020202020202020202037373130,
  0x534953455245414944204854495720592052455454454C204C415449504143204E4954414C2020312E3120232020202020202020202046463030203B202020202020202020202020202020202064657070616D203B2020202020202020202038373130,
  0x45545543412048544957205A2052455454454C204C415449504143204E4954414C2020312E3120232020202020202020202041373130203B202020202020202020202020202020202064657070616D203B2020202020202020202039373130,
  0x45545543412048544957205A2052455454454C204C4C414D53204E4954414C2020312E3120232020202020202020202020202020202020202020202020202020202020202020202064696C6176203B2020202020202020202041373130,
  0x45564F424120544F442048544957205A2052455454454C204C415449504143204E4954414C2020312E3120232020202020202020202043373130203B202020202020202020202020202020202064657070616D203B2020202020202020202042373130,
  0x45564F424120544F442048544957205A2052455454454C204C4C414D53204E4954414C2020312E3120232020202020202020202020202020202020202020202020202020202020202020202064696C6176203B2020202020202020202043373130,
  0x4E4F5241432048544957205A2052455454454C204C415449504143204E4954414C2020312E3120232020202020202020202045373130203B202020202020202020202020202020202064657070616D203B2020202020202020202044373130,
  0x4E4F5241432048544957205A2052455454454C204C4C414D53204E4954414C2020312E3120232020202020202020202020202020202020202020202020202020202020202020202064696C6176203B2020202020202020202045373130,
  0x5320474E4F4C2052455454454C204C4C414D53204E4954414C2020312E3120232020202020202020202033373030203B202020202020202020202020202020202064657070616D203B2020202020202020202046373130,
  0x454B4F525453204854495720422052455454454C204C4C414D53204E4954414C2020312E3120232020202020202020202020202020202020202020202020202020202020202020202064696C6176203B2020202020202020202030383130,
  0x4B4F4F48204854495720422052455454454C204C415449504143204E4954414C2020312E3120232020202020202020202033353230203B202020202020202020202020202020202064657070616D203B2020202020202020202031383130,
  0x524142504F54204854495720422052455454454C204C415449504143204E4954414C2020312E3120232020202020202020202033383130203B202020202020202020202020202020202064657070616D203B2020202020202020202032383130,
  0x524142504F54204854495720422052455454454C204C4C414D53204E4954414C2020312E3120232020202020202020202020202020202020202020202020202020202020202020202064696C6176203B2020202020202020202033383130,
  0x58495320454E4F542052455454454C204C415449504143204E4954414C2020312E3120232020202020202020202035383130203B202020202020202020202020202020202064657070616D203B2020202020202020202034383130,
  0x58495320454E4F542052455454454C204C4C414D53204E4954414C2020312E3120232020202020202020202020202020202020202020202020202020202020202020202064696C6176203B2020202020202020202035383130,
  0x4F204E45504F2052455454454C204C415449504143204E4954414C2020312E3120232020202020202020202034353230203B202020202020202020202020202020202064657070616D203B2020202020202020202036383130,
  0x4B4F4F48204854495720432052455454454C204C415449504143204E4954414C2020312E3120232020202020202020202038383130203B202020202020202020202020202020202064657070616D203B2020202020202020202037383130,
  0x4B4F4F48204854495720432052455454454C204C4C414D53204E4954414C2020312E3120232020202020202020202020202020202020202020202020202020202020202020202064696C6176203B2020202020202020202038383130,
  0x44204E4143495246412052455454454C204C415449504143204E4954414C2020312E3120232020202020202020202036353230203B202020202020202020202020202020202064657070616D203B2020202020202020202039383130,
  0x4B4F4F48204854495720442052455454454C204C415449504143204E4954414C2020312E3120232020202020202020202037353230203B202020202020202020202020202020202064657070616D203B2020202020202020202041383130,
  0x524142504F54204854495720442052455454454C204C415449504143204E4954414C2020312E3120232020202020202020202043383130203B202020202020202020202020202020202064657070616D203B2020202020202020202042383130,
  0x41544C45442044454E5255542052455454454C204C4C414D53204E4954414C2E2E524142504F54204854495720442052455454454C204C4C414D53204E4954414C2020312E3120232020202020202020202020202020202020202020202020202020202020202020202064696C6176203B20202020443831302E2E43383130,
  0x452044455352455645522052455454454C204C415449504143204E4954414C2020312E3120232020202020202020202044443130203B202020202020202020202020202020202064657070616D203B2020202020202020202045383130,
  0x41574843532052455454454C204C415449504143204E4954414C2020312E3120232020202020202020202039353230203B202020202020202020202020202020202064657070616D203B2020202020202020202046383130,
  0x45204E45504F2052455454454C204C415449504143204E4954414C2020312E3120232020202020202020202042353230203B202020202020202020202020202020202064657070616D203B2020202020202020202030393130,
  0x4B4F4F48204854495720462052455454454C204C415449504143204E4954414C2020312E3120232020202020202020202032393130203B202020202020202020202020202020202064657070616D203B2020202020202020202031393130,
  0x4B4F4F48204854495720462052455454454C204C4C414D53204E4954414C2020312E3120232020202020202020202020202020202020202020202020202020202020202020202064696C6176203B2020202020202020202032393130,
  0x4B4F4F48204854495720472052455454454C204C415449504143204E4954414C2020312E3120232020202020202020202030363230203B202020202020202020202020202020202064657070616D203B2020202020202020202033393130,
  0x414D4D41472052455454454C204C415449504143204E4954414C2020312E3120232020202020202020202033363230203B202020202020202020202020202020202064657070616D203B2020202020202020202034393130]

def mapText1 : List Nat := [
  0x56482052455454454C204C4C414D53204E4954414C2020312E3120232020202020202020202020202020202020202020202020202020202020202020202064696C6176203B2020202020202020202035393130,
  0x41544F492052455454454C204C415449504143204E4954414C2020312E3120232020202020202020202039363230203B202020202020202020202020202020202064657070616D203B2020202020202020202036393130,
  0x454B4F525453204854495720492052455454454C204C415449504143204E4954414C2020312E3120232020202020202020202038363230203B202020202020202020202020202020202064657070616D203B2020202020202020202037393130,
  0x4B4F4F482048544957204B2052455454454C204C415449504143204E4954414C2020312E3120232020202020202020202039393130203B202020202020202020202020202020202064657070616D203B2020202020202020202038393130,
  0x454B4F5254532048544957204144424D414C2052455454454C204C4C414D53204E4954414C2E2E4B4F4F482048544957204B2052455454454C204C4C414D53204E4954414C2020312E3120232020202020202020202020202020202020202020202020202020202020202020202064696C6176203B20202020423931302E2E39393130,
  0x4D2044454E5255542052455454454C204C415449504143204E4954414C2020312E3120232020202020202020202046363230203B202020202020202020202020202020202064657070616D203B2020202020202020202043393130,
  0x4B4F4F48205446454C2048544957204E2052455454454C204C415449504143204E4954414C2020312E3120232020202020202020202032373230203B202020202020202020202020202020202064657070616D203B2020202020202020202044393130,
  0x47454C20544847495220474E4F4C2048544957204E2052455454454C204C4C414D53204E4954414C2020312E3120232020202020202020202020202020202020202020202020202020202020202020202064696C6176203B2020202020202020202045393130,
  0x45444C495420454C4444494D2048544957204F2052455454454C204C415449504143204E4954414C2020312E3120232020202020202020202035373230203B202020202020202020202020202020202064657070616D203B2020202020202020202046393130,
  0x4E524F482048544957204F2052455454454C204C415449504143204E4954414C2020312E3120232020202020202020202031413130203B202020202020202020202020202020202064657070616D203B2020202020202020202030413130,
  0x4E524F482048544957204F2052455454454C204C4C414D53204E4954414C2020312E3120232020202020202020202020202020202020202020202020202020202020202020202064696C6176203B2020202020202020202031413130,
  0x494F2052455454454C204C415449504143204E4954414C2020312E3120232020202020202020202033413130203B202020202020202020202020202020202064657070616D203B2020202020202020202032413130,
  0x494F2052455454454C204C4C414D53204E4954414C2020312E3120232020202020202020202020202020202020202020202020202020202020202020202064696C6176203B2020202020202020202033413130,
  0x4B4F4F48204854495720502052455454454C204C415449504143204E4954414C2020312E3120232020202020202020202035413130203B202020202020202020202020202020202064657070616D203B2020202020202020202034413130,
  0x4B4F4F48204854495720502052455454454C204C4C414D53204E4954414C2020312E3120232020202020202020202020202020202020202020202020202020202020202020202064696C6176203B2020202020202020202035413130,
  0x52592052455454454C204E4954414C2020312E3120232020202020202020202030383230203B202020202020202020202020202020202064657070616D203B2020202020202020202036413130,
  0x4F575420454E4F542052455454454C204C415449504143204E4954414C2020312E3120232020202020202020202038413130203B202020202020202020202020202020202064657070616D203B2020202020202020202037413130,
  0x4F575420454E4F542052455454454C204C4C414D53204E4954414C2020312E3120232020202020202020202020202020202020202020202020202020202020202020202064696C6176203B2020202020202020202038413130,
  0x4853452052455454454C204C415449504143204E4954414C2020312E3120232020202020202020202033383230203B202020202020202020202020202020202064657070616D203B2020202020202020202039413130,
  0x4B4F4F48204C4154414C4150204854495720542052455454454C204C4C414D53204E4954414C2E2E504F4F4C204853452044455352455645522052455454454C204E4954414C2020312E3120232020202020202020202020202020202020202020202020202020202020202020202064696C6176203B20202020424131302E2E41413130,
  0x4B4F4F48204854495720542052455454454C204C415449504143204E4954414C2020312E3120232020202020202020202044413130203B202020202020202020202020202020202064657070616D203B2020202020202020202043413130,
  0x4B4F4F48204854495720542052455454454C204C4C414D53204E4954414C2020312E3120232020202020202020202020202020202020202020202020202020202020202020202064696C6176203B2020202020202020202044413130,
  0x4B4F4F482058454C464F52544552204854495720542052455454454C204C415449504143204E4954414C2020312E3120232020202020202020202038383230203B202020202020202020202020202020202064657070616D203B2020202020202020202045413130,
  0x4E524F48204854495720552052455454454C204C415449504143204E4954414C2020312E3120232020202020202020202030423130203B202020202020202020202020202020202064657070616D203B2020202020202020202046413130,
  0x4E524F48204854495720552052455454454C204C4C414D53204E4954414C2020312E3120232020202020202020202020202020202020202020202020202020202020202020202064696C6176203B2020202020202020202030423130,
  0x4E4F4C495350552052455454454C204C415449504143204E4954414C2020312E3120232020202020202020202041383230203B202020202020202020202020202020202064657070616D203B2020202020202020202031423130,
  0x4B4F4F48204854495720562052455454454C204C415449504143204E4954414C2020312E3120232020202020202020202042383230203B202020202020202020202020202020202064657070616D203B2020202020202020202032423130,
  0x4B4F4F48204854495720592052455454454C204C415449504143204E4954414C2020312E3120232020202020202020202034423130203B202020202020202020202020202020202064657070616D203B2020202020202020202033423130,
  0x4B4F4F48204854495720592052455454454C204C4C414D53204E4954414C2020312E3120232020202020202020202020202020202020202020202020202020202020202020202064696C6176203B2020202020202020202034423130,
  0x454B4F5254532048544957205A2052455454454C204C415449504143204E4954414C2020312E3120232020202020202020202036423130203B202020202020202020202020202020202064657070616D203B2020202020202020202035423130,
  0x454B4F5254532048544957205A2052455454454C204C4C414D53204E4954414C2020312E3120232020202020202020202020202020202020202020202020202020202020202020202064696C6176203B2020202020202020202036423130,
  0x485A452052455454454C204C415449504143204E4954414C2020312E3120232020202020202020202032393230203B202020202020202020202020202020202064657070616D203B2020202020202020202037423130,
  0x444553524556455220485A452052455454454C204C415449504143204E4954414C2020312E3120232020202020202020202039423130203B202020202020202020202020202020202064657070616D203B2020202020202020202038423130,
  0x454B4F5254532048544957204F57542052455454454C204E4954414C2E2E444553524556455220485A452052455454454C204C4C414D53204E4954414C2020312E3120232020202020202020202020202020202020202020202020202020202020202020202064696C6176203B20202020424231302E2E39423130,
  0x4556494620454E4F542052455454454C204C415449504143204E4954414C2020312E3120232020202020202020202044423130203B202020202020202020202020202020202064657070616D203B2020202020202020202043423130,
  0x4B43494C432058454C464F525445522052455454454C204E4954414C2E2E4556494620454E4F542052455454454C204C4C414D53204E4954414C2020312E3120232020202020202020202020202020202020202020202020202020202020202020202064696C6176203B20202020334331302E2E44423130,
  0x4E4F5241432048544957205A442052455454454C204C4C414D53204E4954414C2E2E4E4F5241432048544957205A442052455454454C204C415449504143204E4954414C2020312E3120232020202020453731302034363030203B202020202020202020202020202020202064657070616D203B20202020364331302E2E34433130,
  0x4A4C2052455454454C204C4C414D53204E4954414C2E2E4A4C2052455454454C204C415449504143204E4954414C2020312E3120232020202020413630302043363030203B202020202020202020202020202020202064657070616D203B20202020394331302E2E37433130,
  0x4A4E2052455454454C204C4C414D53204E4954414C2E2E4A4E2052455454454C204C415449504143204E4954414C2020312E3120232020202020413630302045363030203B202020202020202020202020202020202064657070616D203B20202020434331302E2E41433130,
  0x4E4F524143204854495720412052455454454C204C415449504143204E4954414C2020312E3120232020202020202020202045433130203B202020202020202020202020202020202064657070616D203B2020202020202020202044433130,
  0x4E4F524143204854495720412052455454454C204C4C414D53204E4954414C2020312E3120232020202020202020202020202020202020202020202020202020202020202020202064696C6176203B2020202020202020202045433130,
  0x4E4F524143204854495720492052455454454C204C415449504143204E4954414C2020312E3120232020202020202020202030443130203B202020202020202020202020202020202064657070616D203B2020202020202020202046433130,
  0x4E4F524143204854495720492052455454454C204C4C414D53204E4954414C2020312E3120232020202020202020202020202020202020202020202020202020202020202020202064696C6176203B2020202020202020202030443130,
  0x4E4F5241432048544957204F2052455454454C204C415449504143204E4954414C2020312E3120232020202020202020202032443130203B202020202020202020202020202020202064657070616D203B2020202020202020202031443130,
  0x4E4F5241432048544957204F2052455454454C204C4C414D53204E4954414C2020312E3120232020202020202020202020202020202020202020202020202020202020202020202064696C6176203B2020202020202020202032443130,
  0x4E4F524143204854495720552052455454454C204C415449504143204E4954414C2020312E3120232020202020202020202034443130203B202020202020202020202020202020202064657070616D203B2020202020202020202033443130,
  0x4E4F524143204854495720552052455454454C204C4C414D53204E4954414C2020312E3120232020202020202020202020202020202020202020202020202020202020202020202064696C6176203B2020202020202020202034443130,
  0x4E4F5243414D20444E4120534953455245414944204854495720552052455454454C204C415449504143204E4954414C2020312E3120232020202020202020202036443130203B202020202020202020202020202020202064657070616D203B2020202020202020202035443130,
  0x4E4F5243414D20444E4120534953455245414944204854495720552052455454454C204C4C414D53204E4954414C2020312E3120232020202020202020202020202020202020202020202020202020202020202020202064696C6176203B2020202020202020202036443130,
  0x455455434120444E4120534953455245414944204854495720552052455454454C204C415449504143204E4954414C2020312E3120232020202020202020202038443130203B202020202020202020202020202020202064657070616D203B2020202020202020202037443130,
  0x455455434120444E4120534953455245414944204854495720552052455454454C204C4C414D53204E4954414C2020312E3120232020202020202020202020202020202020202020202020202020202020202020202064696C6176203B2020202020202020202038443130,
  0x4E4F52414320444E4120534953455245414944204854495720552052455454454C204C415449504143204E4954414C2020312E3120232020202020202020202041443130203B202020202020202020202020202020202064657070616D203B2020202020202020202039443130,
  0x4E4F52414320444E4120534953455245414944204854495720552052455454454C204C4C414D53204E4954414C2020312E3120232020202020202020202020202020202020202020202020202020202020202020202064696C6176203B2020202020202020202041443130,
  0x455641524720444E4120534953455245414944204854495720552052455454454C204C415449504143204E4954414C2020312E3120232020202020202020202043443130203B202020202020202020202020202020202064657070616D203B2020202020202020202042443130,
  0x452044454E5255542052455454454C204C4C414D53204E4954414C2E2E455641524720444E4120534953455245414944204854495720552052455454454C204C4C414D53204E4954414C2020312E3120232020202020202020202020202020202020202020202020202020202020202020202064696C6176203B20202020444431302E2E43443130,
  0x4E4F5243414D20444E4120534953455245414944204854495720412052455454454C204C415449504143204E4954414C2020312E3120232020202020202020202046443130203B202020202020202020202020202020202064657070616D203B2020202020202020202045443130,
  0x4E4F5243414D20444E4120534953455245414944204854495720412052455454454C204C4C414D53204E4954414C2020312E3120232020202020202020202020202020202020202020202020202020202020202020202064696C6176203B2020202020202020202046443130,
  0x4E4F5243414D20444E412045564F424120544F44204854495720412052455454454C204C415449504143204E4954414C2020312E3120232020202020202020202031453130203B202020202020202020202020202020202064657070616D203B2020202020202020202030453130,
  0x4E4F5243414D20444E412045564F424120544F44204854495720412052455454454C204C4C414D53204E4954414C2020312E3120232020202020202020202020202020202020202020202020202020202020202020202064696C6176203B2020202020202020202031453130,
  0x4E4F5243414D20485449572045412052455454454C204C415449504143204E4954414C2020312E3120232020202020202020202033453130203B202020202020202020202020202020202064657070616D203B2020202020202020202032453130,
  0x4E4F5243414D20485449572045412052455454454C204C4C414D53204E4954414C2020312E3120232020202020202020202020202020202020202020202020202020202020202020202064696C6176203B2020202020202020202033453130,
  0x454B4F525453204854495720472052455454454C204C415449504143204E4954414C2020312E3120232020202020202020202035453130203B202020202020202020202020202020202064657070616D203B2020202020202020202034453130,
  0x454B4F525453204854495720472052455454454C204C4C414D53204E4954414C2020312E3120232020202020202020202020202020202020202020202020202020202020202020202064696C6176203B2020202020202020202035453130,
  0x4E4F524143204854495720472052455454454C204C415449504143204E4954414C2020312E3120232020202020202020202037453130203B202020202020202020202020202020202064657070616D203B2020202020202020202036453130,
  0x4E4F524143204854495720472052455454454C204C4C414D53204E4954414C2020312E3120232020202020202020202020202020202020202020202020202020202020202020202064696C6176203B2020202020202020202037453130,
  0x4E4F5241432048544957204B2052455454454C204C415449504143204E4954414C2020312E3120232020202020202020202039453130203B202020202020202020202020202020202064657070616D203B2020202020202020202038453130,
  0x4E4F5241432048544957204B2052455454454C204C4C414D53204E4954414C2020312E3120232020202020202020202020202020202020202020202020202020202020202020202064696C6176203B2020202020202020202039453130,
  0x4B454E4F474F2048544957204F2052455454454C204C415449504143204E4954414C2020312E3120232020202020202020202042453130203B202020202020202020202020202020202064657070616D203B2020202020202020202041453130,
  0x4B454E4F474F2048544957204F2052455454454C204C4C414D53204E4954414C2020312E3120232020202020202020202020202020202020202020202020202020202020202020202064696C6176203B2020202020202020202042453130,
  0x4E4F5243414D20444E41204B454E4F474F2048544957204F2052455454454C204C415449504143204E4954414C2020312E3120232020202020202020202044453130203B202020202020202020202020202020202064657070616D203B2020202020202020202043453130,
  0x4E4F5243414D20444E41204B454E4F474F2048544957204F2052455454454C204C4C414D53204E4954414C2020312E3120232020202020202020202020202020202020202020202020202020202020202020202064696C6176203B2020202020202020202044453130,
  0x4E4F524143204854495720485A452052455454454C204C415449504143204E4954414C2020312E3120232020202020202020202046453130203B202020202020202020202020202020202064657070616D203B2020202020202020202045453130,
  0x4E4F5241432048544957204A2052455454454C204C4C414D53204E4954414C2E2E4E4F524143204854495720485A452052455454454C204C4C414D53204E4954414C2020312E3120232020202020202020202020202020202020202020202020202020202020202020202064696C6176203B20202020304631302E2E46453130,
  0x5A442052455454454C204C4C414D53204E4954414C2E2E5A442052455454454C204C415449504143204E4954414C2020312E3120232020202020413730302034363030203B202020202020202020202020202020202064657070616D203B20202020334631302E2E31463130,
  0x4554554341204854495720472052455454454C204C415449504143204E4954414C2020312E3120232020202020202020202035463130203B202020202020202020202020202020202064657070616D203B2020202020202020202034463130,
  0x4554554341204854495720472052455454454C204C4C414D53204E4954414C2020312E3120232020202020202020202020202020202020202020202020202020202020202020202064696C6176203B2020202020202020202035463130,
  0x52494157482052455454454C204C415449504143204E4954414C2020302E3320232020202020202020202035393130203B202020202020202020202020202020202064657070616D203B2020202020202020202036463130,
  0x4E4E59572052455454454C204C415449504143204E4954414C2020302E3320232020202020202020202046423130203B202020202020202020202020202020202064657070616D203B2020202020202020202037463130,
  0x45564152472048544957204E2052455454454C204C415449504143204E4954414C2020302E3320232020202020202020202039463130203B202020202020202020202020202020202064657070616D203B2020202020202020202038463130,
  0x45564152472048544957204E2052455454454C204C4C414D53204E4954414C2020302E3320232020202020202020202020202020202020202020202020202020202020202020202064696C6176203B2020202020202020202039463130,
  0x455455434120444E412045564F424120474E4952204854495720412052455454454C204C415449504143204E4954414C2020312E3120232020202020202020202042463130203B202020202020202020202020202020202064657070616D203B2020202020202020202041463130,
  0x455455434120444E412045564F424120474E4952204854495720412052455454454C204C4C414D53204E4954414C2020312E3120232020202020202020202020202020202020202020202020202020202020202020202064696C6176203B2020202020202020202042463130,
  0x455455434120485449572045412052455454454C204C415449504143204E4954414C2020312E3120232020202020202020202044463130203B202020202020202020202020202020202064657070616D203B2020202020202020202043463130,
  0x455455434120485449572045412052455454454C204C4C414D53204E4954414C2020312E3120232020202020202020202020202020202020202020202020202020202020202020202064696C6176203B2020202020202020202044463130,
  0x455455434120444E4120454B4F5254532048544957204F2052455454454C204C415449504143204E4954414C2020312E3120232020202020202020202046463130203B202020202020202020202020202020202064657070616D203B2020202020202020202045463130,
  0x455455434120444E4120454B4F5254532048544957204F2052455454454C204C4C414D53204E4954414C2020312E3120232020202020202020202020202020202020202020202020202020202020202020202064696C6176203B2020202020202020202046463130,
  0x455641524720454C42554F44204854495720412052455454454C204C415449504143204E4954414C2020312E3120232020202020202020202031303230203B202020202020202020202020202020202064657070616D203B2020202020202020202030303230,
  0x455641524720454C42554F44204854495720412052455454454C204C4C414D53204E4954414C2020312E3120232020202020202020202020202020202020202020202020202020202020202020202064696C6176203B2020202020202020202031303230,
  0x4556455242204445545245564E49204854495720412052455454454C204C415449504143204E4954414C2020312E3120232020202020202020202033303230203B202020202020202020202020202020202064657070616D203B2020202020202020202032303230,
  0x4556455242204445545245564E49204854495720412052455454454C204C4C414D53204E4954414C2020312E3120232020202020202020202020202020202020202020202020202020202020202020202064696C6176203B2020202020202020202033303230,
  0x455641524720454C42554F44204854495720452052455454454C204C415449504143204E4954414C2020312E3120232020202020202020202035303230203B202020202020202020202020202020202064657070616D203B2020202020202020202034303230,
  0x455641524720454C42554F44204854495720452052455454454C204C4C414D53204E4954414C2020312E3120232020202020202020202020202020202020202020202020202020202020202020202064696C6176203B2020202020202020202035303230,
  0x4556455242204445545245564E49204854495720452052455454454C204C415449504143204E4954414C2020312E3120232020202020202020202037303230203B202020202020202020202020202020202064657070616D203B2020202020202020202036303230,
  0x4556455242204445545245564E49204854495720452052455454454C204C4C414D53204E4954414C2020312E3120232020202020202020202020202020202020202020202020202020202020202020202064696C6176203B2020202020202020202037303230,
  0x455641524720454C42554F44204854495720492052455454454C204C415449504143204E4954414C2020312E3120232020202020202020202039303230203B202020202020202020202020202020202064657070616D203B2020202020202020202038303230,
  0x455641524720454C42554F44204854495720492052455454454C204C4C414D53204E4954414C2020312E3120232020202020202020202020202020202020202020202020202020202020202020202064696C6176203B2020202020202020202039303230,
  0x4556455242204445545245564E49204854495720492052455454454C204C415449504143204E4954414C2020312E3120232020202020202020202042303230203B202020202020202020202020202020202064657070616D203B2020202020202020202041303230,
  0x4556455242204445545245564E49204854495720492052455454454C204C4C414D53204E4954414C2020312E3120232020202020202020202020202020202020202020202020202020202020202020202064696C6176203B2020202020202020202042303230,
  0x455641524720454C42554F442048544957204F2052455454454C204C415449504143204E4954414C2020312E3120232020202020202020202044303230203B202020202020202020202020202020202064657070616D203B2020202020202020202043303230,
  0x455641524720454C42554F442048544957204F2052455454454C204C4C414D53204E4954414C2020312E3120232020202020202020202020202020202020202020202020202020202020202020202064696C6176203B2020202020202020202044303230,
  0x4556455242204445545245564E492048544957204F2052455454454C204C415449504143204E4954414C2020312E3120232020202020202020202046303230203B202020202020202020202020202020202064657070616D203B2020202020202020202045303230,
  0x4556455242204445545245564E492048544957204F2052455454454C204C4C414D53204E4954414C2020312E3120232020202020202020202020202020202020202020202020202020202020202020202064696C6176203B2020202020202020202046303230,
  0x455641524720454C42554F44204854495720522052455454454C204C415449504143204E4954414C2020312E3120232020202020202020202031313230203B202020202020202020202020202020202064657070616D203B2020202020202020202030313230,
  0x455641524720454C42554F44204854495720522052455454454C204C4C414D53204E4954414C2020312E3120232020202020202020202020202020202020202020202020202020202020202020202064696C6176203B2020202020202020202031313230,
  0x4556455242204445545245564E49204854495720522052455454454C204C415449504143204E4954414C2020312E3120232020202020202020202033313230203B202020202020202020202020202020202064657070616D203B2020202020202020202032313230,
  0x4556455242204445545245564E49204854495720522052455454454C204C4C414D53204E4954414C2020312E3120232020202020202020202020202020202020202020202020202020202020202020202064696C6176203B2020202020202020202033313230,
  0x455641524720454C42554F44204854495720552052455454454C204C415449504143204E4954414C2020312E3120232020202020202020202035313230203B202020202020202020202020202020202064657070616D203B2020202020202020202034313230,
  0x455641524720454C42554F44204854495720552052455454454C204C4C414D53204E4954414C2020312E3120232020202020202020202020202020202020202020202020202020202020202020202064696C6176203B2020202020202020202035313230,
  0x4556455242204445545245564E49204854495720552052455454454C204C415449504143204E4954414C2020312E3120232020202020202020202037313230203B202020202020202020202020202020202064657070616D203B2020202020202020202036313230,
  0x4556455242204445545245564E49204854495720552052455454454C204C4C414D53204E4954414C2020312E3120232020202020202020202020202020202020202020202020202020202020202020202064696C6176203B2020202020202020202037313230,
  0x574F4C454220414D4D4F43204854495720532052455454454C204C415449504143204E4954414C2020302E3320232020202020202020202039313230203B202020202020202020202020202020202064657070616D203B2020202020202020202038313230,
  0x574F4C454220414D4D4F43204854495720532052455454454C204C4C414D53204E4954414C2020302E3320232020202020202020202020202020202020202020202020202020202020202020202064696C6176203B2020202020202020202039313230,
  0x574F4C454220414D4D4F43204854495720542052455454454C204C415449504143204E4954414C2020302E3320232020202020202020202042313230203B202020202020202020202020202020202064657070616D203B2020202020202020202041313230,
  0x574F4C454220414D4D4F43204854495720542052455454454C204C4C414D53204E4954414C2020302E3320232020202020202020202020202020202020202020202020202020202020202020202064696C6176203B2020202020202020202042313230,
  0x48474F592052455454454C204C415449504143204E4954414C2020302E3320232020202020202020202044313230203B202020202020202020202020202020202064657070616D203B2020202020202020202043313230,
  0x48474F592052455454454C204C4C414D53204E4954414C2020302E3320232020202020202020202020202020202020202020202020202020202020202020202064696C6176203B2020202020202020202044313230,
  0x4E4F524143204854495720482052455454454C204C415449504143204E4954414C2020302E3320232020202020202020202046313230203B202020202020202020202020202020202064657070616D203B2020202020202020202045313230,
  0x4E4F524143204854495720482052455454454C204C4C414D53204E4954414C2020302E3320232020202020202020202020202020202020202020202020202020202020202020202064696C6176203B2020202020202020202046313230,
  0x47454C20544847495220474E4F4C2048544957204E2052455454454C204C415449504143204E4954414C2020322E3320232020202020202020202045393130203B202020202020202020202020202020202064657070616D203B2020202020202020202030323230,
  0x4C525543204854495720442052455454454C204C4C414D53204E4954414C2020302E3420232020202020202020202020202020202020202020202020202020202020202020202064696C6176203B2020202020202020202031323230,
  0x554F2052455454454C204C415449504143204E4954414C2020302E3320232020202020202020202033323230203B202020202020202020202020202020202064657070616D203B2020202020202020202032323230,
  0x554F2052455454454C204C4C414D53204E4954414C2020302E3320232020202020202020202020202020202020202020202020202020202020202020202064696C6176203B2020202020202020202033323230,
  0x4B4F4F482048544957205A2052455454454C204C415449504143204E4954414C2020302E3320232020202020202020202035323230203B202020202020202020202020202020202064657070616D203B2020202020202020202034323230,
  0x4B4F4F482048544957205A2052455454454C204C4C414D53204E4954414C2020302E3320232020202020202020202020202020202020202020202020202020202020202020202064696C6176203B2020202020202020202035323230,
  0x45564F424120544F44204854495720412052455454454C204C415449504143204E4954414C2020302E3320232020202020202020202037323230203B202020202020202020202020202020202064657070616D203B2020202020202020202036323230,
  0x45564F424120544F44204854495720412052455454454C204C4C414D53204E4954414C2020302E3320232020202020202020202020202020202020202020202020202020202020202020202064696C6176203B2020202020202020202037323230,
  0x414C4C49444543204854495720452052455454454C204C415449504143204E4954414C2020302E3320232020202020202020202039323230203B202020202020202020202020202020202064657070616D203B2020202020202020202038323230,
  0x414C4C49444543204854495720452052455454454C204C4C414D53204E4954414C2020302E3320232020202020202020202020202020202020202020202020202020202020202020202064696C6176203B2020202020202020202039323230,
  0x4E4F5243414D20444E41205349534552454149442048544957204F2052455454454C204C415449504143204E4954414C2020302E3320232020202020202020202042323230203B202020202020202020202020202020202064657070616D203B2020202020202020202041323230,
  0x4E4F5243414D20444E41205349534552454149442048544957204F2052455454454C204C4C414D53204E4954414C2020302E3320232020202020202020202020202020202020202020202020202020202020202020202064696C6176203B2020202020202020202042323230,
  0x4E4F5243414D20444E412045444C49542048544957204F2052455454454C204C415449504143204E4954414C2020302E3320232020202020202020202044323230203B202020202020202020202020202020202064657070616D203B2020202020202020202043323230,
  0x4E4F5243414D20444E412045444C49542048544957204F2052455454454C204C4C414D53204E4954414C2020302E3320232020202020202020202020202020202020202020202020202020202020202020202064696C6176203B2020202020202020202044323230,
  0x45564F424120544F442048544957204F2052455454454C204C415449504143204E4954414C2020302E3320232020202020202020202046323230203B202020202020202020202020202020202064657070616D203B2020202020202020202045323230,
  0x45564F424120544F442048544957204F2052455454454C204C4C414D53204E4954414C2020302E3320232020202020202020202020202020202020202020202020202020202020202020202064696C6176203B2020202020202020202046323230,
  0x4E4F5243414D20444E412045564F424120544F442048544957204F2052455454454C204C415449504143204E4954414C2020302E3320232020202020202020202031333230203B202020202020202020202020202020202064657070616D203B2020202020202020202030333230,
  0x4E4F5243414D20444E412045564F424120544F442048544957204F2052455454454C204C4C414D53204E4954414C2020302E3320232020202020202020202020202020202020202020202020202020202020202020202064696C6176203B2020202020202020202031333230,
  0x4E4F5243414D204854495720592052455454454C204C415449504143204E4954414C2020302E3320232020202020202020202033333230203B202020202020202020202020202020202064657070616D203B2020202020202020202032333230,
  0x4E4F5243414D204854495720592052455454454C204C4C414D53204E4954414C2020302E3320232020202020202020202020202020202020202020202020202020202020202020202064696C6176203B2020202020202020202033333230,
  0x4C525543204854495720542052455454454C204C4C414D53204E4954414C2E2E4C5255432048544957204C2052455454454C204C4C414D53204E4954414C2020302E3420232020202020202020202020202020202020202020202020202020202020202020202064696C6176203B20202020363332302E2E34333230,
  0x485041524749442050512052455454454C204C4C414D53204E4954414C2E2E4A205353454C544F442052455454454C204C4C414D53204E4954414C2020312E3420232020202020202020202020202020202020202020202020202020202020202020202064696C6176203B20202020393332302E2E37333230,
  0x454B4F525453204854495720412052455454454C204C415449504143204E4954414C2020312E3420232020202020202020202035364332203B202020202020202020202020202020202064657070616D203B2020202020202020202041333230,
  0x454B4F525453204854495720432052455454454C204C415449504143204E4954414C2020312E3420232020202020202020202043333230203B202020202020202020202020202020202064657070616D203B2020202020202020202042333230,
  0x454B4F525453204854495720432052455454454C204C4C414D53204E4954414C2020312E3420232020202020202020202020202020202020202020202020202020202020202020202064696C6176203B2020202020202020202043333230,
  0x5241422048544957204C2052455454454C204C415449504143204E4954414C2020312E3420232020202020202020202041393130203B202020202020202020202020202020202064657070616D203B2020202020202020202044333230,
  0x454B4F525453204C414E4F47414944204854495720542052455454454C204C415449504143204E4954414C2020312E3420232020202020202020202036364332203B202020202020202020202020202020202064657070616D203B2020202020202020202045333230,
  0x4C4941542048534157532048544957205A2052455454454C204C4C414D53204E4954414C2E2E4C494154204853415753204854495720532052455454454C204C4C414D53204E4954414C2020312E3420232020202020202020202020202020202020202020202020202020202020202020202064696C6176203B20202020303432302E2E46333230,
  0x504F5453204C4154544F4C472052455454454C204C415449504143204E4954414C2020312E3420232020202020202020202032343230203B202020202020202020202020202020202064657070616D203B2020202020202020202031343230,
  0x504F5453204C4154544F4C472052455454454C204C4C414D53204E4954414C2020302E3520232020202020202020202020202020202020202020202020202020202020202020202064696C6176203B2020202020202020202032343230,
  0x454B4F525453204854495720422052455454454C204C415449504143204E4954414C2020302E3520232020202020202020202030383130203B202020202020202020202020202020202064657070616D203B2020202020202020202033343230,
  0x52414220552052455454454C204C415449504143204E4954414C2020302E3520232020202020202020202039383230203B202020202020202020202020202020202064657070616D203B2020202020202020202034343230,
  0x562044454E5255542052455454454C204C415449504143204E4954414C2020302E3520232020202020202020202043383230203B202020202020202020202020202020202064657070616D203B2020202020202020202035343230,
  0x454B4F525453204854495720452052455454454C204C415449504143204E4954414C2020302E3520232020202020202020202037343230203B202020202020202020202020202020202064657070616D203B2020202020202020202036343230,
  0x454B4F525453204854495720452052455454454C204C4C414D53204E4954414C2020302E3520232020202020202020202020202020202020202020202020202020202020202020202064696C6176203B2020202020202020202037343230,
  0x454B4F5254532048544957204A2052455454454C204C415449504143204E4954414C2020302E3520232020202020202020202039343230203B202020202020202020202020202020202064657070616D203B2020202020202020202038343230,
  0x454B4F5254532048544957204A2052455454454C204C4C414D53204E4954414C2020302E3520232020202020202020202020202020202020202020202020202020202020202020202064696C6176203B2020202020202020202039343230,
  0x4C494154204B4F4F4820485449572051204C4C414D532052455454454C204C415449504143204E4954414C2020302E3520232020202020202020202042343230203B202020202020202020202020202020202064657070616D203B2020202020202020202041343230,
  0x4C494154204B4F4F48204854495720512052455454454C204C4C414D53204E4954414C2020302E3520232020202020202020202020202020202020202020202020202020202020202020202064696C6176203B2020202020202020202042343230,
  0x454B4F525453204854495720522052455454454C204C415449504143204E4954414C2020302E3520232020202020202020202044343230203B202020202020202020202020202020202064657070616D203B2020202020202020202043343230,
  0x454B4F525453204854495720522052455454454C204C4C414D53204E4954414C2020302E3520232020202020202020202020202020202020202020202020202020202020202020202064696C6176203B2020202020202020202044343230,
  0x454B4F525453204854495720592052455454454C204C415449504143204E4954414C2020302E3520232020202020202020202046343230203B202020202020202020202020202020202064657070616D203B2020202020202020202045343230,
  0x454B4F525453204854495720592052455454454C204C4C414D53204E4954414C2020302E3520232020202020202020202020202020202020202020202020202020202020202020202064696C6176203B2020202020202020202046343230,
  0x4C525543204854495720485041524749442043542052455454454C204C4C414D53204E4954414C2E2E412044454E5255542052455454454C204C4C414D53204E4954414C2020312E3120232020202020202020202020202020202020202020202020202020202020202020202064696C6176203B20202020384132302E2E30353230,
  0x45564953535543524550204C41544E454449422052455454454C204E4954414C2E2E4850415247494420474E45462052455454454C204C4C414D53204E4954414C2020302E3320232020202020202020202020202020202020202020202020202020202020202020202064696C6176203B20202020444132302E2E39413230,
  0x4C49415420444E41204B4F4F4848534946204854495720482044454E5255542052455454454C204C4C414D53204E4954414C2E2E4B4F4F4848534946204854495720482044454E5255542052455454454C204C4C414D53204E4954414C2020302E3420232020202020202020202020202020202020202020202020202020202020202020202064696C6176203B20202020464132302E2E45413230,
  0x48204C4C414D532052455454454C205245494649444F4D2020312E3120232020202020202020202038363030203B202020202020202020202020202020202064657070616D203B2020202020202020202030423230,
  0x4B4F4F4820485449572048204C4C414D532052455454454C205245494649444F4D2020312E3120232020202020202020202036363230203B202020202020202020202020202020202064657070616D203B2020202020202020202031423230,
  0x4A204C4C414D532052455454454C205245494649444F4D2020312E3120232020202020202020202041363030203B202020202020202020202020202020202064657070616D203B2020202020202020202032423230,
  0x52204C4C414D532052455454454C205245494649444F4D2020312E3120232020202020202020202032373030203B202020202020202020202020202020202064657070616D203B2020202020202020202033423230,
  0x522044454E525554204C4C414D532052455454454C205245494649444F4D2020312E3120232020202020202020202039373230203B202020202020202020202020202020202064657070616D203B2020202020202020202034423230,
  0x4B4F4F48204854495720522044454E525554204C4C414D532052455454454C205245494649444F4D2020312E3120232020202020202020202042373230203B202020202020202020202020202020202064657070616D203B2020202020202020202035423230,
  0x52204445545245564E49204C415449504143204C4C414D532052455454454C205245494649444F4D2020312E3120232020202020202020202031383230203B202020202020202020202020202020202064657070616D203B2020202020202020202036423230,
  0x57204C4C414D532052455454454C205245494649444F4D2020312E3120232020202020202020202037373030203B202020202020202020202020202020202064657070616D203B2020202020202020202037423230,
  0x59204C4C414D532052455454454C205245494649444F4D2020312E3120232020202020202020202039373030203B202020202020202020202020202020202064657070616D203B2020202020202020202038423230,
  0x504F5453204C4154544F4C472044455352455645522052455454454C205245494649444F4D2E2E454D4952502052455454454C205245494649444F4D2020312E3120232020202020202020202020202020202020202020202020202020202020202020202064696C6176203B20202020314332302E2E39423230,
  0x44414548574F525241204E574F442052455454454C205245494649444F4D2E2E44414548574F525241205446454C2052455454454C205245494649444F4D2020312E3120232020202038564E203B2020202020203B20202020202020202020202020202020202064696C6176203B20202020354332302E2E32433230,
  0x4E4F4C4F432052414C55474E4149525420464C41482052455454454C205245494649444F4D2E2E544E454343412058454C464D55435249432052455454454C205245494649444F4D2020312E3120232020202020202020202020202020202020202020202020202020202020202020202064696C6176203B20202020314432302E2E36433230,
  0x4E4749532053554E494D2052455454454C205245494649444F4D2E2E474E495220464C414820544847495220444552544E45432052455454454C205245494649444F4D2020312E3120232020202038564E203B2020202020203B20202020202020202020202020202020202064696C6176203B20202020374432302E2E32443230,
  0x45564552422020312E3120232020202020363033302030323030203B2064657070616D5F334454535F6465776F6C6C61736964203B2020202020202020202038443230,
  0x45564F424120544F442020312E3120232020202020373033302030323030203B2064657070616D5F334454535F6465776F6C6C61736964203B2020202020202020202039443230,
  0x45564F424120474E49522020312E3120232020202020413033302030323030203B2064657070616D5F334454535F6465776F6C6C61736964203B2020202020202020202041443230,
  0x4B454E4F474F2020312E3120232020202020383233302030323030203B2064657070616D5F334454535F6465776F6C6C61736964203B2020202020202020202042443230,
  0x45444C4954204C4C414D532020312E3120232020202020333033302030323030203B2064657070616D5F334454535F6465776F6C6C61736964203B2020202020202020202043443230,
  0x544E4543434120455455434120454C42554F442020312E3120232020202020423033302030323030203B2064657070616D5F334454535F6465776F6C6C61736964203B2020202020202020202044443230,
  0x4B4F4F48204349544F48522052455454454C205245494649444F4D2020312E3120232020202038564E203B2020202020203B20202020202020202020202020202020202064696C6176203B2020202020202020202045443230,
  0x544E454343412053534F52432052455454454C205245494649444F4D2020302E3320232020202038564E203B2020202020203B20202020202020202020202020202020202064696C6176203B2020202020202020202046443230,
  0x414D4D4147204C4C414D532052455454454C205245494649444F4D2020312E3120232020202020202020202033363230203B202020202020202020202020202020202064657070616D203B2020202020202020202030453230,
  0x4C204C4C414D532052455454454C205245494649444F4D2020312E3120232020202020202020202043363030203B202020202020202020202020202020202064657070616D203B2020202020202020202031453230,
  0x53204C4C414D532052455454454C205245494649444F4D2020312E3120232020202020202020202033373030203B202020202020202020202020202020202064657070616D203B2020202020202020202032453230,
  0x58204C4C414D532052455454454C205245494649444F4D2020312E3120232020202020202020202038373030203B202020202020202020202020202020202064657070616D203B2020202020202020202033453230,
  0x504F5453204C4154544F4C47204445535245564552204C4C414D532052455454454C205245494649444F4D2020312E3120232020202020202020202035393230203B202020202020202020202020202020202064657070616D203B2020202020202020202034453230,
  0x52414220454E4F5420574F4C2D41525458452052455454454C205245494649444F4D2E2E52414220454E4F5420484749482D41525458452052455454454C205245494649444F4D2020312E3120232020202038564E203B2020202020203B20202020202020202020202020202020202064696C6176203B20202020394532302E2E35453230,
  0x4B52414D20454E4F5420474E4954524150454420474E41592052455454454C205245494649444F4D2E2E4B52414D20454E4F5420474E49545241504544204E49592052455454454C205245494649444F4D2020302E3320232020202038564E203B2020202020203B20202020202020202020202020202020202064696C6176203B20202020424532302E2E41453230,
  0x474E4943494F562052455454454C205245494649444F4D2020302E3320232020202020202020202020202020202020202020202020202020202020202020202064696C6176203B2020202020202020202043453230,
  0x4445544152495053414E552052455454454C205245494649444F4D2020302E3320232020202038564E203B2020202020203B20202020202020202020202020202020202064696C6176203B2020202020202020202044453230,
  0x4548504F5254534F504120454C42554F442052455454454C205245494649444F4D2020302E3320232020202020202020202020202020202020202020202020202020202020202020202064696C6176203B2020202020202020202045453230,
  0x574F525241205446454C20574F4C2052455454454C205245494649444F4D2E2E44414548574F525241204E574F4420574F4C2052455454454C205245494649444F4D2020302E3420232020202038564E203B2020202020203B20202020202020202020202020202020202064696C6176203B20202020464632302E2E46453230,
  0x454E494C5245564F20454C42554F4420474E494E49424D4F432E2E544E4543434120455641524720474E494E49424D4F432020312E3120232020202020202020202020202020202020202020202020202020202020202020202064696C6176203B20202020463333302E2E30303330,
  0x4B52414D20454E4F5420455641524720474E494E49424D4F432020312E3120232020202020202020202030303330203B202020202020202020202020202020202064657070616D203B2020202020202020202030343330,
  0x4B52414D20454E4F5420455455434120474E494E49424D4F432020312E3120232020202020202020202031303330203B202020202020202020202020202020202064657070616D203B2020202020202020202031343330,
  0x494E454D4F505349524550204B4545524720474E494E49424D4F432020312E3120232020202020202020202020202020202020202020202020202020202020202020202064696C6176203B2020202020202020202032343330,
  0x53494E4F524F4B204B4545524720474E494E49424D4F432020312E3120232020202020202020202033313330203B202020202020202020202020202020202064657070616D203B2020202020202020202033343330,
  0x534F4E4F5420414B4954594C414944204B4545524720474E494E49424D4F432020312E3120232020202020313033302038303330203B202020202020202020202020202020202064657070616D203B2020202020202020202034343330,
  0x494E454D4D41524745474F5059204B4545524720474E494E49424D4F432020312E3120232020202020202020202039423330203B202020202020202020202020202020202064657070616D203B2020202020202020202035343330,
  0x574F4C454220574F525241205344524157505520474E494E49424D4F432E2E45564F42412045474449524220474E494E49424D4F432020302E3320232020202020202020202020202020202020202020202020202020202020202020202064696C6176203B20202020453433302E2E36343330,
  0x52454E494F4A20454D45485041524720474E494E49424D4F432020322E33202320202020202020202020202020202020202020202020202020202020202020206465726F6E6769203B2020202020202020202046343330,
  0x45564F424120474E495220464C414820544847495220474E494E49424D4F432E2E45564F42412044414548574F52524120544847495220474E494E49424D4F432020302E3420232020202020202020202020202020202020202020202020202020202020202020202064696C6176203B20202020373533302E2E30353330,
  0x574F4C454220455645524220454C42554F4420474E494E49424D4F432E2E54484749522045564F424120544F4420474E494E49424D4F432020312E3420232020202020202020202020202020202020202020202020202020202020202020202064696C6176203B20202020433533302E2E38353330,
  0x574F4C4542204E4F5243414D20454C42554F4420474E494E49424D4F432E2E455645524220454C42554F4420474E494E49424D4F432020302E3420232020202020202020202020202020202020202020202020202020202020202020202064696C6176203B20202020463533302E2E44353330,
  0x4556455242204445545245564E4920454C42554F4420474E494E49424D4F432E2E45444C495420454C42554F4420474E494E49424D4F432020312E3120232020202020202020202020202020202020202020202020202020202020202020202064696C6176203B20202020313633302E2E30363330,
  0x574F4C454220574F525241205344524157544847495220454C42554F4420474E494E49424D4F432020302E3320232020202020202020202020202020202020202020202020202020202020202020202064696C6176203B2020202020202020202032363330,
  0x582052455454454C204C4C414D53204E4954414C20474E494E49424D4F432E2E412052455454454C204C4C414D53204E4954414C20474E494E49424D4F432020322E3320232020202020202020202020202020202020202020202020202020202020202020202064696C6176203B20202020463633302E2E33363330,
  0x415445482052455454454C204C415449504143204B454552472020312E3520232020202020202020202031373330203B202020202020202020202020202020202064657070616D203B2020202020202020202030373330,
  0x415445482052455454454C204C4C414D53204B454552472020312E3520232020202020202020202020202020202020202020202020202020202020202020202064696C6176203B2020202020202020202031373330,
  0x49504D415320434941484352412052455454454C204C415449504143204B454552472020312E3520232020202020202020202033373330203B202020202020202020202020202020202064657070616D203B2020202020202020202032373330,
  0x49504D415320434941484352412052455454454C204C4C414D53204B454552472020312E3520232020202020202020202020202020202020202020202020202020202020202020202064696C6176203B2020202020202020202033373330,
  0x4E474953204C4152454D554E204B454552472020312E3120232020202020202020202039423230203B202020202020202020202020202020202064657070616D203B2020202020202020202034373330,
  0x4E474953204C4152454D554E205245574F4C204B454552472020312E3120232020202020202020202020202020202020202020202020202020202020202020202064696C6176203B2020202020202020202035373330,
  0x414D4D41474944204E41494C5948504D41502052455454454C204C415449504143204B454552472020312E3520232020202020202020202037373330203B202020202020202020202020202020202064657070616D203B2020202020202020202036373330,
  0x414D4D41474944204E41494C5948504D41502052455454454C204C4C414D53204B454552472020312E3520232020202020202020202020202020202020202020202020202020202020202020202064696C6176203B2020202020202020202037373330,
  0x3E393733302D64657672657365723C2E2E3E383733302D64657672657365723C202020414E202320202020202020202020202020202020202020202020202020202020206465776F6C6C61736964203B20202020393733302E2E38373330,
  0x494E454D4D41524745474F5059204B454552472020312E3120232020202020394233302030323030203B2064657070616D5F334454535F6465776F6C6C61736964203B2020202020202020202041373330,
  0x4C4F424D595320414D474953204554414E554C20444554544F44204445535245564552204C4C414D53204B454552472E2E4C4F424D595320414D474953204554414E554C204445535245564552204C4C414D53204B454552472020302E3520232020202020202020202020202020202020202020202020202020202020202020202064696C6176203B20202020443733302E2E42373330,
  0x4B52414D204E4F495453455551204B454552472020312E3120232020202020202020202042333030203B2064657070616D5F334454535F6465776F6C6C61736964203B2020202020202020202045373330,
  0x544F592052455454454C204C415449504143204B454552472020302E3720232020202020202020202033463330203B202020202020202020202020202020202064657070616D203B2020202020202020202046373330,
  0x3E333833302D64657672657365723C2E2E3E303833302D64657672657365723C202020414E202320202020202020202020202020202020202020202020202020202020206465776F6C6C61736964203B20202020333833302E2E30383330,
  0x534F4E4F54204B454552472020312E3120232020202020313033302030323030203B2064657070616D5F334454535F6465776F6C6C61736964203B2020202020202020202034383330,
  0x534F4E4F5420414B4954594C414944204B454552472020312E3123203130333020383033302030323030203B2064657070616D5F334454535F6465776F6C6C61736964203B2020202020202020202035383330,
  0x534F4E4F542048544957204148504C412052455454454C204C415449504143204B454552472020312E3120232020202020202020202043413330203B202020202020202020202020202020202064657070616D203B2020202020202020202036383330,
  0x4149454C4554204F4E41204B454552472020312E3120232020202020202020202037423030203B202020202020202020202020202020202064657070616D203B2020202020202020202037383330,
  0x534F4E4F542048544957204E4F4C495350452052455454454C204C415449504143204B454552472020312E3120232020202020202020202044413330203B202020202020202020202020202020202064657070616D203B2020202020202020202038383330,
  0x534F4E4F542048544957204154452052455454454C204C415449504143204B454552472020312E3120232020202020202020202045413330203B202020202020202020202020202020202064657070616D203B2020202020202020202039383330,
  0x534F4E4F5420485449572041544F492052455454454C204C415449504143204B454552472020312E3120232020202020202020202046413330203B202020202020202020202020202020202064657070616D203B2020202020202020202041383330,
  0x3E423833302D64657672657365723C202020414E202320202020202020202020202020202020202020202020202020202020206465776F6C6C61736964203B2020202020202020202042383330,
  0x534F4E4F542048544957204E4F5243494D4F2052455454454C204C415449504143204B454552472020312E3120232020202020202020202043433330203B202020202020202020202020202020202064657070616D203B2020202020202020202043383330,
  0x3E443833302D64657672657365723C202020414E202320202020202020202020202020202020202020202020202020202020206465776F6C6C61736964203B2020202020202020202044383330,
  0x534F4E4F542048544957204E4F4C495350552052455454454C204C415449504143204B454552472020312E3120232020202020202020202044433330203B202020202020202020202020202020202064657070616D203B2020202020202020202045383330,
  0x534F4E4F542048544957204147454D4F2052455454454C204C415449504143204B454552472020312E3120232020202020202020202045433330203B202020202020202020202020202020202064657070616D203B2020202020202020202046383330,
  0x534F4E4F5420444E4120414B4954594C41494420485449572041544F492052455454454C204C4C414D53204B454552472020312E3120232020202020202020202020202020202020202020202020202020202020202020202064696C6176203B2020202020202020202030393330,
  0x4148504C412052455454454C204C415449504143204B454552472020312E3120232020202020202020202031423330203B202020202020202020202020202020202064657070616D203B2020202020202020202031393330,
  0x415445422052455454454C204C415449504143204B454552472020312E3120232020202020202020202032423330203B202020202020202020202020202020202064657070616D203B2020202020202020202032393330,
  0x414D4D41472052455454454C204C415449504143204B454552472020312E3120232020202020202020202033423330203B202020202020202020202020202020202064657070616D203B2020202020202020202033393330,
  0x41544C45442052455454454C204C415449504143204B454552472020312E3120232020202020202020202034423330203B202020202020202020202020202020202064657070616D203B2020202020202020202034393330,
  0x4E4F4C495350452052455454454C204C415449504143204B454552472020312E3120232020202020202020202035423330203B202020202020202020202020202020202064657070616D203B2020202020202020202035393330,
  0x4154455A2052455454454C204C415449504143204B454552472020312E3120232020202020202020202036423330203B202020202020202020202020202020202064657070616D203B2020202020202020202036393330,
  0x4154452052455454454C204C415449504143204B454552472020312E3120232020202020202020202037423330203B202020202020202020202020202020202064657070616D203B2020202020202020202037393330,
  0x41544548542052455454454C204C415449504143204B454552472020312E3120232020202020202020202038423330203B202020202020202020202020202020202064657070616D203B2020202020202020202038393330,
  0x41544F492052455454454C204C415449504143204B454552472020312E3120232020202020202020202039423330203B202020202020202020202020202020202064657070616D203B2020202020202020202039393330,
  0x415050414B2052455454454C204C415449504143204B454552472020312E3120232020202020202020202041423330203B202020202020202020202020202020202064657070616D203B2020202020202020202041393330,
  0x41444D414C2052455454454C204C415449504143204B454552472020312E3120232020202020202020202042423330203B202020202020202020202020202020202064657070616D203B2020202020202020202042393330,
  0x554D2052455454454C204C415449504143204B454552472020312E3120232020202020202020202043423330203B202020202020202020202020202020202064657070616D203B2020202020202020202043393330]

def mapText2 : List Nat := [
  0x554E2052455454454C204C415449504143204B454552472020312E3120232020202020202020202044423330203B202020202020202020202020202020202064657070616D203B2020202020202020202044393330,
  0x49582052455454454C204C415449504143204B454552472020312E3120232020202020202020202045423330203B202020202020202020202020202020202064657070616D203B2020202020202020202045393330,
  0x4E4F5243494D4F2052455454454C204C415449504143204B454552472020312E3120232020202020202020202046423330203B202020202020202020202020202020202064657070616D203B2020202020202020202046393330,
  0x49502052455454454C204C415449504143204B454552472020312E3120232020202020202020202030433330203B202020202020202020202020202020202064657070616D203B2020202020202020202030413330,
  0x4F48522052455454454C204C415449504143204B454552472020312E3120232020202020202020202031433330203B202020202020202020202020202020202064657070616D203B2020202020202020202031413330,
  0x3E324133302D64657672657365723C202020414E202320202020202020202020202020202020202020202020202020202020206465776F6C6C61736964203B2020202020202020202032413330,
  0x414D4749532052455454454C204C415449504143204B454552472020312E3120232020202020202020202033433330203B202020202020202020202020202020202064657070616D203B2020202020202020202033413330,
  0x5541542052455454454C204C415449504143204B454552472020312E3120232020202020202020202034433330203B202020202020202020202020202020202064657070616D203B2020202020202020202034413330,
  0x4E4F4C495350552052455454454C204C415449504143204B454552472020312E3120232020202020202020202035433330203B202020202020202020202020202020202064657070616D203B2020202020202020202035413330,
  0x4948502052455454454C204C415449504143204B454552472020312E3120232020202020202020202036433330203B202020202020202020202020202020202064657070616D203B2020202020202020202036413330,
  0x4948432052455454454C204C415449504143204B454552472020312E3120232020202020202020202037433330203B202020202020202020202020202020202064657070616D203B2020202020202020202037413330,
  0x4953502052455454454C204C415449504143204B454552472020312E3120232020202020202020202038433330203B202020202020202020202020202020202064657070616D203B2020202020202020202038413330,
  0x4147454D4F2052455454454C204C415449504143204B454552472020312E3120232020202020202020202039433330203B202020202020202020202020202020202064657070616D203B2020202020202020202039413330,
  0x414B4954594C41494420485449572041544F492052455454454C204C415449504143204B454552472020312E3120232020202020202020202041433330203B202020202020202020202020202020202064657070616D203B2020202020202020202041413330,
  0x414B4954594C4149442048544957204E4F4C495350552052455454454C204C415449504143204B454552472020312E3120232020202020202020202042433330203B202020202020202020202020202020202064657070616D203B2020202020202020202042413330,
  0x4F48522052455454454C204C4C414D53204B454552472E2E534F4E4F542048544957204148504C412052455454454C204C4C414D53204B454552472020312E3120232020202020202020202020202020202020202020202020202020202020202020202064696C6176203B20202020314333302E2E43413330,
  0x414D474953204C414E49462052455454454C204C4C414D53204B454552472020312E3120232020202020202020202033433330203B20202020202020202020202020206E6F69746169766564203B2020202020202020202032433330,
  0x534F4E4F542048544957204147454D4F2052455454454C204C4C414D53204B454552472E2E414D4749532052455454454C204C4C414D53204B454552472020312E3120232020202020202020202020202020202020202020202020202020202020202020202064696C6176203B20202020454333302E2E33433330,
  0x4C4F424D59532049414B204C415449504143204B454552472020312E3520232020202020202020202037443330203B202020202020202020202020202020202064657070616D203B2020202020202020202046433330,
  0x4C4F424D59532041544542204B454552472020312E3120232020202020202020202032423330203B202020202020202020202020202020202064657070616D203B2020202020202020202030443330,
  0x4C4F424D5953204154454854204B454552472020312E3120232020202020202020202038423330203B202020202020202020202020202020202064657070616D203B2020202020202020202031443330,
  0x4C4F424D5953204B4F4F482048544957204E4F4C49535055204B454552472020312E3120232020202020202020202035433330203B202020202020202020202020202020202064657070616D203B2020202020202020202032443330,
  0x4C4F424D5953204B4F4F4820444E412045545543412048544957204E4F4C49535055204B454552472020312E3120232020202020202020202044433330203B202020202020202020202020202020202064657070616D203B2020202020202020202033443330,
  0x4C4F424D5953204B4F4F4820444E41205349534552454149442048544957204E4F4C49535055204B454552472020312E3120232020202020202020202042433330203B202020202020202020202020202020202064657070616D203B2020202020202020202034443330,
  0x4C4F424D595320494850204B454552472020312E3120232020202020202020202036433330203B202020202020202020202020202020202064657070616D203B2020202020202020202035443330,
  0x4C4F424D5953204950204B454552472020312E3120232020202020202020202030433330203B202020202020202020202020202020202064657070616D203B2020202020202020202036443330,
  0x4C4F424D59532049414B204B454552472020302E3320232020202020202020202020202020202020202020202020202020202020202020202064696C6176203B2020202020202020202037443330,
  0x4150504F4B20434941484352412052455454454C204B454552472020322E3320232020202020202020202039443330203B202020202020202020202020202020202064657070616D203B2020202020202020202038443330,
  0x4150504F4B20434941484352412052455454454C204C4C414D53204B454552472020322E3320232020202020202020202020202020202020202020202020202020202020202020202064696C6176203B2020202020202020202039443330,
  0x414D474954532052455454454C204B454552472020312E3120232020202020202020202042443330203B202020202020202020202020202020202064657070616D203B2020202020202020202041443330,
  0x414D474954532052455454454C204C4C414D53204B454552472020302E3320232020202020202020202020202020202020202020202020202020202020202020202064696C6176203B2020202020202020202042443330,
  0x414D4D414749442052455454454C204B454552472020312E3120232020202020202020202044443330203B202020202020202020202020202020202064657070616D203B2020202020202020202043443330,
  0x414D4D414749442052455454454C204C4C414D53204B454552472020302E3320232020202020202020202020202020202020202020202020202020202020202020202064696C6176203B2020202020202020202044443330,
  0x4150504F4B2052455454454C204B454552472020312E3120232020202020202020202046443330203B202020202020202020202020202020202064657070616D203B2020202020202020202045443330,
  0x4150504F4B2052455454454C204C4C414D53204B454552472020302E3320232020202020202020202020202020202020202020202020202020202020202020202064696C6176203B2020202020202020202046443330,
  0x49504D41532052455454454C204B454552472020312E3120232020202020202020202031453330203B202020202020202020202020202020202064657070616D203B2020202020202020202030453330,
  0x49504D41532052455454454C204C4C414D53204B454552472020302E3320232020202020202020202020202020202020202020202020202020202020202020202064696C6176203B2020202020202020202031453330,
  0x494548532052455454454C204C41544950414320434954504F432020312E3120232020202020202020202033453330203B202020202020202020202020202020202064657070616D203B2020202020202020202032453330,
  0x494548532052455454454C204C4C414D5320434954504F432020312E3120232020202020202020202020202020202020202020202020202020202020202020202064696C6176203B2020202020202020202033453330,
  0x4945462052455454454C204C41544950414320434954504F432020312E3120232020202020202020202035453330203B202020202020202020202020202020202064657070616D203B2020202020202020202034453330,
  0x4945462052455454454C204C4C414D5320434954504F432020312E3120232020202020202020202020202020202020202020202020202020202020202020202064696C6176203B2020202020202020202035453330,
  0x4945484B2052455454454C204C41544950414320434954504F432020312E3120232020202020202020202037453330203B202020202020202020202020202020202064657070616D203B2020202020202020202036453330,
  0x4945484B2052455454454C204C4C414D5320434954504F432020312E3120232020202020202020202020202020202020202020202020202020202020202020202064696C6176203B2020202020202020202037453330,
  0x49524F482052455454454C204C41544950414320434954504F432020312E3120232020202020202020202039453330203B202020202020202020202020202020202064657070616D203B2020202020202020202038453330,
  0x49524F482052455454454C204C4C414D5320434954504F432020312E3120232020202020202020202020202020202020202020202020202020202020202020202064696C6176203B2020202020202020202039453330,
  0x4149474E41472052455454454C204C41544950414320434954504F432020312E3120232020202020202020202042453330203B202020202020202020202020202020202064657070616D203B2020202020202020202041453330,
  0x4149474E41472052455454454C204C4C414D5320434954504F432020312E3120232020202020202020202020202020202020202020202020202020202020202020202064696C6176203B2020202020202020202042453330,
  0x414D4948532052455454454C204C41544950414320434954504F432020312E3120232020202020202020202044453330203B202020202020202020202020202020202064657070616D203B2020202020202020202043453330,
  0x414D4948532052455454454C204C4C414D5320434954504F432020312E3120232020202020202020202020202020202020202020202020202020202020202020202064696C6176203B2020202020202020202044453330,
  0x4945442052455454454C204C41544950414320434954504F432020312E3120232020202020202020202046453330203B202020202020202020202020202020202064657070616D203B2020202020202020202045453330,
  0x4945442052455454454C204C4C414D5320434954504F432020312E3120232020202020202020202020202020202020202020202020202020202020202020202064696C6176203B2020202020202020202046453330,
  0x4C4F424D595320415050414B204B454552472020312E3120232020202020202020202041423330203B202020202020202020202020202020202064657070616D203B2020202020202020202030463330,
  0x4C4F424D5953204F4852204B454552472020312E3120232020202020202020202031433330203B202020202020202020202020202020202064657070616D203B2020202020202020202031463330,
  0x4C4F424D595320414D474953204554414E554C204B454552472020312E3120232020202020202020202033433330203B202020202020202020202020202020202064657070616D203B2020202020202020202032463330,
  0x544F592052455454454C204B454552472020312E3120232020202020202020202020202020202020202020202020202020202020202020202064696C6176203B2020202020202020202033463330,
  0x4C4F424D5953204154454854204C415449504143204B454552472020312E3320232020202020202020202038423330203B202020202020202020202020202020202064657070616D203B2020202020202020202034463330,
  0x4C4F424D5953204E4F4C49535045204554414E554C204B454552472020312E3320232020202020202020202035423330203B202020202020202020202020202020202064657070616D203B2020202020202020202035463330,
  0x4C4F424D5953204E4F4C49535045204554414E554C204445535245564552204B454552472020322E3320232020202038564E203B2020202020203B20202020202020202020202020202020202064696C6176203B2020202020202020202036463330,
  0x4F48532052455454454C204C415449504143204B454552472020302E3420232020202020202020202038463330203B202020202020202020202020202020202064657070616D203B2020202020202020202037463330,
  0x4F48532052455454454C204C4C414D53204B454552472020302E3420232020202020202020202020202020202020202020202020202020202020202020202064696C6176203B2020202020202020202038463330,
  0x4C4F424D595320414D474953204554414E554C204C415449504143204B454552472020302E3420232020202020202020202033433330203B202020202020202020202020202020202064657070616D203B2020202020202020202039463330,
  0x4E41532052455454454C204C415449504143204B454552472020302E3420232020202020202020202042463330203B202020202020202020202020202020202064657070616D203B2020202020202020202041463330,
  0x4E41532052455454454C204C4C414D53204B454552472020302E3420232020202020202020202020202020202020202020202020202020202020202020202064696C6176203B2020202020202020202042463330,
  0x4C4F424D595320454B4F5254532048544957204F4852204B454552472020312E3420232020202020202020202020202020202020202020202020202020202020202020202064696C6176203B2020202020202020202043463330,
  0x4C4F424D595320414D474953204554414E554C204445535245564552204C415449504143204B454552472020312E3420232020202020202020202042373330203B202020202020202020202020202020202064657070616D203B2020202020202020202044463330,
  0x4C4F424D595320414D474953204554414E554C20444554544F44204C415449504143204B454552472020312E3420232020202020202020202043373330203B202020202020202020202020202020202064657070616D203B2020202020202020202045463330,
  0x4C4F424D595320414D474953204554414E554C20444554544F44204445535245564552204C415449504143204B454552472020312E3420232020202020202020202044373330203B202020202020202020202020202020202064657070616D203B2020202020202020202046463330,
  0x455641524720485449572045492052455454454C204C4154495041432043494C4C495259432020302E3320232020202020202020202030353430203B202020202020202020202020202020202064657070616D203B2020202020202020202030303430,
  0x4F492052455454454C204C4154495041432043494C4C495259432020312E3120232020202020202020202031353430203B202020202020202020202020202020202064657070616D203B2020202020202020202031303430,
  0x454A442052455454454C204C4154495041432043494C4C495259432020312E3120232020202020202020202032353430203B202020202020202020202020202020202064657070616D203B2020202020202020202032303430,
  0x454A472052455454454C204C4154495041432043494C4C495259432020312E3120232020202020202020202033353430203B202020202020202020202020202020202064657070616D203B2020202020202020202033303430,
  0x4549204E41494E4941524B552052455454454C204C4154495041432043494C4C495259432020312E3120232020202020202020202034353430203B202020202020202020202020202020202064657070616D203B2020202020202020202034303430,
  0x455A442052455454454C204C4154495041432043494C4C495259432020312E3120232020202020202020202035353430203B202020202020202020202020202020202064657070616D203B2020202020202020202035303430,
  0x49204E41494E4941524B552D4E4149535355524F4C4559422052455454454C204C4154495041432043494C4C495259432020312E3120232020202020202020202036353430203B202020202020202020202020202020202064657070616D203B2020202020202020202036303430,
  0x49592052455454454C204C4154495041432043494C4C495259432020312E3120232020202020202020202037353430203B202020202020202020202020202020202064657070616D203B2020202020202020202037303430,
  0x454A2052455454454C204C4154495041432043494C4C495259432020312E3120232020202020202020202038353430203B202020202020202020202020202020202064657070616D203B2020202020202020202038303430,
  0x454A4C2052455454454C204C4154495041432043494C4C495259432020312E3120232020202020202020202039353430203B202020202020202020202020202020202064657070616D203B2020202020202020202039303430,
  0x454A4E2052455454454C204C4154495041432043494C4C495259432020312E3120232020202020202020202041353430203B202020202020202020202020202020202064657070616D203B2020202020202020202041303430,
  0x454853542052455454454C204C4154495041432043494C4C495259432020312E3120232020202020202020202042353430203B202020202020202020202020202020202064657070616D203B2020202020202020202042303430,
  0x454A4B2052455454454C204C4154495041432043494C4C495259432020312E3120232020202020202020202043353430203B202020202020202020202020202020202064657070616D203B2020202020202020202043303430,
  0x4556415247204854495720492052455454454C204C4154495041432043494C4C495259432020302E3320232020202020202020202044353430203B202020202020202020202020202020202064657070616D203B2020202020202020202044303430,
  0x552054524F48532052455454454C204C4154495041432043494C4C495259432020312E3120232020202020202020202045353430203B202020202020202020202020202020202064657070616D203B2020202020202020202045303430,
  0x45485A442052455454454C204C4154495041432043494C4C495259432020312E3120232020202020202020202046353430203B202020202020202020202020202020202064657070616D203B2020202020202020202046303430,
  0x412052455454454C204C4154495041432043494C4C495259432020312E3120232020202020202020202030333430203B202020202020202020202020202020202064657070616D203B2020202020202020202030313430,
  0x45422052455454454C204C4154495041432043494C4C495259432020312E3120232020202020202020202031333430203B202020202020202020202020202020202064657070616D203B2020202020202020202031313430,
  0x45562052455454454C204C4154495041432043494C4C495259432020312E3120232020202020202020202032333430203B202020202020202020202020202020202064657070616D203B2020202020202020202032313430,
  0x4548472052455454454C204C4154495041432043494C4C495259432020312E3120232020202020202020202033333430203B202020202020202020202020202020202064657070616D203B2020202020202020202033313430,
  0x45442052455454454C204C4154495041432043494C4C495259432020312E3120232020202020202020202034333430203B202020202020202020202020202020202064657070616D203B2020202020202020202034313430,
  0x45492052455454454C204C4154495041432043494C4C495259432020312E3120232020202020202020202035333430203B202020202020202020202020202020202064657070616D203B2020202020202020202035313430,
  0x45485A2052455454454C204C4154495041432043494C4C495259432020312E3120232020202020202020202036333430203B202020202020202020202020202020202064657070616D203B2020202020202020202036313430,
  0x455A2052455454454C204C4154495041432043494C4C495259432020312E3120232020202020202020202037333430203B202020202020202020202020202020202064657070616D203B2020202020202020202037313430,
  0x492052455454454C204C4154495041432043494C4C495259432020312E3120232020202020202020202038333430203B202020202020202020202020202020202064657070616D203B2020202020202020202038313430,
  0x492054524F48532052455454454C204C4154495041432043494C4C495259432020312E3120232020202020202020202039333430203B202020202020202020202020202020202064657070616D203B2020202020202020202039313430,
  0x414B2052455454454C204C4154495041432043494C4C495259432020312E3120232020202020202020202041333430203B202020202020202020202020202020202064657070616D203B2020202020202020202041313430,
  0x4C452052455454454C204C4154495041432043494C4C495259432020312E3120232020202020202020202042333430203B202020202020202020202020202020202064657070616D203B2020202020202020202042313430,
  0x4D452052455454454C204C4154495041432043494C4C495259432020312E3120232020202020202020202043333430203B202020202020202020202020202020202064657070616D203B2020202020202020202043313430,
  0x4E452052455454454C204C4154495041432043494C4C495259432020312E3120232020202020202020202044333430203B202020202020202020202020202020202064657070616D203B2020202020202020202044313430,
  0x4F2052455454454C204C4154495041432043494C4C495259432020312E3120232020202020202020202045333430203B202020202020202020202020202020202064657070616D203B2020202020202020202045313430,
  0x45502052455454454C204C4154495041432043494C4C495259432020312E3120232020202020202020202046333430203B202020202020202020202020202020202064657070616D203B2020202020202020202046313430,
  0x52452052455454454C204C4154495041432043494C4C495259432020312E3120232020202020202020202030343430203B202020202020202020202020202020202064657070616D203B2020202020202020202030323430,
  0x53452052455454454C204C4154495041432043494C4C495259432020312E3120232020202020202020202031343430203B202020202020202020202020202020202064657070616D203B2020202020202020202031323430,
  0x45542052455454454C204C4154495041432043494C4C495259432020312E3120232020202020202020202032343430203B202020202020202020202020202020202064657070616D203B2020202020202020202032323430,
  0x552052455454454C204C4154495041432043494C4C495259432020312E3120232020202020202020202033343430203B202020202020202020202020202020202064657070616D203B2020202020202020202033323430,
  0x46452052455454454C204C4154495041432043494C4C495259432020312E3120232020202020202020202034343430203B202020202020202020202020202020202064657070616D203B2020202020202020202034323430,
  0x41482052455454454C204C4154495041432043494C4C495259432020312E3120232020202020202020202035343430203B202020202020202020202020202020202064657070616D203B2020202020202020202035323430,
  0x4553542052455454454C204C4154495041432043494C4C495259432020312E3120232020202020202020202036343430203B202020202020202020202020202020202064657070616D203B2020202020202020202036323430,
  0x4548432052455454454C204C4154495041432043494C4C495259432020312E3120232020202020202020202037343430203B202020202020202020202020202020202064657070616D203B2020202020202020202037323430,
  0x4148532052455454454C204C4154495041432043494C4C495259432020312E3120232020202020202020202038343430203B202020202020202020202020202020202064657070616D203B2020202020202020202038323430,
  0x41484348532052455454454C204C4154495041432043494C4C495259432020312E3120232020202020202020202039343430203B202020202020202020202020202020202064657070616D203B2020202020202020202039323430,
  0x4E47495320445241482052455454454C204C4154495041432043494C4C495259432020312E3120232020202020202020202041343430203B202020202020202020202020202020202064657070616D203B2020202020202020202041323430,
  0x555245592052455454454C204C4154495041432043494C4C495259432020312E3120232020202020202020202042343430203B202020202020202020202020202020202064657070616D203B2020202020202020202042323430,
  0x4E4749532054464F532052455454454C204C4154495041432043494C4C495259432020312E3120232020202020202020202043343430203B202020202020202020202020202020202064657070616D203B2020202020202020202043323430,
  0x452052455454454C204C4154495041432043494C4C495259432020312E3120232020202020202020202044343430203B202020202020202020202020202020202064657070616D203B2020202020202020202044323430,
  0x55592052455454454C204C4154495041432043494C4C495259432020312E3120232020202020202020202045343430203B202020202020202020202020202020202064657070616D203B2020202020202020202045323430,
  0x41592052455454454C204C4154495041432043494C4C495259432020312E3120232020202020202020202046343430203B202020202020202020202020202020202064657070616D203B2020202020202020202046323430,
  0x41592052455454454C204C4C414D532043494C4C495259432E2E412052455454454C204C4C414D532043494C4C495259432020312E3120232020202020202020202020202020202020202020202020202020202020202020202064696C6176203B20202020463434302E2E30333430,
  0x455641524720485449572045492052455454454C204C4C414D532043494C4C495259432020302E3320232020202020202020202020202020202020202020202020202020202020202020202064696C6176203B2020202020202020202030353430,
  0x454A4B2052455454454C204C4C414D532043494C4C495259432E2E4F492052455454454C204C4C414D532043494C4C495259432020312E3120232020202020202020202020202020202020202020202020202020202020202020202064696C6176203B20202020433534302E2E31353430,
  0x4556415247204854495720492052455454454C204C4C414D532043494C4C495259432020302E3320232020202020202020202020202020202020202020202020202020202020202020202064696C6176203B2020202020202020202044353430,
  0x45485A442052455454454C204C4C414D532043494C4C495259432E2E552054524F48532052455454454C204C4C414D532043494C4C495259432020312E3120232020202020202020202020202020202020202020202020202020202020202020202064696C6176203B20202020463534302E2E45353430,
  0x4147454D4F2052455454454C204C4154495041432043494C4C495259432020312E3120232020202020202020202031363430203B202020202020202020202020202020202064657070616D203B2020202020202020202030363430,
  0x4147454D4F2052455454454C204C4C414D532043494C4C495259432020312E3120232020202020202020202020202020202020202020202020202020202020202020202064696C6176203B2020202020202020202031363430,
  0x5441592052455454454C204C4154495041432043494C4C495259432020312E3120232020202020202020202033363430203B202020202020202020202020202020202064657070616D203B2020202020202020202032363430,
  0x5441592052455454454C204C4C414D532043494C4C495259432020312E3120232020202020202020202020202020202020202020202020202020202020202020202064696C6176203B2020202020202020202033363430,
  0x45204445494649544F492052455454454C204C4154495041432043494C4C495259432020312E3120232020202020202020202035363430203B202020202020202020202020202020202064657070616D203B2020202020202020202034363430,
  0x45204445494649544F492052455454454C204C4C414D532043494C4C495259432020312E3120232020202020202020202020202020202020202020202020202020202020202020202064696C6176203B2020202020202020202035363430,
  0x53555920454C5454494C2052455454454C204C4154495041432043494C4C495259432020312E3120232020202020202020202037363430203B202020202020202020202020202020202064657070616D203B2020202020202020202036363430,
  0x53555920454C5454494C2052455454454C204C4C414D532043494C4C495259432020312E3120232020202020202020202020202020202020202020202020202020202020202020202064696C6176203B2020202020202020202037363430,
  0x53555920454C5454494C204445494649544F492052455454454C204C4154495041432043494C4C495259432020312E3120232020202020202020202039363430203B202020202020202020202020202020202064657070616D203B2020202020202020202038363430,
  0x53555920454C5454494C204445494649544F492052455454454C204C4C414D532043494C4C495259432020312E3120232020202020202020202020202020202020202020202020202020202020202020202064696C6176203B2020202020202020202039363430,
  0x535559204749422052455454454C204C4154495041432043494C4C495259432020312E3120232020202020202020202042363430203B202020202020202020202020202020202064657070616D203B2020202020202020202041363430,
  0x535559204749422052455454454C204C4C414D532043494C4C495259432020312E3120232020202020202020202020202020202020202020202020202020202020202020202064696C6176203B2020202020202020202042363430,
  0x53555920474942204445494649544F492052455454454C204C4154495041432043494C4C495259432020312E3120232020202020202020202044363430203B202020202020202020202020202020202064657070616D203B2020202020202020202043363430,
  0x53555920474942204445494649544F492052455454454C204C4C414D532043494C4C495259432020312E3120232020202020202020202020202020202020202020202020202020202020202020202064696C6176203B2020202020202020202044363430,
  0x49534B2052455454454C204C4154495041432043494C4C495259432020312E3120232020202020202020202046363430203B202020202020202020202020202020202064657070616D203B2020202020202020202045363430,
  0x49534B2052455454454C204C4C414D532043494C4C495259432020312E3120232020202020202020202020202020202020202020202020202020202020202020202064696C6176203B2020202020202020202046363430,
  0x4953502052455454454C204C4154495041432043494C4C495259432020312E3120232020202020202020202031373430203B202020202020202020202020202020202064657070616D203B2020202020202020202030373430,
  0x4953502052455454454C204C4C414D532043494C4C495259432020312E3120232020202020202020202020202020202020202020202020202020202020202020202064696C6176203B2020202020202020202031373430,
  0x415449462052455454454C204C4154495041432043494C4C495259432020312E3120232020202020202020202033373430203B202020202020202020202020202020202064657070616D203B2020202020202020202032373430,
  0x415449462052455454454C204C4C414D532043494C4C495259432020312E3120232020202020202020202020202020202020202020202020202020202020202020202064696C6176203B2020202020202020202033373430,
  0x41535449485A492052455454454C204C4154495041432043494C4C495259432020312E3120232020202020202020202035373430203B202020202020202020202020202020202064657070616D203B2020202020202020202034373430,
  0x41535449485A492052455454454C204C4C414D532043494C4C495259432020312E3120232020202020202020202020202020202020202020202020202020202020202020202064696C6176203B2020202020202020202035373430,
  0x544E4543434120455641524720454C42554F4420485449572041535449485A492052455454454C204C4154495041432043494C4C495259432020312E3120232020202020202020202037373430203B202020202020202020202020202020202064657070616D203B2020202020202020202036373430,
  0x544E4543434120455641524720454C42554F4420485449572041535449485A492052455454454C204C4C414D532043494C4C495259432020312E3120232020202020202020202020202020202020202020202020202020202020202020202064696C6176203B2020202020202020202037373430,
  0x4B552052455454454C204C4154495041432043494C4C495259432020312E3120232020202020202020202039373430203B202020202020202020202020202020202064657070616D203B2020202020202020202038373430,
  0x4B552052455454454C204C4C414D532043494C4C495259432020312E3120232020202020202020202020202020202020202020202020202020202020202020202064696C6176203B2020202020202020202039373430,
  0x4147454D4F20444E554F522052455454454C204C4154495041432043494C4C495259432020312E3120232020202020202020202042373430203B202020202020202020202020202020202064657070616D203B2020202020202020202041373430,
  0x4147454D4F20444E554F522052455454454C204C4C414D532043494C4C495259432020312E3120232020202020202020202020202020202020202020202020202020202020202020202064696C6176203B2020202020202020202042373430,
  0x4F4C5449542048544957204147454D4F2052455454454C204C4154495041432043494C4C495259432020312E3120232020202020202020202044373430203B202020202020202020202020202020202064657070616D203B2020202020202020202043373430,
  0x4F4C5449542048544957204147454D4F2052455454454C204C4C414D532043494C4C495259432020312E3120232020202020202020202020202020202020202020202020202020202020202020202064696C6176203B2020202020202020202044373430,
  0x544F2052455454454C204C4154495041432043494C4C495259432020312E3120232020202020202020202046373430203B202020202020202020202020202020202064657070616D203B2020202020202020202045373430,
  0x544F2052455454454C204C4C414D532043494C4C495259432020312E3120232020202020202020202020202020202020202020202020202020202020202020202064696C6176203B2020202020202020202046373430,
  0x4150504F4B2052455454454C204C4154495041432043494C4C495259432020312E3120232020202020202020202031383430203B202020202020202020202020202020202064657070616D203B2020202020202020202030383430,
  0x4150504F4B2052455454454C204C4C414D532043494C4C495259432020312E3120232020202020202020202020202020202020202020202020202020202020202020202064696C6176203B2020202020202020202031383430,
  0x4E4749532053444E4153554F48542043494C4C495259432020312E3120232020202038564E203B2020202020203B20202020202020202020202020202020202064696C6176203B2020202020202020202032383430,
  0x4154414D55454E5020494C4953502043494C4C4952594320474E494E49424D4F432E2E4F4C5449542043494C4C4952594320474E494E49424D4F432020312E3120232020202020202020202020202020202020202020202020202020202020202020202064696C6176203B20202020363834302E2E33383430,
  0x45495459524B4F502043494C4C4952594320474E494E49424D4F432020312E3520232020202020202020202020202020202020202020202020202020202020202020202064696C6176203B2020202020202020202037383430,
  0x4E47495320534E4F494C4C494D2043494C4C4952594320474E494E49424D4F432E2E4E4749532053444E4153554F485420444552444E55482043494C4C4952594320474E494E49424D4F432020302E3320232020202038564E203B2020202020203B20202020202020202020202020202020202064696C6176203B20202020393834302E2E38383430,
  0x4C494154204854495720492054524F48532052455454454C204C4154495041432043494C4C495259432020322E3320232020202020202020202042383430203B202020202020202020202020202020202064657070616D203B2020202020202020202041383430,
  0x4C494154204854495720492054524F48532052455454454C204C4C414D532043494C4C495259432020322E3320232020202020202020202020202020202020202020202020202020202020202020202064696C6176203B2020202020202020202042383430,
  0x4E4749532054464F53494D45532052455454454C204C4154495041432043494C4C495259432020302E3320232020202020202020202044383430203B202020202020202020202020202020202064657070616D203B2020202020202020202043383430,
  0x4E4749532054464F53494D45532052455454454C204C4C414D532043494C4C495259432020302E3320232020202020202020202020202020202020202020202020202020202020202020202064696C6176203B2020202020202020202044383430,
  0x4B43495420485449572052452052455454454C204C4154495041432043494C4C495259432020302E3320232020202020202020202046383430203B202020202020202020202020202020202064657070616D203B2020202020202020202045383430,
  0x4B43495420485449572052452052455454454C204C4C414D532043494C4C495259432020302E3320232020202020202020202020202020202020202020202020202020202020202020202064696C6176203B2020202020202020202046383430,
  0x4E52555450552048544957204548472052455454454C204C4154495041432043494C4C495259432020312E3120232020202020202020202031393430203B202020202020202020202020202020202064657070616D203B2020202020202020202030393430,
  0x4E52555450552048544957204548472052455454454C204C4C414D532043494C4C495259432020312E3120232020202020202020202020202020202020202020202020202020202020202020202064696C6176203B2020202020202020202031393430,
  0x454B4F5254532048544957204548472052455454454C204C4154495041432043494C4C495259432020312E3120232020202020202020202033393430203B202020202020202020202020202020202064657070616D203B2020202020202020202032393430,
  0x454B4F5254532048544957204548472052455454454C204C4C414D532043494C4C495259432020312E3120232020202020202020202020202020202020202020202020202020202020202020202064696C6176203B2020202020202020202033393430,
  0x4B4F4F4820454C4444494D2048544957204548472052455454454C204C4154495041432043494C4C495259432020312E3120232020202020202020202035393430203B202020202020202020202020202020202064657070616D203B2020202020202020202034393430,
  0x4B4F4F4820454C4444494D2048544957204548472052455454454C204C4C414D532043494C4C495259432020312E3120232020202020202020202020202020202020202020202020202020202020202020202064696C6176203B2020202020202020202035393430,
  0x5245444E454353454420485449572045485A2052455454454C204C4154495041432043494C4C495259432020312E3120232020202020202020202037393430203B202020202020202020202020202020202064657070616D203B2020202020202020202036393430,
  0x5245444E454353454420485449572045485A2052455454454C204C4C414D532043494C4C495259432020312E3120232020202020202020202020202020202020202020202020202020202020202020202064696C6176203B2020202020202020202037393430,
  0x5245444E4543534544204854495720455A2052455454454C204C4154495041432043494C4C495259432020312E3120232020202020202020202039393430203B202020202020202020202020202020202064657070616D203B2020202020202020202038393430,
  0x5245444E4543534544204854495720455A2052455454454C204C4C414D532043494C4C495259432020312E3120232020202020202020202020202020202020202020202020202020202020202020202064696C6176203B2020202020202020202039393430,
  0x5245444E4543534544204854495720414B2052455454454C204C4154495041432043494C4C495259432020312E3120232020202020202020202042393430203B202020202020202020202020202020202064657070616D203B2020202020202020202041393430,
  0x5245444E4543534544204854495720414B2052455454454C204C4C414D532043494C4C495259432020312E3120232020202020202020202020202020202020202020202020202020202020202020202064696C6176203B2020202020202020202042393430,
  0x454B4F525453204C41434954524556204854495720414B2052455454454C204C4154495041432043494C4C495259432020312E3120232020202020202020202044393430203B202020202020202020202020202020202064657070616D203B2020202020202020202043393430,
  0x454B4F525453204C41434954524556204854495720414B2052455454454C204C4C414D532043494C4C495259432020312E3120232020202020202020202020202020202020202020202020202020202020202020202064696C6176203B2020202020202020202044393430,
  0x454B4F525453204854495720414B2052455454454C204C4154495041432043494C4C495259432020312E3120232020202020202020202046393430203B202020202020202020202020202020202064657070616D203B2020202020202020202045393430,
  0x454B4F525453204854495720414B2052455454454C204C4C414D532043494C4C495259432020312E3120232020202020202020202020202020202020202020202020202020202020202020202064696C6176203B2020202020202020202046393430,
  0x414B2052494B485341422052455454454C204C4154495041432043494C4C495259432020312E3120232020202020202020202031413430203B202020202020202020202020202020202064657070616D203B2020202020202020202030413430,
  0x414B2052494B485341422052455454454C204C4C414D532043494C4C495259432020312E3120232020202020202020202020202020202020202020202020202020202020202020202064696C6176203B2020202020202020202031413430,
  0x5245444E45435345442048544957204E452052455454454C204C4154495041432043494C4C495259432020312E3120232020202020202020202033413430203B202020202020202020202020202020202064657070616D203B2020202020202020202032413430,
  0x5245444E45435345442048544957204E452052455454454C204C4C414D532043494C4C495259432020312E3120232020202020202020202020202020202020202020202020202020202020202020202064696C6176203B2020202020202020202033413430,
  0x454847204E4520455255544147494C204C4154495041432043494C4C495259432020312E3120232020202020202020202035413430203B202020202020202020202020202020202064657070616D203B2020202020202020202034413430,
  0x454847204E4520455255544147494C204C4C414D532043494C4C495259432020312E3120232020202020202020202020202020202020202020202020202020202020202020202064696C6176203B2020202020202020202035413430,
  0x4B4F4F4820454C4444494D20485449572045502052455454454C204C4154495041432043494C4C495259432020312E3120232020202020202020202037413430203B202020202020202020202020202020202064657070616D203B2020202020202020202036413430,
  0x4B4F4F4820454C4444494D20485449572045502052455454454C204C4C414D532043494C4C495259432020312E3120232020202020202020202020202020202020202020202020202020202020202020202064696C6176203B2020202020202020202037413430,
  0x4148204E41495341484B42412052455454454C204C4154495041432043494C4C495259432020312E3120232020202020202020202039413430203B202020202020202020202020202020202064657070616D203B2020202020202020202038413430,
  0x4148204E41495341484B42412052455454454C204C4C414D532043494C4C495259432020312E3120232020202020202020202020202020202020202020202020202020202020202020202064696C6176203B2020202020202020202039413430,
  0x5245444E454353454420485449572053452052455454454C204C4154495041432043494C4C495259432020312E3120232020202020202020202042413430203B202020202020202020202020202020202064657070616D203B2020202020202020202041413430,
  0x5245444E454353454420485449572053452052455454454C204C4C414D532043494C4C495259432020312E3120232020202020202020202020202020202020202020202020202020202020202020202064696C6176203B2020202020202020202042413430,
  0x5245444E454353454420485449572045542052455454454C204C4154495041432043494C4C495259432020312E3120232020202020202020202044413430203B202020202020202020202020202020202064657070616D203B2020202020202020202043413430,
  0x5245444E454353454420485449572045542052455454454C204C4C414D532043494C4C495259432020312E3120232020202020202020202020202020202020202020202020202020202020202020202064696C6176203B2020202020202020202044413430,
  0x552054484749415254532052455454454C204C4154495041432043494C4C495259432020312E3120232020202020202020202046413430203B202020202020202020202020202020202064657070616D203B2020202020202020202045413430,
  0x552054484749415254532052455454454C204C4C414D532043494C4C495259432020312E3120232020202020202020202020202020202020202020202020202020202020202020202064696C6176203B2020202020202020202046413430,
  0x454B4F525453204854495720552054484749415254532052455454454C204C4154495041432043494C4C495259432020312E3120232020202020202020202031423430203B202020202020202020202020202020202064657070616D203B2020202020202020202030423430,
  0x454B4F525453204854495720552054484749415254532052455454454C204C4C414D532043494C4C495259432020312E3120232020202020202020202020202020202020202020202020202020202020202020202064696C6176203B2020202020202020202031423430,
  0x5245444E454353454420485449572041482052455454454C204C4154495041432043494C4C495259432020312E3120232020202020202020202033423430203B202020202020202020202020202020202064657070616D203B2020202020202020202032423430,
  0x5245444E454353454420485449572041482052455454454C204C4C414D532043494C4C495259432020312E3120232020202020202020202020202020202020202020202020202020202020202020202064696C6176203B2020202020202020202033423430,
  0x45535420455420455255544147494C204C4154495041432043494C4C495259432020312E3120232020202020202020202035423430203B202020202020202020202020202020202064657070616D203B2020202020202020202034423430,
  0x45535420455420455255544147494C204C4C414D532043494C4C495259432020312E3120232020202020202020202020202020202020202020202020202020202020202020202064696C6176203B2020202020202020202035423430,
  0x5245444E45435345442048544957204548432052455454454C204C4154495041432043494C4C495259432020312E3120232020202020202020202037423430203B202020202020202020202020202020202064657070616D203B2020202020202020202036423430,
  0x5245444E45435345442048544957204548432052455454454C204C4C414D532043494C4C495259432020312E3120232020202020202020202020202020202020202020202020202020202020202020202064696C6176203B2020202020202020202037423430,
  0x454B4F525453204C414349545245562048544957204548432052455454454C204C4154495041432043494C4C495259432020312E3120232020202020202020202039423430203B202020202020202020202020202020202064657070616D203B2020202020202020202038423430,
  0x454B4F525453204C414349545245562048544957204548432052455454454C204C4C414D532043494C4C495259432020312E3120232020202020202020202020202020202020202020202020202020202020202020202064696C6176203B2020202020202020202039423430,
  0x414848532052455454454C204C4154495041432043494C4C495259432020312E3120232020202020202020202042423430203B202020202020202020202020202020202064657070616D203B2020202020202020202041423430,
  0x414848532052455454454C204C4C414D532043494C4C495259432020312E3120232020202020202020202020202020202020202020202020202020202020202020202064696C6176203B2020202020202020202042423430,
  0x454843204E41495341484B42412052455454454C204C4154495041432043494C4C495259432020312E3120232020202020202020202044423430203B202020202020202020202020202020202064657070616D203B2020202020202020202043423430,
  0x454843204E41495341484B42412052455454454C204C4C414D532043494C4C495259432020312E3120232020202020202020202020202020202020202020202020202020202020202020202064696C6176203B2020202020202020202044423430,
  0x5245444E4543534544204854495720454843204E41495341484B42412052455454454C204C4154495041432043494C4C495259432020312E3120232020202020202020202046423430203B202020202020202020202020202020202064657070616D203B2020202020202020202045423430,
  0x5245444E4543534544204854495720454843204E41495341484B42412052455454454C204C4C414D532043494C4C495259432020312E3120232020202020202020202020202020202020202020202020202020202020202020202064696C6176203B2020202020202020202046423430,
  0x414B48434F4C41502052455454454C2043494C4C495259432020312E31202320202020202020202020202020202020202020202020202020202020206465776F6C6C61736964203B2020202020202020202030433430,
  0x455645524220485449572045485A2052455454454C204C4154495041432043494C4C495259432020312E3120232020202020202020202032433430203B202020202020202020202020202020202064657070616D203B2020202020202020202031433430,
  0x455645524220485449572045485A2052455454454C204C4C414D532043494C4C495259432020312E3120232020202020202020202020202020202020202020202020202020202020202020202064696C6176203B2020202020202020202032433430,
  0x4B4F4F48204854495720414B2052455454454C204C4154495041432043494C4C495259432020312E3120232020202020202020202034433430203B202020202020202020202020202020202064657070616D203B2020202020202020202033433430,
  0x4B4F4F48204854495720414B2052455454454C204C4C414D532043494C4C495259432020312E3120232020202020202020202020202020202020202020202020202020202020202020202064696C6176203B2020202020202020202034433430,
  0x4C4941542048544957204C452052455454454C204C4154495041432043494C4C495259432020322E3320232020202020202020202036433430203B202020202020202020202020202020202064657070616D203B2020202020202020202035433430,
  0x4C4941542048544957204C452052455454454C204C4C414D532043494C4C495259432020322E3320232020202020202020202020202020202020202020202020202020202020202020202064696C6176203B2020202020202020202036433430,
  0x4B4F4F482048544957204E452052455454454C204C4154495041432043494C4C495259432020312E3120232020202020202020202038433430203B202020202020202020202020202020202064657070616D203B2020202020202020202037433430,
  0x4B4F4F482048544957204E452052455454454C204C4C414D532043494C4C495259432020312E3120232020202020202020202020202020202020202020202020202020202020202020202064696C6176203B2020202020202020202038433430,
  0x4C4941542048544957204E452052455454454C204C4154495041432043494C4C495259432020322E3320232020202020202020202041433430203B202020202020202020202020202020202064657070616D203B2020202020202020202039433430,
  0x4C4941542048544957204E452052455454454C204C4C414D532043494C4C495259432020322E3320232020202020202020202020202020202020202020202020202020202020202020202064696C6176203B2020202020202020202041433430,
  0x454843204E41495353414B41484B2052455454454C204C4154495041432043494C4C495259432020312E3120232020202020202020202043433430203B202020202020202020202020202020202064657070616D203B2020202020202020202042433430,
  0x454843204E41495353414B41484B2052455454454C204C4C414D532043494C4C495259432020312E3120232020202020202020202020202020202020202020202020202020202020202020202064696C6176203B2020202020202020202043433430,
  0x4C4941542048544957204D452052455454454C204C4154495041432043494C4C495259432020322E3320232020202020202020202045433430203B202020202020202020202020202020202064657070616D203B2020202020202020202044433430,
  0x4C4941542048544957204D452052455454454C204C4C414D532043494C4C495259432020322E3320232020202020202020202020202020202020202020202020202020202020202020202064696C6176203B2020202020202020202045433430,
  0x414B48434F4C41502052455454454C204C4C414D532043494C4C495259432020302E3520232020202020202020202020202020202020202020202020202020202020202020202064696C6176203B2020202020202020202046433430,
  0x4556455242204854495720412052455454454C204C4154495041432043494C4C495259432020312E3120232020202020202020202031443430203B202020202020202020202020202020202064657070616D203B2020202020202020202030443430,
  0x4556455242204854495720412052455454454C204C4C414D532043494C4C495259432020312E3120232020202020202020202020202020202020202020202020202020202020202020202064696C6176203B2020202020202020202031443430,
  0x534953455245414944204854495720412052455454454C204C4154495041432043494C4C495259432020312E3120232020202020202020202033443430203B202020202020202020202020202020202064657070616D203B2020202020202020202032443430,
  0x534953455245414944204854495720412052455454454C204C4C414D532043494C4C495259432020312E3120232020202020202020202020202020202020202020202020202020202020202020202064696C6176203B2020202020202020202033443430,
  0x4549204120455255544147494C204C4154495041432043494C4C495259432020312E3120232020202020202020202035443430203B202020202020202020202020202020202064657070616D203B2020202020202020202034443430,
  0x4549204120455255544147494C204C4C414D532043494C4C495259432020312E3120232020202020202020202020202020202020202020202020202020202020202020202064696C6176203B2020202020202020202035443430,
  0x455645524220485449572045492052455454454C204C4154495041432043494C4C495259432020312E3120232020202020202020202037443430203B202020202020202020202020202020202064657070616D203B2020202020202020202036443430,
  0x455645524220485449572045492052455454454C204C4C414D532043494C4C495259432020312E3120232020202020202020202020202020202020202020202020202020202020202020202064696C6176203B2020202020202020202037443430,
  0x41574843532052455454454C204C4154495041432043494C4C495259432020312E3120232020202020202020202039443430203B202020202020202020202020202020202064657070616D203B2020202020202020202038443430,
  0x41574843532052455454454C204C4C414D532043494C4C495259432020312E3120232020202020202020202020202020202020202020202020202020202020202020202064696C6176203B2020202020202020202039443430,
  0x53495345524541494420485449572041574843532052455454454C204C4154495041432043494C4C495259432020312E3120232020202020202020202042443430203B202020202020202020202020202020202064657070616D203B2020202020202020202041443430,
  0x53495345524541494420485449572041574843532052455454454C204C4C414D532043494C4C495259432020312E3120232020202020202020202020202020202020202020202020202020202020202020202064696C6176203B2020202020202020202042443430,
  0x53495345524541494420485449572045485A2052455454454C204C4154495041432043494C4C495259432020312E3120232020202020202020202044443430203B202020202020202020202020202020202064657070616D203B2020202020202020202043443430,
  0x53495345524541494420485449572045485A2052455454454C204C4C414D532043494C4C495259432020312E3120232020202020202020202020202020202020202020202020202020202020202020202064696C6176203B2020202020202020202044443430,
  0x534953455245414944204854495720455A2052455454454C204C4154495041432043494C4C495259432020312E3120232020202020202020202046443430203B202020202020202020202020202020202064657070616D203B2020202020202020202045443430,
  0x534953455245414944204854495720455A2052455454454C204C4C414D532043494C4C495259432020312E3120232020202020202020202020202020202020202020202020202020202020202020202064696C6176203B2020202020202020202046443430,
  0x455A44204E41495341484B42412052455454454C204C4154495041432043494C4C495259432020312E3120232020202020202020202031453430203B202020202020202020202020202020202064657070616D203B2020202020202020202030453430,
  0x455A44204E41495341484B42412052455454454C204C4C414D532043494C4C495259432020312E3120232020202020202020202020202020202020202020202020202020202020202020202064696C6176203B2020202020202020202031453430,
  0x4E4F5243414D204854495720492052455454454C204C4154495041432043494C4C495259432020312E3120232020202020202020202033453430203B202020202020202020202020202020202064657070616D203B2020202020202020202032453430,
  0x4E4F5243414D204854495720492052455454454C204C4C414D532043494C4C495259432020312E3120232020202020202020202020202020202020202020202020202020202020202020202064696C6176203B2020202020202020202033453430,
  0x534953455245414944204854495720492052455454454C204C4154495041432043494C4C495259432020312E3120232020202020202020202035453430203B202020202020202020202020202020202064657070616D203B2020202020202020202034453430,
  0x534953455245414944204854495720492052455454454C204C4C414D532043494C4C495259432020312E3120232020202020202020202020202020202020202020202020202020202020202020202064696C6176203B2020202020202020202035453430]

def mapText3 : List Nat := [
  0x5349534552454149442048544957204F2052455454454C204C4154495041432043494C4C495259432020312E3120232020202020202020202037453430203B202020202020202020202020202020202064657070616D203B2020202020202020202036453430,
  0x5349534552454149442048544957204F2052455454454C204C4C414D532043494C4C495259432020312E3120232020202020202020202020202020202020202020202020202020202020202020202064696C6176203B2020202020202020202037453430,
  0x4F204445525241422052455454454C204C4154495041432043494C4C495259432020312E3120232020202020202020202039453430203B202020202020202020202020202020202064657070616D203B2020202020202020202038453430,
  0x4F204445525241422052455454454C204C4C414D532043494C4C495259432020312E3120232020202020202020202020202020202020202020202020202020202020202020202064696C6176203B2020202020202020202039453430,
  0x5349534552454149442048544957204F204445525241422052455454454C204C4154495041432043494C4C495259432020312E3120232020202020202020202042453430203B202020202020202020202020202020202064657070616D203B2020202020202020202041453430,
  0x5349534552454149442048544957204F204445525241422052455454454C204C4C414D532043494C4C495259432020312E3120232020202020202020202020202020202020202020202020202020202020202020202064696C6176203B2020202020202020202042453430,
  0x534953455245414944204854495720452052455454454C204C4154495041432043494C4C495259432020302E3320232020202020202020202044453430203B202020202020202020202020202020202064657070616D203B2020202020202020202043453430,
  0x534953455245414944204854495720452052455454454C204C4C414D532043494C4C495259432020302E3320232020202020202020202020202020202020202020202020202020202020202020202064696C6176203B2020202020202020202044453430,
  0x4E4F5243414D204854495720552052455454454C204C4154495041432043494C4C495259432020312E3120232020202020202020202046453430203B202020202020202020202020202020202064657070616D203B2020202020202020202045453430,
  0x4E4F5243414D204854495720552052455454454C204C4C414D532043494C4C495259432020312E3120232020202020202020202020202020202020202020202020202020202020202020202064696C6176203B2020202020202020202046453430,
  0x534953455245414944204854495720552052455454454C204C4154495041432043494C4C495259432020312E3120232020202020202020202031463430203B202020202020202020202020202020202064657070616D203B2020202020202020202030463430,
  0x534953455245414944204854495720552052455454454C204C4C414D532043494C4C495259432020312E3120232020202020202020202020202020202020202020202020202020202020202020202064696C6176203B2020202020202020202031463430,
  0x455455434120454C42554F44204854495720552052455454454C204C4154495041432043494C4C495259432020312E3120232020202020202020202033463430203B202020202020202020202020202020202064657070616D203B2020202020202020202032463430,
  0x455455434120454C42554F44204854495720552052455454454C204C4C414D532043494C4C495259432020312E3120232020202020202020202020202020202020202020202020202020202020202020202064696C6176203B2020202020202020202033463430,
  0x5349534552454149442048544957204548432052455454454C204C4154495041432043494C4C495259432020312E3120232020202020202020202035463430203B202020202020202020202020202020202064657070616D203B2020202020202020202034463430,
  0x5349534552454149442048544957204548432052455454454C204C4C414D532043494C4C495259432020312E3120232020202020202020202020202020202020202020202020202020202020202020202064696C6176203B2020202020202020202035463430,
  0x5245444E45435345442048544957204548472052455454454C204C4154495041432043494C4C495259432020312E3420232020202020202020202037463430203B202020202020202020202020202020202064657070616D203B2020202020202020202036463430,
  0x5245444E45435345442048544957204548472052455454454C204C4C414D532043494C4C495259432020312E3420232020202020202020202020202020202020202020202020202020202020202020202064696C6176203B2020202020202020202037463430,
  0x534953455245414944204854495720555245592052455454454C204C4154495041432043494C4C495259432020312E3120232020202020202020202039463430203B202020202020202020202020202020202064657070616D203B2020202020202020202038463430,
  0x534953455245414944204854495720555245592052455454454C204C4C414D532043494C4C495259432020312E3120232020202020202020202020202020202020202020202020202020202020202020202064696C6176203B2020202020202020202039463430,
  0x4B4F4F4820444E4120454B4F5254532048544957204548472052455454454C204C4154495041432043494C4C495259432020302E3520232020202020202020202042463430203B202020202020202020202020202020202064657070616D203B2020202020202020202041463430,
  0x4B4F4F4820444E4120454B4F5254532048544957204548472052455454454C204C4C414D532043494C4C495259432020302E3520232020202020202020202020202020202020202020202020202020202020202020202064696C6176203B2020202020202020202042463430,
  0x4B4F4F4820485449572041482052455454454C204C4154495041432043494C4C495259432020302E3520232020202020202020202044463430203B202020202020202020202020202020202064657070616D203B2020202020202020202043463430,
  0x4B4F4F4820485449572041482052455454454C204C4C414D532043494C4C495259432020302E3520232020202020202020202020202020202020202020202020202020202020202020202064696C6176203B2020202020202020202044463430,
  0x454B4F52545320485449572041482052455454454C204C4154495041432043494C4C495259432020302E3520232020202020202020202046463430203B202020202020202020202020202020202064657070616D203B2020202020202020202045463430,
  0x454B4F52545320485449572041482052455454454C204C4C414D532043494C4C495259432020302E3520232020202020202020202020202020202020202020202020202020202020202020202064696C6176203B2020202020202020202046463430,
  0x454420494D4F4B2052455454454C204C4154495041432043494C4C495259432020322E3320232020202020202020202031303530203B202020202020202020202020202020202064657070616D203B2020202020202020202030303530,
  0x454420494D4F4B2052455454454C204C4C414D532043494C4C495259432020322E3320232020202020202020202020202020202020202020202020202020202020202020202064696C6176203B2020202020202020202031303530,
  0x454A4420494D4F4B2052455454454C204C4154495041432043494C4C495259432020322E3320232020202020202020202033303530203B202020202020202020202020202020202064657070616D203B2020202020202020202032303530,
  0x454A4420494D4F4B2052455454454C204C4C414D532043494C4C495259432020322E3320232020202020202020202020202020202020202020202020202020202020202020202064696C6176203B2020202020202020202033303530,
  0x454A5A20494D4F4B2052455454454C204C4154495041432043494C4C495259432020322E3320232020202020202020202035303530203B202020202020202020202020202020202064657070616D203B2020202020202020202034303530,
  0x454A5A20494D4F4B2052455454454C204C4C414D532043494C4C495259432020322E3320232020202020202020202020202020202020202020202020202020202020202020202064696C6176203B2020202020202020202035303530,
  0x454A5A4420494D4F4B2052455454454C204C4154495041432043494C4C495259432020322E3320232020202020202020202037303530203B202020202020202020202020202020202064657070616D203B2020202020202020202036303530,
  0x454A5A4420494D4F4B2052455454454C204C4C414D532043494C4C495259432020322E3320232020202020202020202020202020202020202020202020202020202020202020202064696C6176203B2020202020202020202037303530,
  0x454A4C20494D4F4B2052455454454C204C4154495041432043494C4C495259432020322E3320232020202020202020202039303530203B202020202020202020202020202020202064657070616D203B2020202020202020202038303530,
  0x454A4C20494D4F4B2052455454454C204C4C414D532043494C4C495259432020322E3320232020202020202020202020202020202020202020202020202020202020202020202064696C6176203B2020202020202020202039303530,
  0x454A4E20494D4F4B2052455454454C204C4154495041432043494C4C495259432020322E3320232020202020202020202042303530203B202020202020202020202020202020202064657070616D203B2020202020202020202041303530,
  0x454A4E20494D4F4B2052455454454C204C4C414D532043494C4C495259432020322E3320232020202020202020202020202020202020202020202020202020202020202020202064696C6176203B2020202020202020202042303530,
  0x454A5320494D4F4B2052455454454C204C4154495041432043494C4C495259432020322E3320232020202020202020202044303530203B202020202020202020202020202020202064657070616D203B2020202020202020202043303530,
  0x454A5320494D4F4B2052455454454C204C4C414D532043494C4C495259432020322E3320232020202020202020202020202020202020202020202020202020202020202020202064696C6176203B2020202020202020202044303530,
  0x454A5420494D4F4B2052455454454C204C4154495041432043494C4C495259432020322E3320232020202020202020202046303530203B202020202020202020202020202020202064657070616D203B2020202020202020202045303530,
  0x454A5420494D4F4B2052455454454C204C4C414D532043494C4C495259432020322E3320232020202020202020202020202020202020202020202020202020202020202020202064696C6176203B2020202020202020202046303530,
  0x455A2044455352455645522052455454454C204C4154495041432043494C4C495259432020302E3520232020202020202020202031313530203B202020202020202020202020202020202064657070616D203B2020202020202020202030313530,
  0x455A2044455352455645522052455454454C204C4C414D532043494C4C495259432020302E3520232020202020202020202020202020202020202020202020202020202020202020202064696C6176203B2020202020202020202031313530,
  0x4B4F4F482048544957204C452052455454454C204C4154495041432043494C4C495259432020302E3520232020202020202020202033313530203B202020202020202020202020202020202064657070616D203B2020202020202020202032313530,
  0x4B4F4F482048544957204C452052455454454C204C4C414D532043494C4C495259432020302E3520232020202020202020202020202020202020202020202020202020202020202020202064696C6176203B2020202020202020202033313530,
  0x41484C2052455454454C204C4154495041432043494C4C495259432020312E3520232020202020202020202035313530203B202020202020202020202020202020202064657070616D203B2020202020202020202034313530,
  0x41484C2052455454454C204C4C414D532043494C4C495259432020312E3520232020202020202020202020202020202020202020202020202020202020202020202064696C6176203B2020202020202020202035313530,
  0x4148522052455454454C204C4154495041432043494C4C495259432020312E3520232020202020202020202037313530203B202020202020202020202020202020202064657070616D203B2020202020202020202036313530,
  0x4148522052455454454C204C4C414D532043494C4C495259432020312E3520232020202020202020202020202020202020202020202020202020202020202020202064696C6176203B2020202020202020202037313530,
  0x4541592052455454454C204C4154495041432043494C4C495259432020312E3520232020202020202020202039313530203B202020202020202020202020202020202064657070616D203B2020202020202020202038313530,
  0x4541592052455454454C204C4C414D532043494C4C495259432020312E3520232020202020202020202020202020202020202020202020202020202020202020202064696C6176203B2020202020202020202039313530,
  0x41512052455454454C204C4154495041432043494C4C495259432020312E3520232020202020202020202042313530203B202020202020202020202020202020202064657070616D203B2020202020202020202041313530,
  0x41512052455454454C204C4C414D532043494C4C495259432020312E3520232020202020202020202020202020202020202020202020202020202020202020202064696C6176203B2020202020202020202042313530,
  0x45572052455454454C204C4154495041432043494C4C495259432020312E3520232020202020202020202044313530203B202020202020202020202020202020202064657070616D203B2020202020202020202043313530,
  0x45572052455454454C204C4C414D532043494C4C495259432020312E3520232020202020202020202020202020202020202020202020202020202020202020202064696C6176203B2020202020202020202044313530,
  0x414B205455454C412052455454454C204C4154495041432043494C4C495259432020312E3520232020202020202020202046313530203B202020202020202020202020202020202064657070616D203B2020202020202020202045313530,
  0x414B205455454C412052455454454C204C4C414D532043494C4C495259432020312E3520232020202020202020202020202020202020202020202020202020202020202020202064696C6176203B2020202020202020202046313530,
  0x4B4F4F4820454C4444494D2048544957204C452052455454454C204C4154495041432043494C4C495259432020312E3520232020202020202020202031323530203B202020202020202020202020202020202064657070616D203B2020202020202020202030323530,
  0x4B4F4F4820454C4444494D2048544957204C452052455454454C204C4C414D532043494C4C495259432020312E3520232020202020202020202020202020202020202020202020202020202020202020202064696C6176203B2020202020202020202031323530,
  0x4B4F4F4820454C4444494D2048544957204E452052455454454C204C4154495041432043494C4C495259432020312E3520232020202020202020202033323530203B202020202020202020202020202020202064657070616D203B2020202020202020202032323530,
  0x4B4F4F4820454C4444494D2048544957204E452052455454454C204C4C414D532043494C4C495259432020312E3520232020202020202020202020202020202020202020202020202020202020202020202064696C6176203B2020202020202020202033323530,
  0x5245444E454353454420485449572045502052455454454C204C4154495041432043494C4C495259432020322E3520232020202020202020202035323530203B202020202020202020202020202020202064657070616D203B2020202020202020202034323530,
  0x5245444E454353454420485449572045502052455454454C204C4C414D532043494C4C495259432020322E3520232020202020202020202020202020202020202020202020202020202020202020202064696C6176203B2020202020202020202035323530,
  0x5245444E4543534544204854495720414848532052455454454C204C4154495041432043494C4C495259432020302E3620232020202020202020202037323530203B202020202020202020202020202020202064657070616D203B2020202020202020202036323530,
  0x5245444E4543534544204854495720414848532052455454454C204C4C414D532043494C4C495259432020302E3620232020202020202020202020202020202020202020202020202020202020202020202064696C6176203B2020202020202020202037323530,
  0x4B4F4F48205446454C2048544957204E452052455454454C204C4154495041432043494C4C495259432020302E3720232020202020202020202039323530203B202020202020202020202020202020202064657070616D203B2020202020202020202038323530,
  0x4B4F4F48205446454C2048544957204E452052455454454C204C4C414D532043494C4C495259432020302E3720232020202020202020202020202020202020202020202020202020202020202020202064696C6176203B2020202020202020202039323530,
  0x45485A5A442052455454454C204C4154495041432043494C4C495259432020302E3720232020202020202020202042323530203B202020202020202020202020202020202064657070616D203B2020202020202020202041323530,
  0x45485A5A442052455454454C204C4C414D532043494C4C495259432020302E3720232020202020202020202020202020202020202020202020202020202020202020202064696C6176203B2020202020202020202042323530,
  0x454843442052455454454C204C4154495041432043494C4C495259432020302E3720232020202020202020202044323530203B202020202020202020202020202020202064657070616D203B2020202020202020202043323530,
  0x454843442052455454454C204C4C414D532043494C4C495259432020302E3720232020202020202020202020202020202020202020202020202020202020202020202064696C6176203B2020202020202020202044323530,
  0x5245444E45435345442048544957204C452052455454454C204C4154495041432043494C4C495259432020302E3720232020202020202020202046323530203B202020202020202020202020202020202064657070616D203B2020202020202020202045323530,
  0x5245444E45435345442048544957204C452052455454454C204C4C414D532043494C4C495259432020302E3720232020202020202020202020202020202020202020202020202020202020202020202064696C6176203B2020202020202020202046323530,
  0x3E303335302D64657672657365723C202020414E202320202020202020202020202020202020202020202020202020202020206465776F6C6C61736964203B2020202020202020202030333530,
  0x4259412052455454454C204C415449504143204E41494E454D52412020312E3120232020202020202020202031363530203B202020202020202020202020202020202064657070616D203B2020202020202020202031333530,
  0x4E45422052455454454C204C415449504143204E41494E454D52412020312E3120232020202020202020202032363530203B202020202020202020202020202020202064657070616D203B2020202020202020202032333530,
  0x4D49472052455454454C204C415449504143204E41494E454D52412020312E3120232020202020202020202033363530203B202020202020202020202020202020202064657070616D203B2020202020202020202033333530,
  0x41442052455454454C204C415449504143204E41494E454D52412020312E3120232020202020202020202034363530203B202020202020202020202020202020202064657070616D203B2020202020202020202034333530,
  0x4843452052455454454C204C415449504143204E41494E454D52412020312E3120232020202020202020202035363530203B202020202020202020202020202020202064657070616D203B2020202020202020202035333530,
  0x415A2052455454454C204C415449504143204E41494E454D52412020312E3120232020202020202020202036363530203B202020202020202020202020202020202064657070616D203B2020202020202020202036333530,
  0x48452052455454454C204C415449504143204E41494E454D52412020312E3120232020202020202020202037363530203B202020202020202020202020202020202064657070616D203B2020202020202020202037333530,
  0x54452052455454454C204C415449504143204E41494E454D52412020312E3120232020202020202020202038363530203B202020202020202020202020202020202064657070616D203B2020202020202020202038333530,
  0x4F542052455454454C204C415449504143204E41494E454D52412020312E3120232020202020202020202039363530203B202020202020202020202020202020202064657070616D203B2020202020202020202039333530,
  0x45485A2052455454454C204C415449504143204E41494E454D52412020312E3120232020202020202020202041363530203B202020202020202020202020202020202064657070616D203B2020202020202020202041333530,
  0x494E492052455454454C204C415449504143204E41494E454D52412020312E3120232020202020202020202042363530203B202020202020202020202020202020202064657070616D203B2020202020202020202042333530,
  0x4E57494C2052455454454C204C415449504143204E41494E454D52412020312E3120232020202020202020202043363530203B202020202020202020202020202020202064657070616D203B2020202020202020202043333530,
  0x4845582052455454454C204C415449504143204E41494E454D52412020312E3120232020202020202020202044363530203B202020202020202020202020202020202064657070616D203B2020202020202020202044333530,
  0x41432052455454454C204C415449504143204E41494E454D52412020312E3120232020202020202020202045363530203B202020202020202020202020202020202064657070616D203B2020202020202020202045333530,
  0x4E454B2052455454454C204C415449504143204E41494E454D52412020312E3120232020202020202020202046363530203B202020202020202020202020202020202064657070616D203B2020202020202020202046333530,
  0x4F482052455454454C204C415449504143204E41494E454D52412020312E3120232020202020202020202030373530203B202020202020202020202020202020202064657070616D203B2020202020202020202030343530,
  0x414A2052455454454C204C415449504143204E41494E454D52412020312E3120232020202020202020202031373530203B202020202020202020202020202020202064657070616D203B2020202020202020202031343530,
  0x444148472052455454454C204C415449504143204E41494E454D52412020312E3120232020202020202020202032373530203B202020202020202020202020202020202064657070616D203B2020202020202020202032343530,
  0x484548432052455454454C204C415449504143204E41494E454D52412020312E3120232020202020202020202033373530203B202020202020202020202020202020202064657070616D203B2020202020202020202033343530,
  0x4E454D2052455454454C204C415449504143204E41494E454D52412020312E3120232020202020202020202034373530203B202020202020202020202020202020202064657070616D203B2020202020202020202034343530,
  0x49592052455454454C204C415449504143204E41494E454D52412020312E3120232020202020202020202035373530203B202020202020202020202020202020202064657070616D203B2020202020202020202035343530,
  0x574F4E2052455454454C204C415449504143204E41494E454D52412020312E3120232020202020202020202036373530203B202020202020202020202020202020202064657070616D203B2020202020202020202036343530,
  0x4148532052455454454C204C415449504143204E41494E454D52412020312E3120232020202020202020202037373530203B202020202020202020202020202020202064657070616D203B2020202020202020202037343530,
  0x4F562052455454454C204C415449504143204E41494E454D52412020312E3120232020202020202020202038373530203B202020202020202020202020202020202064657070616D203B2020202020202020202038343530,
  0x4148432052455454454C204C415449504143204E41494E454D52412020312E3120232020202020202020202039373530203B202020202020202020202020202020202064657070616D203B2020202020202020202039343530,
  0x4845502052455454454C204C415449504143204E41494E454D52412020312E3120232020202020202020202041373530203B202020202020202020202020202020202064657070616D203B2020202020202020202041343530,
  0x4845484A2052455454454C204C415449504143204E41494E454D52412020312E3120232020202020202020202042373530203B202020202020202020202020202020202064657070616D203B2020202020202020202042343530,
  0x41522052455454454C204C415449504143204E41494E454D52412020312E3120232020202020202020202043373530203B202020202020202020202020202020202064657070616D203B2020202020202020202043343530,
  0x4845532052455454454C204C415449504143204E41494E454D52412020312E3120232020202020202020202044373530203B202020202020202020202020202020202064657070616D203B2020202020202020202044343530,
  0x5745562052455454454C204C415449504143204E41494E454D52412020312E3120232020202020202020202045373530203B202020202020202020202020202020202064657070616D203B2020202020202020202045343530,
  0x4E5749542052455454454C204C415449504143204E41494E454D52412020312E3120232020202020202020202046373530203B202020202020202020202020202020202064657070616D203B2020202020202020202046343530,
  0x4845522052455454454C204C415449504143204E41494E454D52412020312E3120232020202020202020202030383530203B202020202020202020202020202020202064657070616D203B2020202020202020202030353530,
  0x4F432052455454454C204C415449504143204E41494E454D52412020312E3120232020202020202020202031383530203B202020202020202020202020202020202064657070616D203B2020202020202020202031353530,
  0x4E5749592052455454454C204C415449504143204E41494E454D52412020312E3120232020202020202020202032383530203B202020202020202020202020202020202064657070616D203B2020202020202020202032353530,
  0x525749502052455454454C204C415449504143204E41494E454D52412020312E3120232020202020202020202033383530203B202020202020202020202020202020202064657070616D203B2020202020202020202033353530,
  0x48454B2052455454454C204C415449504143204E41494E454D52412020312E3120232020202020202020202034383530203B202020202020202020202020202020202064657070616D203B2020202020202020202034353530,
  0x484F2052455454454C204C415449504143204E41494E454D52412020312E3120232020202020202020202035383530203B202020202020202020202020202020202064657070616D203B2020202020202020202035353530,
  0x4845462052455454454C204C415449504143204E41494E454D52412020312E3120232020202020202020202036383530203B202020202020202020202020202020202064657070616D203B2020202020202020202036353530,
  0x3E383535302D64657672657365723C2E2E3E373535302D64657672657365723C202020414E202320202020202020202020202020202020202020202020202020202020206465776F6C6C61736964203B20202020383535302E2E37353530,
  0x474E495220464C4148205446454C2052455454454C205245494649444F4D204E41494E454D52412020312E3120232020202020202020202020202020202020202020202020202020202020202020202064696C6176203B2020202020202020202039353530,
  0x4B52414D204E4F49544149564552424241204E41494E454D52412E2E4548504F5254534F5041204E41494E454D52412020312E3120232020202038564E203B2020202020203B20202020202020202020202020202020202064696C6176203B20202020463535302E2E41353530,
  0x4259412044454E5255542052455454454C204C4C414D53204E41494E454D524120302E313120232020202020202020202020202020202020202020202020202020202020202020202064696C6176203B2020202020202020202030363530,
  0x4845462052455454454C204C4C414D53204E41494E454D52412E2E4259412052455454454C204C4C414D53204E41494E454D52412020312E3120232020202020202020202020202020202020202020202020202020202020202020202064696C6176203B20202020363835302E2E31363530,
  0x4E5749592048434520455255544147494C204C4C414D53204E41494E454D52412020312E3120232020202020323835302035363530203B202020202020202020202020202020202064657070616D203B2020202020202020202037383530,
  0x454B4F52545320485449572049592052455454454C204C4C414D53204E41494E454D524120302E313120232020202020202020202020202020202020202020202020202020202020202020202064696C6176203B2020202020202020202038383530,
  0x504F5453204C4C5546204E41494E454D52412020312E3120232020202038564E203B2020202020203B20202020202020202020202020202020202064696C6176203B2020202020202020202039383530,
  0x4E4548505948204E41494E454D52412020302E3320232020202038564E203B2020202020203B20202020202020202020202020202020202064696C6176203B2020202020202020202041383530,
  0x3E433835302D64657672657365723C2E2E3E423835302D64657672657365723C202020414E202320202020202020202020202020202020202020202020202020202020206465776F6C6C61736964203B20202020433835302E2E42383530,
  0x4E474953205954494E52455445204E41494E454D524120474E494341462D5446454C2E2E4E474953205954494E52455445204E41494E454D524120474E494341462D54484749522020302E3720232020202038564E203B2020202020203B20202020202020202020202020202020202064696C6176203B20202020453835302E2E44383530,
  0x4E474953204D415244204E41494E454D52412020312E3620232020202038564E203B2020202020203B20202020202020202020202020202020202064696C6176203B2020202020202020202046383530,
  0x3E303935302D64657672657365723C202020414E202320202020202020202020202020202020202020202020202020202020206465776F6C6C61736964203B2020202020202020202030393530,
  0x52455A415020544E45434341205745524245482E2E415448414E544520544E45434341205745524245482020302E3220232020202020202020202020202020202020202020202020202020202020202020202064696C6176203B20202020314135302E2E31393530,
  0x484B554641482048414E544120544E45434341205745524245482020312E3420232020202020202020202020202020202020202020202020202020202020202020202064696C6176203B2020202020202020202032413530,
  0x454C435249432041524F53414D204B52414D205745524245482E2E48414E554D20544E45434341205745524245482020302E3220232020202020202020202020202020202020202020202020202020202020202020202064696C6176203B20202020464135302E2E33413530,
  0x4D414C4F4820544E494F50205745524245482E2E415645485320544E494F50205745524245482020312E3120232020202020202020202020202020202020202020202020202020202020202020202064696C6176203B20202020394235302E2E30423530,
  0x56415620524F46205245534148204D414C4F4820544E494F50205745524245482020302E3520232020202020202020202020202020202020202020202020202020202020202020202064696C6176203B2020202020202020202041423530,
  0x474554454D20544E494F50205745524245482E2E53545542555120544E494F50205745524245482020312E3120232020202020202020202020202020202020202020202020202020202020202020202064696C6176203B20202020444235302E2E42423530,
  0x464151414D204E4F4954415554434E5550205745524245482020312E3120232020202038564E203B2020202020203B20202020202020202020202020202020202064696C6176203B2020202020202020202045423530,
  0x4546415220544E494F50205745524245482020312E3120232020202020202020202020202020202020202020202020202020202020202020202064696C6176203B2020202020202020202046423530,
  0x5145534150204E4F4954415554434E5550205745524245482020312E3120232020202038564E203B2020202020203B20202020202020202020202020202020202064696C6176203B2020202020202020202030433530,
  0x544F44204E495320544E494F50205745524245482E2E544F44204E49485320544E494F50205745524245482020312E3120232020202020202020202020202020202020202020202020202020202020202020202064696C6176203B20202020324335302E2E31433530,
  0x515553415020464F53204E4F4954415554434E5550205745524245482020312E3120232020202038564E203B2020202020203B20202020202020202020202020202020202064696C6176203B2020202020202020202033433530,
  0x544F44205245505055204B52414D205745524245482020302E3220232020202020202020202020202020202020202020202020202020202020202020202064696C6176203B2020202020202020202034433530,
  0x544F44205245574F4C204B52414D205745524245482020312E3420232020202020202020202020202020202020202020202020202020202020202020202064696C6176203B2020202020202020202035433530,
  0x41484B55464148204E554E204E4F4954415554434E5550205745524245482020312E3420232020202038564E203B2020202020203B20202020202020202020202020202020202064696C6176203B2020202020202020202036433530,
  0x4E41544151205354414D415120544E494F50205745524245482020312E3420232020202020202020202020202020202020202020202020202020202020202020202064696C6176203B2020202020202020202037433530,
  0x3E464335302D64657672657365723C2E2E3E384335302D64657672657365723C202020414E202320202020202020202020202020202020202020202020202020202020206465776F6C6C61736964203B20202020464335302E2E38433530,
  0x5641542052455454454C205745524245482E2E46454C412052455454454C205745524245482020312E3120232020202020202020202020202020202020202020202020202020202020202020202064696C6176203B20202020414535302E2E30443530,
  0x3E454535302D64657672657365723C2E2E3E424535302D64657672657365723C202020414E202320202020202020202020202020202020202020202020202020202020206465776F6C6C61736964203B20202020454535302E2E42453530,
  0x454C474E4149525420444F592057455242454820302E313120232020202020202020202020202020202020202020202020202020202020202020202064696C6176203B2020202020202020202046453530,
  0x4D4959414853524547204E4F4954415554434E5550205745524245482E2E56415620454C42554F44204853494444495920455255544147494C205745524245482020312E3120232020202020202020202020202020202020202020202020202020202020202020202064696C6176203B20202020344635302E2E30463530,
  0x3E464635302D64657672657365723C2E2E3E354635302D64657672657365723C202020414E202320202020202020202020202020202020202020202020202020202020206465776F6C6C61736964203B20202020464635302E2E35463530,
  0x4148464153204E474953204349424152412E2E4E474953205245424D554E204349424152412020302E34202320202020202020202020202020202020202020202020202020202020206465776F6C6C61736964203B20202020333036302E2E30303630,
  0x5441564D4153204E474953204349424152412020312E36202320202020202020202020202020202020202020202020202020202020206465776F6C6C61736964203B2020202020202020202034303630,
  0x45564F4241204B52414D205245424D554E204349424152412020302E37202320202020202020202020202020202020202020202020202020202020206465776F6C6C61736964203B2020202020202020202035303630,
  0x4E47495320444E4153554F4854204E455420524550204349444E492D4349424152412E2E544F4F522045425543204349444E492D4349424152412020312E3520232020202038564E203B2020202020203B20202020202020202020202020202020202064696C6176203B20202020413036302E2E36303630,
  0x4E47495320494E41484746412020312E3420232020202038564E203B2020202020203B20202020202020202020202020202020202064696C6176203B2020202020202020202042303630,
  0x414D4D4F43204349424152412020312E3120232020202038564E203B2020202020203B20202020202020202020202020202020202064696C6176203B2020202020202020202043303630,
  0x415253494D204E474953204349424152412E2E524F544152415045532045544144204349424152412020302E3420232020202038564E203B2020202020203B20202020202020202020202020202020202064696C6176203B20202020463036302E2E44303630,
  0x4841542048474948204C4C414D53204349424152412E2E4D414C4C415353415720454859414C4120554F48414C4C414C4C4153204E474953204349424152412020302E3420232020202020202020202020202020202020202020202020202020202020202020202064696C6176203B20202020353136302E2E30313630,
  0x415253414B204C4C414D53204349424152412E2E4845592048544957204D414C20485449572046454C4120455255544147494C2048474948204C4C414D53204349424152412020312E3520232020202020202020202020202020202020202020202020202020202020202020202064696C6176203B20202020413136302E2E36313630,
  0x4E4F4C4F43494D4553204349424152412020312E3120232020202038564E203B2020202020203B20202020202020202020202020202020202064696C6176203B2020202020202020202042313630,
  0x4B52414D2052455454454C204349424152412020332E36202320202020202020202020202020202020202020202020202020202020206465776F6C6C61736964203B2020202020202020202043313630,
  0x3E443136302D64657672657365723C202020414E202320202020202020202020202020202020202020202020202020202020206465776F6C6C61736964203B2020202020202020202044313630,
  0x4B52414D204E4F4954415554434E555020544F4420454C50495254204349424152412020312E3420232020202038564E203B2020202020203B20202020202020202020202020202020202064696C6176203B2020202020202020202045313630,
  0x4B52414D204E4F495453455551204349424152412020312E3120232020202038564E203B2020202020203B20202020202020202020202020202020202064696C6176203B2020202020202020202046313630,
  0x484559204952494D4853414B2052455454454C204349424152412020302E3620232020202020202020202020202020202020202020202020202020202020202020202064696C6176203B2020202020202020202030323630,
  0x4E494148472052455454454C204349424152412E2E415A4D41482052455454454C204349424152412020312E3120232020202020202020202020202020202020202020202020202020202020202020202064696C6176203B20202020413336302E2E31323630,
  0x45564F42412053544F442045455248542048544957204845592049535241462052455454454C204349424152412E2E45564F42412053544F44204F5754204854495720484548454B2052455454454C204349424152412020312E3520232020202020202020202020202020202020202020202020202020202020202020202064696C6176203B20202020463336302E2E42333630,
  0x4C454557544154204349424152412020312E3120232020202038564E203B2020202020203B20202020202020202020202020202020202064696C6176203B2020202020202020202030343630,
  0x4E554B5553204349424152412E2E4845462052455454454C204349424152412020312E3120232020202020202020202020202020202020202020202020202020202020202020202064696C6176203B20202020323536302E2E31343630,
  0x574F4C454220415A4D4148204349424152412E2E45564F42412048414444414D204349424152412020302E3320232020202020202020202020202020202020202020202020202020202020202020202064696C6176203B20202020353536302E2E33353630,
  0x414E4E554847204E4F4F4E204B52414D204349424152412E2E46454C4120545049524353425553204349424152412020302E3420232020202020202020202020202020202020202020202020202020202020202020202064696C6176203B20202020383536302E2E36353630,
  0x53544F44204F57542048544957204148544146204349424152412E2E59414B415241575A204349424152412020312E3420232020202020202020202020202020202020202020202020202020202020202020202064696C6176203B20202020453536302E2E39353630,
  0x574F4C454220415A4D41482059564157204349424152412020302E3620232020202020202020202020202020202020202020202020202020202020202020202064696C6176203B2020202020202020202046353630,
  0x454E494E205449474944204349444E492D4349424152412E2E4F52455A205449474944204349444E492D4349424152412020312E3120232020202020202020202020202020202020202020202020202020202020202020202064696C6176203B20202020393636302E2E30363630,
  0x52415453204445544E494F502045564946204349424152412E2E4E47495320544E4543524550204349424152412020312E3120232020202038564E203B2020202020203B20202020202020202020202020202020202064696C6176203B20202020443636302E2E41363630,
  0x464151205353454C544F442052455454454C204349424152412E2E484542205353454C544F442052455454454C204349424152412020322E3320232020202020202020202020202020202020202020202020202020202020202020202064696C6176203B20202020463636302E2E45363630,
  0x415A4D414820484749482052455454454C204349424152412E2E46454C412054504952435352455055532052455454454C204349424152412020312E3120232020202020202020202020202020202020202020202020202020202020202020202064696C6176203B20202020343736302E2E30373630,
  0x46454C4120415A4D414820484749482052455454454C204349424152412020312E3120232020202020343736302037323630203B202020202020202020202020202020202064657070616D203B2020202020202020202035373630,
  0x57415720415A4D414820484749482052455454454C204349424152412020312E3120232020202020343736302038343630203B202020202020202020202020202020202064657070616D203B2020202020202020202036373630,
  0x45564F424120415A4D4148204854495720552052455454454C204349424152412020312E3120232020202020343736302037433630203B202020202020202020202020202020202064657070616D203B2020202020202020202037373630,
  0x48455920415A4D414820484749482052455454454C204349424152412020312E3120232020202020343736302041343630203B202020202020202020202020202020202064657070616D203B2020202020202020202038373630,
  0x45564F42412053544F442045455248542048544957204D414C2052455454454C204349424152412E2E484554542052455454454C204349424152412020312E3120232020202020202020202020202020202020202020202020202020202020202020202064696C6176203B20202020374236302E2E39373630,
  0x574F4C454220544F442048544957204E4F4F4E2052455454454C204349424152412E2E574F4C45422053544F442045455248542048544957204D414C2052455454454C204349424152412020302E3320232020202020202020202020202020202020202020202020202020202020202020202064696C6176203B20202020394236302E2E38423630,
  0x45454D4853414843414F44204845482052455454454C204349424152412E2E414E4E554847204E4F4F4E2052455454454C204349424152412020312E3120232020202020202020202020202020202020202020202020202020202020202020202064696C6176203B20202020454236302E2E41423630,
  0x45564F424120544F4420485449572048454843542052455454454C204349424152412020302E3320232020202020202020202020202020202020202020202020202020202020202020202064696C6176203B2020202020202020202046423630,
  0x56204C4C414D532048544957204845592052455454454C204349424152412E2E45564F4241204845592048544957204845482052455454454C204349424152412020312E3120232020202020202020202020202020202020202020202020202020202020202020202064696C6176203B20202020454336302E2E30433630,
  0x45564F424120544F442048544957205741572052455454454C204349424152412020302E3320232020202020202020202020202020202020202020202020202020202020202020202064696C6176203B2020202020202020202046433630,
  0x45564F424120415A4D4148204854495720454552524142204845592052455454454C204349424152412E2E452052455454454C204349424152412020312E3120232020202020202020202020202020202020202020202020202020202020202020202064696C6176203B20202020334436302E2E30443630,
  0x504F5453204C4C5546204349424152412020312E3120232020202038564E203B2020202020203B20202020202020202020202020202020202064696C6176203B2020202020202020202034443630,
  0x4E4545532048474948204C4C414D53204349424152412E2E45412052455454454C204349424152412020312E3120232020202020202020202020202020202020202020202020202020202020202020202064696C6176203B20202020434436302E2E35443630,
  0x4841594120464F20444E45204349424152412020312E31202320202020202020202020202020202020202020202020202020202020206465776F6C6C61736964203B2020202020202020202044443630,
  0x425A4948204C452042555220464F205452415453204349424152412020312E3120232020202038564E203B2020202020203B20202020202020202020202020202020202064696C6176203B2020202020202020202045443630,
  0x4E4F4F4E2048474948204C4C414D53204349424152412E2E4F52455A204445444E554F522048474948204C4C414D53204349424152412020312E3120232020202020202020202020202020202020202020202020202020202020202020202064696C6176203B20202020384536302E2E46443630,
  0x4841444A415320464F204543414C50204349424152412020312E3120232020202038564E203B2020202020203B20202020202020202020202020202020202064696C6176203B2020202020202020202039453630,
  0x4D45454D20574F4C204C4C414D53204349424152412E2E504F545320574F4C204552544E4543205954504D45204349424152412020312E3120232020202020202020202020202020202020202020202020202020202020202020202064696C6176203B20202020444536302E2E41453630,
  0x56204445545245564E492048544957204845522052455454454C204349424152412E2E56204445545245564E492048544957204C41442052455454454C204349424152412020302E3420232020202020202020202020202020202020202020202020202020202020202020202064696C6176203B20202020464536302E2E45453630,
  0x454E494E205449474944204349444E492D434942415241204445444E455458452E2E4F52455A205449474944204349444E492D434942415241204445444E455458452020312E3120232020202020202020202020202020202020202020202020202020202020202020202064696C6176203B20202020394636302E2E30463630,
  0x4E454D204E4F495449534F5054534F50204948444E4953204E474953204349424152412E2E574F4C454220544F442048544957204E454548532052455454454C204349424152412020302E3320232020202020202020202020202020202020202020202020202020202020202020202064696C6176203B20202020454636302E2E41463630,
  0x56204445545245564E492048544957204845482052455454454C204349424152412020302E3420232020202020202020202020202020202020202020202020202020202020202020202064696C6176203B2020202020202020202046463630,
  0x53554353495245545341204E41454C4B524148204341495259532E2E48504152474152415020464F20444E45204341495259532020302E3320232020202038564E203B2020202020203B20202020202020202020202020202020202064696C6176203B20202020443037302E2E30303730,
  0x3E453037302D64657672657365723C202020414E202320202020202020202020202020202020202020202020202020202020206465776F6C6C61736964203B2020202020202020202045303730,
  0x4B52414D204E4F49544149564552424241204341495259532020302E33202320202020202020202020202020202020202020202020202020202020206465776F6C6C61736964203B2020202020202020202046303730,
  0x5741542052455454454C204341495259532E2E4850414C412052455454454C204341495259532020302E3320232020202020202020202020202020202020202020202020202020202020202020202064696C6176203B20202020433237302E2E30313730,
  0x4854414C414844204E4149535245502052455454454C204341495259532E2E4854454842204E4149535245502052455454454C204341495259532020302E3420232020202020202020202020202020202020202020202020202020202020202020202064696C6176203B20202020463237302E2E44323730,
  0x484B4552524142204341495259532E2E45564F424120414841485450204341495259532020302E3320232020202020202020202020202020202020202020202020202020202020202020202064696C6176203B20202020413437302E2E30333730,
  0x3E433437302D64657672657365723C2E2E3E423437302D64657672657365723C202020414E202320202020202020202020202020202020202020202020202020202020206465776F6C6C61736964203B20202020433437302E2E42343730,
  0x4546204E414944474F532052455454454C204341495259532E2E4E4941485A204E414944474F532052455454454C204341495259532020302E3420232020202020202020202020202020202020202020202020202020202020202020202064696C6176203B20202020463437302E2E44343730,
  0x45564F424120594C4C414349545245562053544F44204F57542048544957204E4545532052455454454C204349424152412E2E574F4C454220594C4C41544E4F5A49524F482053544F442045455248542048544957204845422052455454454C204349424152412020312E3420232020202020202020202020202020202020202020202020202020202020202020202064696C6176203B20202020443637302E2E30353730,
  0x45564F42412053544F44204F575420485449572046414B2052455454454C204349424152412E2E574F4C4542204841542052455454454C20434942415241204C4C414D532048544957204841482052455454454C204349424152412020312E3520232020202020202020202020202020202020202020202020202020202020202020202064696C6176203B20202020463737302E2E45363730,
  0x4E554B555320414E414148542E2E4141482052455454454C20414E414148542020302E3320232020202020202020202020202020202020202020202020202020202020202020202064696C6176203B20202020304237302E2E30383730,
  0x41414E2052455454454C20414E414148542020322E3320232020202020202020202020202020202020202020202020202020202020202020202064696C6176203B2020202020202020202031423730,
  0x3E464237302D64657672657365723C2E2E3E324237302D64657672657365723C202020414E202320202020202020202020202020202020202020202020202020202020206465776F6C6C61736964203B20202020464237302E2E32423730,
  0x4548504F5254534F504120454E4F5420574F4C204F4B4E2E2E4F52455A205449474944204F4B4E2020302E3520232020202020202020202020202020202020202020202020202020202020202020202064696C6176203B20202020354637302E2E30433730,
  0x4E414C41594E414A414C204F4B4E2E2E4E454E4E4544204F4F204C4F424D5953204F4B4E2020302E3520232020202038564E203B2020202020203B20202020202020202020202020202020202064696C6176203B20202020414637302E2E36463730,
  0x3E434637302D64657672657365723C2E2E3E424637302D64657672657365723C202020414E202320202020202020202020202020202020202020202020202020202020206465776F6C6C61736964203B20202020434637302E2E42463730,
  0x4E414C415941544E4144204F4B4E20302E313120232020202020202020202020202020202020202020202020202020202020202020202064696C6176203B2020202020202020202044463730,
  0x4E474953204E414D4154204F4B4E2E2E4E47495320454D4F524F44204F4B4E20302E313120232020202038564E203B2020202020203B20202020202020202020202020202020202064696C6176203B20202020464637302E2E45463730,
  0x4141445551454E204B52414D204E41544952414D41532E2E46414C412052455454454C204E41544952414D41532020322E3520232020202020202020202020202020202020202020202020202020202020202020202064696C6176203B20202020443238302E2E30303830,
  0x3E463238302D64657672657365723C2E2E3E453238302D64657672657365723C202020414E202320202020202020202020202020202020202020202020202020202020206465776F6C6C61736964203B20202020463238302E2E45323830,
  0x5541414E4E41204E4F4954415554434E5550204E41544952414D41532E2E4141445551454E204E4F4954415554434E5550204E41544952414D41532020322E3520232020202038564E203B2020202020203B20202020202020202020202020202020202064696C6176203B20202020453338302E2E30333830,
  0x3E463338302D64657672657365723C202020414E202320202020202020202020202020202020202020202020202020202020206465776F6C6C61736964203B2020202020202020202046333830,
  0x4B52414D204E4F4954414E494D454720434941444E414D2E2E41514C41482052455454454C20434941444E414D2020302E3620232020202020202020202020202020202020202020202020202020202020202020202064696C6176203B20202020423538302E2E30343830,
  0x3E443538302D64657672657365723C2E2E3E433538302D64657672657365723C202020414E202320202020202020202020202020202020202020202020202020202020206465776F6C6C61736964203B20202020443538302E2E43353830,
  0x4E4F4954415554434E555020434941444E414D2020302E3620232020202038564E203B2020202020203B20202020202020202020202020202020202064696C6176203B2020202020202020202045353830,
  0x3E463538302D64657672657365723C202020414E202320202020202020202020202020202020202020202020202020202020206465776F6C6C61736964203B2020202020202020202046353830,
  0x415353204D414C4159414C414D2052455454454C204341495259532E2E41474E204D414C4159414C414D2052455454454C2043414952595320302E303120232020202020202020202020202020202020202020202020202020202020202020202064696C6176203B20202020413638302E2E30363830,
  0x3E463938302D64657672657365723C2E2E3E423638302D64657672657365723C202020414E202320202020202020202020202020202020202020202020202020202020206465776F6C6C61736964203B20202020463938302E2E42363830,
  0x574F4C45422056204C4C414D532048544957204845422052455454454C204349424152412020312E3620232020202020202020202020202020202020202020202020202020202020202020202064696C6176203B2020202020202020202030413830,
  0x45564F424120415A4D41482048544957204845422052455454454C204349424152412020302E3720232020202020202020202020202020202020202020202020202020202020202020202064696C6176203B2020202020202020202031413830,
  0x484559204159474E49484F522052455454454C204349424152412E2E45564F42412053544F44204F57542048544957204D45454A2052455454454C204349424152412020312E3620232020202020202020202020202020202020202020202020202020202020202020202064696C6176203B20202020434138302E2E32413830,
  0x45564F42412056204445545245564E492048544957204E49415A2052455454454C204349424152412E2E46454C4120574F4C2052455454454C204349424152412020302E3720232020202020202020202020202020202020202020202020202020202020202020202064696C6176203B20202020324238302E2E44413830,
  0x574F4C454220544F4420485449572046414B2052455454454C204349424152412E2E574F4C45422053544F442045455248542048544957204E49412052455454454C204349424152412020302E3820232020202020202020202020202020202020202020202020202020202020202020202064696C6176203B20202020344238302E2E33423830,
  0x3E354238302D64657672657365723C202020414E202320202020202020202020202020202020202020202020202020202020206465776F6C6C61736964203B2020202020202020202035423830,
  0x4E4F4F4E204E4143495246412052455454454C204349424152412E2E45564F4241204D45454D204C4C414D532048544957204845422052455454454C204349424152412020302E3920232020202020202020202020202020202020202020202020202020202020202020202064696C6176203B20202020444238302E2E36423830,
  0x45564F4241204841542052455454454C20434942415241204C4C414D532048544957204D414C2052455454454C204349424152412E2E56204C4C414D532048544957204845502052455454454C2043494241524120302E333120232020202020202020202020202020202020202020202020202020202020202020202064696C6176203B20202020374338302E2E45423830,
  0x3E324438302D64657672657365723C2E2E3E384338302D64657672657365723C202020414E202320202020202020202020202020202020202020202020202020202020206465776F6C6C61736964203B20202020324438302E2E38433830,
  0x57415720574F4C204C4C414D532043494241524120302E313120232020202020202020202020202020202020202020202020202020202020202020202064696C6176203B2020202020202020202033443830,
  0x4148464153204E4749532048474948204C4C414D53204349424152412E2E4255522D52412044524F572048474948204C4C414D53204349424152412020302E3920232020202020202020202020202020202020202020202020202020202020202020202064696C6176203B20202020314538302E2E34443830,
  0x4841594120464F20444E45204445545550534944204349424152412020302E39202320202020202020202020202020202020202020202020202020202020206465776F6C6C61736964203B2020202020202020202032453830,
  0x574F4C454220414D4D41442044454E525554204349424152412020302E3820232020202020202020202020202020202020202020202020202020202020202020202064696C6176203B2020202020202020202033453830,
  0x544F44204854495720414D4D4144204349424152412E2E414854414620594C525543204349424152412020312E3620232020202020202020202020202020202020202020202020202020202020202020202064696C6176203B20202020454638302E2E34453830,
  0x414E4E554847204E4F4F4E205359415745444953204B52414D204349424152412020302E3720232020202020202020202020202020202020202020202020202020202020202020202064696C6176203B2020202020202020202046463830,
  0x55444E49424152444E4143204445545245564E49204E4749532049524147414E415645442020322E3520232020202020202020202020202020202020202020202020202020202020202020202064696C6176203B2020202020202020202030303930,
  0x41475241534956204E4749532049524147414E415645442E2E55444E49424152444E4143204E4749532049524147414E415645442020312E3120232020202020202020202020202020202020202020202020202020202020202020202064696C6176203B20202020333039302E2E31303930,
  0x412054524F48532052455454454C2049524147414E415645442020302E3420232020202020202020202020202020202020202020202020202020202020202020202064696C6176203B2020202020202020202034303930,
  0x41482052455454454C2049524147414E415645442E2E412052455454454C2049524147414E415645442020312E3120232020202020202020202020202020202020202020202020202020202020202020202064696C6176203B20202020393339302E2E35303930,
  0x454F4F204E474953204C45574F562049524147414E415645442E2E454F204E474953204C45574F562049524147414E415645442020302E3620232020202020202020202020202020202020202020202020202020202020202020202064696C6176203B20202020423339302E2E41333930,
  0x414D41524956204E4749532049524147414E415645442E2E41544B554E204E4749532049524147414E415645442020312E3120232020202020202020202020202020202020202020202020202020202020202020202064696C6176203B20202020443439302E2E43333930,
  0x4520415254414D4148544853495250204E474953204C45574F562049524147414E415645442020322E3520232020202020202020202020202020202020202020202020202020202020202020202064696C6176203B2020202020202020202045343930,
  0x5741204E474953204C45574F562049524147414E415645442020302E3620232020202020202020202020202020202020202020202020202020202020202020202064696C6176203B2020202020202020202046343930,
  0x544E454343412045545543412049524147414E415645442E2E4D4F2049524147414E415645442020312E3120232020202020202020202020202020202020202020202020202020202020202020202064696C6176203B20202020343539302E2E30353930,
  0x4520474E4F4C204152444E4143204E474953204C45574F562049524147414E415645442020322E3520232020202020202020202020202020202020202020202020202020202020202020202064696C6176203B2020202020202020202035353930,
  0x455555204E474953204C45574F562049524147414E415645442E2E4555204E474953204C45574F562049524147414E415645442020302E3620232020202020202020202020202020202020202020202020202020202020202020202064696C6176203B20202020373539302E2E36353930]

def mapText4 : List Nat := [
  0x41512052455454454C2049524147414E415645442020312E3120232020202020433339302035313930203B202020202020202020202020202020202064657070616D203B2020202020202020202038353930,
  0x4148484B2052455454454C2049524147414E415645442020312E3120232020202020433339302036313930203B202020202020202020202020202020202064657070616D203B2020202020202020202039353930,
  0x414848472052455454454C2049524147414E415645442020312E3120232020202020433339302037313930203B202020202020202020202020202020202064657070616D203B2020202020202020202041353930,
  0x415A2052455454454C2049524147414E415645442020312E3120232020202020433339302043313930203B202020202020202020202020202020202064657070616D203B2020202020202020202042353930,
  0x41484444442052455454454C2049524147414E415645442020312E3120232020202020433339302031323930203B202020202020202020202020202020202064657070616D203B2020202020202020202043353930,
  0x4148522052455454454C2049524147414E415645442020312E3120232020202020433339302032323930203B202020202020202020202020202020202064657070616D203B2020202020202020202044353930,
  0x41462052455454454C2049524147414E415645442020312E3120232020202020433339302042323930203B202020202020202020202020202020202064657070616D203B2020202020202020202045353930,
  0x4159592052455454454C2049524147414E415645442020312E3120232020202020433339302046323930203B202020202020202020202020202020202064657070616D203B2020202020202020202046353930,
  0x4C4C2043494C41434F56204E474953204C45574F562049524147414E415645442E2E52522043494C41434F562052455454454C2049524147414E415645442020312E3120232020202020202020202020202020202020202020202020202020202020202020202064696C6176203B20202020333639302E2E30363930,
  0x41444E414420454C42554F442049524147414E415645442E2E41444E41442049524147414E415645442020312E3120232020202038564E203B2020202020203B20202020202020202020202020202020202064696C6176203B20202020353639302E2E34363930,
  0x454E494E2054494749442049524147414E415645442E2E4F52455A2054494749442049524147414E415645442020312E3120232020202020202020202020202020202020202020202020202020202020202020202064696C6176203B20202020463639302E2E36363930,
  0x4E474953204E4F495441495645524242412049524147414E415645442020312E3120232020202038564E203B2020202020203B20202020202020202020202020202020202064696C6176203B2020202020202020202030373930,
  0x41204152444E41432052455454454C2049524147414E415645442E2E544F4420474E49434150532048474948204E4749532049524147414E415645442020312E3520232020202020202020202020202020202020202020202020202020202020202020202064696C6176203B20202020323739302E2E31373930,
  0x4555552052455454454C2049524147414E415645442E2E454F2052455454454C2049524147414E415645442020302E3620232020202020202020202020202020202020202020202020202020202020202020202064696C6176203B20202020373739302E2E33373930,
  0x414444204952415752414D2052455454454C2049524147414E415645442020302E3720232020202020202020202020202020202020202020202020202020202020202020202064696C6176203B2020202020202020202038373930,
  0x41592059564145482052455454454C2049524147414E415645442E2E41485A2052455454454C2049524147414E415645442020322E3520232020202020202020202020202020202020202020202020202020202020202020202064696C6176203B20202020413739302E2E39373930,
  0x414A4A2052455454454C2049524147414E415645442E2E4147472052455454454C2049524147414E415645442020302E3520232020202020202020202020202020202020202020202020202020202020202020202064696C6176203B20202020433739302E2E42373930,
  0x504F5453204C4154544F4C472052455454454C2049524147414E415645442020312E3420232020202020202020202020202020202020202020202020202020202020202020202064696C6176203B2020202020202020202044373930,
  0x4142422052455454454C2049524147414E415645442E2E414444442052455454454C2049524147414E415645442020302E3520232020202020202020202020202020202020202020202020202020202020202020202064696C6176203B20202020463739302E2E45373930,
  0x494A4E4120494C41474E45422020302E3720232020202020202020202020202020202020202020202020202020202020202020202064696C6176203B2020202020202020202030383930,
  0x41475241534956204E47495320494C41474E45422E2E55444E49424152444E4143204E47495320494C41474E45422020312E3120232020202020202020202020202020202020202020202020202020202020202020202064696C6176203B20202020333839302E2E31383930,
  0x3E343839302D64657672657365723C202020414E202320202020202020202020202020202020202020202020202020202020206465776F6C6C61736964203B2020202020202020202034383930,
  0x4C2043494C41434F562052455454454C20494C41474E45422E2E412052455454454C20494C41474E45422020312E3120232020202020202020202020202020202020202020202020202020202020202020202064696C6176203B20202020433839302E2E35383930,
  0x3E453839302D64657672657365723C2E2E3E443839302D64657672657365723C202020414E202320202020202020202020202020202020202020202020202020202020206465776F6C6C61736964203B20202020453839302E2E44383930,
  0x49412052455454454C20494C41474E45422E2E452052455454454C20494C41474E45422020312E3120232020202020202020202020202020202020202020202020202020202020202020202064696C6176203B20202020303939302E2E46383930,
  0x3E323939302D64657672657365723C2E2E3E313939302D64657672657365723C202020414E202320202020202020202020202020202020202020202020202020202020206465776F6C6C61736964203B20202020323939302E2E31393930,
  0x414E2052455454454C20494C41474E45422E2E4F2052455454454C20494C41474E45422020312E3120232020202020202020202020202020202020202020202020202020202020202020202064696C6176203B20202020384139302E2E33393930,
  0x3E394139302D64657672657365723C202020414E202320202020202020202020202020202020202020202020202020202020206465776F6C6C61736964203B2020202020202020202039413930,
  0x41522052455454454C20494C41474E45422E2E41502052455454454C20494C41474E45422020312E3120232020202020202020202020202020202020202020202020202020202020202020202064696C6176203B20202020304239302E2E41413930,
  0x3E314239302D64657672657365723C202020414E202320202020202020202020202020202020202020202020202020202020206465776F6C6C61736964203B2020202020202020202031423930,
  0x414C2052455454454C20494C41474E45422020312E3120232020202020202020202020202020202020202020202020202020202020202020202064696C6176203B2020202020202020202032423930,
  0x3E354239302D64657672657365723C2E2E3E334239302D64657672657365723C202020414E202320202020202020202020202020202020202020202020202020202020206465776F6C6C61736964203B20202020354239302E2E33423930,
  0x41482052455454454C20494C41474E45422E2E4148532052455454454C20494C41474E45422020312E3120232020202020202020202020202020202020202020202020202020202020202020202064696C6176203B20202020394239302E2E36423930,
  0x3E424239302D64657672657365723C2E2E3E414239302D64657672657365723C202020414E202320202020202020202020202020202020202020202020202020202020206465776F6C6C61736964203B20202020424239302E2E41423930,
  0x41544B554E204E47495320494C41474E45422020312E3120232020202020202020202020202020202020202020202020202020202020202020202064696C6176203B2020202020202020202043423930,
  0x4148415247415641204E47495320494C41474E45422020302E3420232020202020202020202020202020202020202020202020202020202020202020202064696C6176203B2020202020202020202044423930,
  0x52522043494C41434F56204E474953204C45574F5620494C41474E45422E2E4141204E474953204C45574F5620494C41474E45422020312E3120232020202020202020202020202020202020202020202020202020202020202020202064696C6176203B20202020344339302E2E45423930,
  0x3E364339302D64657672657365723C2E2E3E354339302D64657672657365723C202020414E202320202020202020202020202020202020202020202020202020202020206465776F6C6C61736964203B20202020364339302E2E35433930,
  0x4941204E474953204C45574F5620494C41474E45422E2E45204E474953204C45574F5620494C41474E45422020312E3120232020202020202020202020202020202020202020202020202020202020202020202064696C6176203B20202020384339302E2E37433930,
  0x3E414339302D64657672657365723C2E2E3E394339302D64657672657365723C202020414E202320202020202020202020202020202020202020202020202020202020206465776F6C6C61736964203B20202020414339302E2E39433930,
  0x414D41524956204E47495320494C41474E45422E2E4F204E474953204C45574F5620494C41474E45422020312E3120232020202020202020202020202020202020202020202020202020202020202020202064696C6176203B20202020444339302E2E42433930,
  0x41542041444E41484B2052455454454C20494C41474E45422020312E3420232020202020202020202020202020202020202020202020202020202020202020202064696C6176203B2020202020202020202045433930,
  0x3E364439302D64657672657365723C2E2E3E464339302D64657672657365723C202020414E202320202020202020202020202020202020202020202020202020202020206465776F6C6C61736964203B20202020364439302E2E46433930,
  0x4B52414D204854474E454C20554120494C41474E45422020312E3120232020202020202020202020202020202020202020202020202020202020202020202064696C6176203B2020202020202020202037443930,
  0x3E424439302D64657672657365723C2E2E3E384439302D64657672657365723C202020414E202320202020202020202020202020202020202020202020202020202020206465776F6C6C61736964203B20202020424439302E2E38443930,
  0x4152522052455454454C20494C41474E45422020312E3120232020202020434239302031413930203B202020202020202020202020202020202064657070616D203B2020202020202020202043443930,
  0x4148522052455454454C20494C41474E45422020312E3120232020202020434239302032413930203B202020202020202020202020202020202064657070616D203B2020202020202020202044443930,
  0x3E454439302D64657672657365723C202020414E202320202020202020202020202020202020202020202020202020202020206465776F6C6C61736964203B2020202020202020202045443930,
  0x4159592052455454454C20494C41474E45422020312E3120232020202020434239302046413930203B202020202020202020202020202020202064657070616D203B2020202020202020202046443930,
  0x4C4C2043494C41434F56204E474953204C45574F5620494C41474E45422E2E52522043494C41434F562052455454454C20494C41474E45422020312E3120232020202020202020202020202020202020202020202020202020202020202020202064696C6176203B20202020334539302E2E30453930,
  0x3E354539302D64657672657365723C2E2E3E344539302D64657672657365723C202020414E202320202020202020202020202020202020202020202020202020202020206465776F6C6C61736964203B20202020354539302E2E34453930,
  0x4C414E4F47414944205245574F4C20485449572041522052455454454C20494C41474E45422E2E4F52455A20544947494420494C41474E45422020312E3120232020202020202020202020202020202020202020202020202020202020202020202064696C6176203B20202020314639302E2E36453930,
  0x52414853534920494C41474E45422E2E4B52414D20454550555220494C41474E45422020312E3120232020202038564E203B2020202020203B20202020202020202020202020202020202064696C6176203B20202020414639302E2E32463930,
  0x4B52414D2041444E414720494C41474E45422020322E3520232020202038564E203B2020202020203B20202020202020202020202020202020202064696C6176203B2020202020202020202042463930,
  0x4152415653554E412043494445562052455454454C20494C41474E454220302E303120232020202020202020202020202020202020202020202020202020202020202020202064696C6176203B2020202020202020202043463930,
  0x4E474953204E4F4954414956455242424120494C41474E454220302E303120232020202038564E203B2020202020203B20202020202020202020202020202020202064696C6176203B2020202020202020202044463930,
  0x4B52414D204948444E415320494C41474E454220302E313120232020202020202020202020202020202020202020202020202020202020202020202064696C6176203B2020202020202020202045463930,
  0x3E303041302D64657672657365723C2E2E3E464639302D64657672657365723C202020414E202320202020202020202020202020202020202020202020202020202020206465776F6C6C61736964203B20202020303041302E2E46463930,
  0x49444E4942204B414441204E4749532049484B554D5255472020302E3420232020202020202020202020202020202020202020202020202020202020202020202064696C6176203B2020202020202020202031304130,
  0x49444E4942204E4749532049484B554D5255472020312E3120232020202020202020202020202020202020202020202020202020202020202020202064696C6176203B2020202020202020202032304130,
  0x41475241534956204E4749532049484B554D5255472020302E3420232020202020202020202020202020202020202020202020202020202020202020202064696C6176203B2020202020202020202033304130,
  0x3E343041302D64657672657365723C202020414E202320202020202020202020202020202020202020202020202020202020206465776F6C6C61736964203B2020202020202020202034304130,
  0x55552052455454454C2049484B554D5255472E2E412052455454454C2049484B554D5255472020312E3120232020202020202020202020202020202020202020202020202020202020202020202064696C6176203B20202020413041302E2E35304130,
  0x3E453041302D64657672657365723C2E2E3E423041302D64657672657365723C202020414E202320202020202020202020202020202020202020202020202020202020206465776F6C6C61736964203B20202020453041302E2E42304130,
  0x49412052455454454C2049484B554D5255472E2E45452052455454454C2049484B554D5255472020312E3120232020202020202020202020202020202020202020202020202020202020202020202064696C6176203B20202020303141302E2E46304130,
  0x3E323141302D64657672657365723C2E2E3E313141302D64657672657365723C202020414E202320202020202020202020202020202020202020202020202020202020206465776F6C6C61736964203B20202020323141302E2E31314130,
  0x414E2052455454454C2049484B554D5255472E2E4F4F2052455454454C2049484B554D5255472020312E3120232020202020202020202020202020202020202020202020202020202020202020202064696C6176203B20202020383241302E2E33314130,
  0x3E393241302D64657672657365723C202020414E202320202020202020202020202020202020202020202020202020202020206465776F6C6C61736964203B2020202020202020202039324130,
  0x41522052455454454C2049484B554D5255472E2E41502052455454454C2049484B554D5255472020312E3120232020202020202020202020202020202020202020202020202020202020202020202064696C6176203B20202020303341302E2E41324130,
  0x3E313341302D64657672657365723C202020414E202320202020202020202020202020202020202020202020202020202020206465776F6C6C61736964203B2020202020202020202031334130,
  0x414C2052455454454C2049484B554D5255472020312E3120232020202020202020202020202020202020202020202020202020202020202020202064696C6176203B2020202020202020202032334130,
  0x414C4C2052455454454C2049484B554D5255472020312E3120232020202020433341302032334130203B202020202020202020202020202020202064657070616D203B2020202020202020202033334130,
  0x3E343341302D64657672657365723C202020414E202320202020202020202020202020202020202020202020202020202020206465776F6C6C61736964203B2020202020202020202034334130,
  0x41562052455454454C2049484B554D5255472020312E3120232020202020202020202020202020202020202020202020202020202020202020202064696C6176203B2020202020202020202035334130,
  0x4148532052455454454C2049484B554D5255472020312E3120232020202020433341302038334130203B202020202020202020202020202020202064657070616D203B2020202020202020202036334130,
  0x3E373341302D64657672657365723C202020414E202320202020202020202020202020202020202020202020202020202020206465776F6C6C61736964203B2020202020202020202037334130,
  0x41482052455454454C2049484B554D5255472E2E41532052455454454C2049484B554D5255472020312E3120232020202020202020202020202020202020202020202020202020202020202020202064696C6176203B20202020393341302E2E38334130,
  0x3E423341302D64657672657365723C2E2E3E413341302D64657672657365723C202020414E202320202020202020202020202020202020202020202020202020202020206465776F6C6C61736964203B20202020423341302E2E41334130,
  0x41544B554E204E4749532049484B554D5255472020312E3120232020202020202020202020202020202020202020202020202020202020202020202064696C6176203B2020202020202020202043334130,
  0x3E443341302D64657672657365723C202020414E202320202020202020202020202020202020202020202020202020202020206465776F6C6C61736964203B2020202020202020202044334130,
  0x5555204E474953204C45574F562049484B554D5255472E2E4141204E474953204C45574F562049484B554D5255472020312E3120232020202020202020202020202020202020202020202020202020202020202020202064696C6176203B20202020323441302E2E45334130,
  0x3E363441302D64657672657365723C2E2E3E333441302D64657672657365723C202020414E202320202020202020202020202020202020202020202020202020202020206465776F6C6C61736964203B20202020363441302E2E33344130,
  0x4941204E474953204C45574F562049484B554D5255472E2E4545204E474953204C45574F562049484B554D5255472020312E3120232020202020202020202020202020202020202020202020202020202020202020202064696C6176203B20202020383441302E2E37344130,
  0x3E413441302D64657672657365723C2E2E3E393441302D64657672657365723C202020414E202320202020202020202020202020202020202020202020202020202020206465776F6C6C61736964203B20202020413441302E2E39344130,
  0x414D41524956204E4749532049484B554D5255472E2E4F4F204E474953204C45574F562049484B554D5255472020312E3120232020202020202020202020202020202020202020202020202020202020202020202064696C6176203B20202020443441302E2E42344130,
  0x3E303541302D64657672657365723C2E2E3E453441302D64657672657365723C202020414E202320202020202020202020202020202020202020202020202020202020206465776F6C6C61736964203B20202020303541302E2E45344130,
  0x5441414455204E4749532049484B554D5255472020312E3520232020202020202020202020202020202020202020202020202020202020202020202064696C6176203B2020202020202020202031354130,
  0x3E383541302D64657672657365723C2E2E3E323541302D64657672657365723C202020414E202320202020202020202020202020202020202020202020202020202020206465776F6C6C61736964203B20202020383541302E2E32354130,
  0x4148484B2052455454454C2049484B554D5255472020312E3120232020202020433341302036314130203B202020202020202020202020202020202064657070616D203B2020202020202020202039354130,
  0x414848472052455454454C2049484B554D5255472020312E3120232020202020433341302037314130203B202020202020202020202020202020202064657070616D203B2020202020202020202041354130,
  0x415A2052455454454C2049484B554D5255472020312E3120232020202020433341302043314130203B202020202020202020202020202020202064657070616D203B2020202020202020202042354130,
  0x4152522052455454454C2049484B554D5255472020312E3120232020202020202020202020202020202020202020202020202020202020202020202064696C6176203B2020202020202020202043354130,
  0x3E443541302D64657672657365723C202020414E202320202020202020202020202020202020202020202020202020202020206465776F6C6C61736964203B2020202020202020202044354130,
  0x41462052455454454C2049484B554D5255472020312E3120232020202020433341302042324130203B202020202020202020202020202020202064657070616D203B2020202020202020202045354130,
  0x3E353641302D64657672657365723C2E2E3E463541302D64657672657365723C202020414E202320202020202020202020202020202020202020202020202020202020206465776F6C6C61736964203B20202020353641302E2E46354130,
  0x52414B4E4F204B452049484B554D5255472E2E4F52455A2054494749442049484B554D5255472020312E3120232020202020202020202020202020202020202020202020202020202020202020202064696C6176203B20202020343741302E2E36364130,
  0x4853414B4159204E4749532049484B554D5255472020312E3520232020202020202020202020202020202020202020202020202020202020202020202064696C6176203B2020202020202020202035374130,
  0x4E474953204E4F495441495645524242412049484B554D52554720302E313120232020202038564E203B2020202020203B20202020202020202020202020202020202064696C6176203B2020202020202020202036374130,
  0x3E303841302D64657672657365723C2E2E3E373741302D64657672657365723C202020414E202320202020202020202020202020202020202020202020202020202020206465776F6C6C61736964203B20202020303841302E2E37374130,
  0x41475241534956204E4749532049544152414A55472E2E55444E49424152444E4143204E4749532049544152414A55472020312E3120232020202020202020202020202020202020202020202020202020202020202020202064696C6176203B20202020333841302E2E31384130,
  0x3E343841302D64657672657365723C202020414E202320202020202020202020202020202020202020202020202020202020206465776F6C6C61736964203B2020202020202020202034384130,
  0x522043494C41434F562052455454454C2049544152414A55472E2E412052455454454C2049544152414A55472020312E3120232020202020202020202020202020202020202020202020202020202020202020202064696C6176203B20202020423841302E2E35384130,
  0x4C2043494C41434F562052455454454C2049544152414A55472020302E3420232020202020202020202020202020202020202020202020202020202020202020202064696C6176203B2020202020202020202043384130,
  0x45204152444E4143204C45574F562049544152414A55472020312E3120232020202020202020202020202020202020202020202020202020202020202020202064696C6176203B2020202020202020202044384130,
  0x3E453841302D64657672657365723C202020414E202320202020202020202020202020202020202020202020202020202020206465776F6C6C61736964203B2020202020202020202045384130,
  0x4F204152444E4143204C45574F562049544152414A55472E2E452052455454454C2049544152414A55472020312E3120232020202020202020202020202020202020202020202020202020202020202020202064696C6176203B20202020313941302E2E46384130,
  0x3E323941302D64657672657365723C202020414E202320202020202020202020202020202020202020202020202020202020206465776F6C6C61736964203B2020202020202020202032394130,
  0x414E2052455454454C2049544152414A55472E2E4F2052455454454C2049544152414A55472020312E3120232020202020202020202020202020202020202020202020202020202020202020202064696C6176203B20202020384141302E2E33394130,
  0x3E394141302D64657672657365723C202020414E202320202020202020202020202020202020202020202020202020202020206465776F6C6C61736964203B2020202020202020202039414130,
  0x41522052455454454C2049544152414A55472E2E41502052455454454C2049544152414A55472020312E3120232020202020202020202020202020202020202020202020202020202020202020202064696C6176203B20202020304241302E2E41414130,
  0x3E314241302D64657672657365723C202020414E202320202020202020202020202020202020202020202020202020202020206465776F6C6C61736964203B2020202020202020202031424130,
  0x414C4C2052455454454C2049544152414A55472E2E414C2052455454454C2049544152414A55472020312E3120232020202020202020202020202020202020202020202020202020202020202020202064696C6176203B20202020334241302E2E32424130,
  0x3E344241302D64657672657365723C202020414E202320202020202020202020202020202020202020202020202020202020206465776F6C6C61736964203B2020202020202020202034424130,
  0x41482052455454454C2049544152414A55472E2E41562052455454454C2049544152414A55472020312E3120232020202020202020202020202020202020202020202020202020202020202020202064696C6176203B20202020394241302E2E35424130,
  0x3E424241302D64657672657365723C2E2E3E414241302D64657672657365723C202020414E202320202020202020202020202020202020202020202020202020202020206465776F6C6C61736964203B20202020424241302E2E41424130,
  0x45204152444E4143204E474953204C45574F562049544152414A55472E2E41544B554E204E4749532049544152414A55472020312E3120232020202020202020202020202020202020202020202020202020202020202020202064696C6176203B20202020354341302E2E43424130,
  0x3E364341302D64657672657365723C202020414E202320202020202020202020202020202020202020202020202020202020206465776F6C6C61736964203B2020202020202020202036434130,
  0x4F204152444E4143204E474953204C45574F562049544152414A55472E2E45204E474953204C45574F562049544152414A55472020312E3120232020202020202020202020202020202020202020202020202020202020202020202064696C6176203B20202020394341302E2E37434130,
  0x3E414341302D64657672657365723C202020414E202320202020202020202020202020202020202020202020202020202020206465776F6C6C61736964203B2020202020202020202041434130,
  0x414D41524956204E4749532049544152414A55472E2E4F204E474953204C45574F562049544152414A55472020312E3120232020202020202020202020202020202020202020202020202020202020202020202064696C6176203B20202020444341302E2E42434130,
  0x3E464341302D64657672657365723C2E2E3E454341302D64657672657365723C202020414E202320202020202020202020202020202020202020202020202020202020206465776F6C6C61736964203B20202020464341302E2E45434130,
  0x4D4F2049544152414A55472020312E3120232020202020202020202020202020202020202020202020202020202020202020202064696C6176203B2020202020202020202030444130,
  0x3E464441302D64657672657365723C2E2E3E314441302D64657672657365723C202020414E202320202020202020202020202020202020202020202020202020202020206465776F6C6C61736964203B20202020464441302E2E31444130,
  0x52522043494C41434F562052455454454C2049544152414A55472020312E3120232020202020202020202020202020202020202020202020202020202020202020202064696C6176203B2020202020202020202030454130,
  0x4C4C2043494C41434F56204E474953204C45574F562049544152414A55472E2E4C4C2043494C41434F562052455454454C2049544152414A55472020302E3420232020202020202020202020202020202020202020202020202020202020202020202064696C6176203B20202020334541302E2E31454130,
  0x3E354541302D64657672657365723C2E2E3E344541302D64657672657365723C202020414E202320202020202020202020202020202020202020202020202020202020206465776F6C6C61736964203B20202020354541302E2E34454130,
  0x454E494E2054494749442049544152414A55472E2E4F52455A2054494749442049544152414A55472020312E3120232020202020202020202020202020202020202020202020202020202020202020202064696C6176203B20202020464541302E2E36454130,
  0x4E474953204E4F495441495645524242412049544152414A55472020312E3620232020202038564E203B2020202020203B20202020202020202020202020202020202064696C6176203B2020202020202020202030464130,
  0x4E4749532045455055522049544152414A55472020302E3420232020202038564E203B2020202020203B20202020202020202020202020202020202064696C6176203B2020202020202020202031464130,
  0x3E384641302D64657672657365723C2E2E3E324641302D64657672657365723C202020414E202320202020202020202020202020202020202020202020202020202020206465776F6C6C61736964203B20202020384641302E2E32464130,
  0x41485A2052455454454C2049544152414A55472020302E3820232020202020202020202020202020202020202020202020202020202020202020202064696C6176203B2020202020202020202039464130,
  0x45564F42412041544B554E20454C435249432D4F5754204E4749532049544152414A55472E2E4E554B5553204E4749532049544152414A554720302E303120232020202020202020202020202020202020202020202020202020202020202020202064696C6176203B20202020464641302E2E41464130,
  0x3E303042302D64657672657365723C202020414E202320202020202020202020202020202020202020202020202020202020206465776F6C6C61736964203B2020202020202020202030304230,
  0x41475241534956204E47495320415949524F2E2E55444E49424152444E4143204E47495320415949524F2020312E3120232020202020202020202020202020202020202020202020202020202020202020202064696C6176203B20202020333042302E2E31304230,
  0x3E343042302D64657672657365723C202020414E202320202020202020202020202020202020202020202020202020202020206465776F6C6C61736964203B2020202020202020202034304230,
  0x4C2043494C41434F562052455454454C20415949524F2E2E412052455454454C20415949524F2020312E3120232020202020202020202020202020202020202020202020202020202020202020202064696C6176203B20202020433042302E2E35304230,
  0x3E453042302D64657672657365723C2E2E3E443042302D64657672657365723C202020414E202320202020202020202020202020202020202020202020202020202020206465776F6C6C61736964203B20202020453042302E2E44304230,
  0x49412052455454454C20415949524F2E2E452052455454454C20415949524F2020312E3120232020202020202020202020202020202020202020202020202020202020202020202064696C6176203B20202020303142302E2E46304230,
  0x3E323142302D64657672657365723C2E2E3E313142302D64657672657365723C202020414E202320202020202020202020202020202020202020202020202020202020206465776F6C6C61736964203B20202020323142302E2E31314230,
  0x414E2052455454454C20415949524F2E2E4F2052455454454C20415949524F2020312E3120232020202020202020202020202020202020202020202020202020202020202020202064696C6176203B20202020383242302E2E33314230,
  0x3E393242302D64657672657365723C202020414E202320202020202020202020202020202020202020202020202020202020206465776F6C6C61736964203B2020202020202020202039324230,
  0x41522052455454454C20415949524F2E2E41502052455454454C20415949524F2020312E3120232020202020202020202020202020202020202020202020202020202020202020202064696C6176203B20202020303342302E2E41324230,
  0x3E313342302D64657672657365723C202020414E202320202020202020202020202020202020202020202020202020202020206465776F6C6C61736964203B2020202020202020202031334230,
  0x414C4C2052455454454C20415949524F2E2E414C2052455454454C20415949524F2020312E3120232020202020202020202020202020202020202020202020202020202020202020202064696C6176203B20202020333342302E2E32334230,
  0x3E343342302D64657672657365723C202020414E202320202020202020202020202020202020202020202020202020202020206465776F6C6C61736964203B2020202020202020202034334230,
  0x41562052455454454C20415949524F2020302E3420232020202020202020202020202020202020202020202020202020202020202020202064696C6176203B2020202020202020202035334230,
  0x41482052455454454C20415949524F2E2E4148532052455454454C20415949524F2020312E3120232020202020202020202020202020202020202020202020202020202020202020202064696C6176203B20202020393342302E2E36334230,
  0x3E423342302D64657672657365723C2E2E3E413342302D64657672657365723C202020414E202320202020202020202020202020202020202020202020202020202020206465776F6C6C61736964203B20202020423342302E2E41334230,
  0x522043494C41434F56204E474953204C45574F5620415949524F2E2E41544B554E204E47495320415949524F2020312E3120232020202020202020202020202020202020202020202020202020202020202020202064696C6176203B20202020333442302E2E43334230,
  0x52522043494C41434F56204E474953204C45574F5620415949524F2020312E3520232020202020202020202020202020202020202020202020202020202020202020202064696C6176203B2020202020202020202034344230,
  0x3E363442302D64657672657365723C2E2E3E353442302D64657672657365723C202020414E202320202020202020202020202020202020202020202020202020202020206465776F6C6C61736964203B20202020363442302E2E35344230,
  0x4941204E474953204C45574F5620415949524F2E2E45204E474953204C45574F5620415949524F2020312E3120232020202020202020202020202020202020202020202020202020202020202020202064696C6176203B20202020383442302E2E37344230,
  0x3E413442302D64657672657365723C2E2E3E393442302D64657672657365723C202020414E202320202020202020202020202020202020202020202020202020202020206465776F6C6C61736964203B20202020413442302E2E39344230,
  0x414D41524956204E47495320415949524F2E2E4F204E474953204C45574F5620415949524F2020312E3120232020202020202020202020202020202020202020202020202020202020202020202064696C6176203B20202020443442302E2E42344230,
  0x3E343542302D64657672657365723C2E2E3E453442302D64657672657365723C202020414E202320202020202020202020202020202020202020202020202020202020206465776F6C6C61736964203B20202020343542302E2E45344230,
  0x454E494C5245564F204E47495320415949524F20302E333120232020202020202020202020202020202020202020202020202020202020202020202064696C6176203B2020202020202020202035354230,
  0x4B52414D204854474E454C20554120415949524F2E2E4B52414D204854474E454C20494120415949524F2020312E3120232020202020202020202020202020202020202020202020202020202020202020202064696C6176203B20202020373542302E2E36354230,
  0x3E423542302D64657672657365723C2E2E3E383542302D64657672657365723C202020414E202320202020202020202020202020202020202020202020202020202020206465776F6C6C61736964203B20202020423542302E2E38354230,
  0x4152522052455454454C20415949524F2020312E3120232020202020433342302031324230203B202020202020202020202020202020202064657070616D203B2020202020202020202043354230,
  0x4148522052455454454C20415949524F2020312E3120232020202020433342302032324230203B202020202020202020202020202020202064657070616D203B2020202020202020202044354230,
  0x3E453542302D64657672657365723C202020414E202320202020202020202020202020202020202020202020202020202020206465776F6C6C61736964203B2020202020202020202045354230,
  0x4C4C2043494C41434F562052455454454C20415949524F2E2E4159592052455454454C20415949524F2020312E3120232020202020202020202020202020202020202020202020202020202020202020202064696C6176203B20202020313642302E2E46354230,
  0x4C4C2043494C41434F56204E474953204C45574F5620415949524F2E2E4C2043494C41434F56204E474953204C45574F5620415949524F2020312E3520232020202020202020202020202020202020202020202020202020202020202020202064696C6176203B20202020333642302E2E32364230,
  0x3E353642302D64657672657365723C2E2E3E343642302D64657672657365723C202020414E202320202020202020202020202020202020202020202020202020202020206465776F6C6C61736964203B20202020353642302E2E34364230,
  0x454E494E20544947494420415949524F2E2E4F52455A20544947494420415949524F2020312E3120232020202020202020202020202020202020202020202020202020202020202020202064696C6176203B20202020463642302E2E36364230,
  0x52414853534920415949524F2020312E3120232020202038564E203B2020202020203B20202020202020202020202020202020202064696C6176203B2020202020202020202030374230,
  0x41572052455454454C20415949524F2020302E3420232020202020202020202020202020202020202020202020202020202020202020202064696C6176203B2020202020202020202031374230,
  0x5348544E454554584953204545524854204E4F49544341524620415949524F2E2E5245545241555120454E4F204E4F49544341524620415949524F2020302E3620232020202038564E203B2020202020203B20202020202020202020202020202020202064696C6176203B20202020373742302E2E32374230,
  0x3E313842302D64657672657365723C2E2E3E383742302D64657672657365723C202020414E202320202020202020202020202020202020202020202020202020202020206465776F6C6C61736964203B20202020313842302E2E38374230,
  0x41475241534956204E474953204C494D41542E2E4152415653554E41204E474953204C494D41542020312E3120232020202020202020202020202020202020202020202020202020202020202020202064696C6176203B20202020333842302E2E32384230,
  0x3E343842302D64657672657365723C202020414E202320202020202020202020202020202020202020202020202020202020206465776F6C6C61736964203B2020202020202020202034384230,
  0x55552052455454454C204C494D41542E2E412052455454454C204C494D41542020312E3120232020202020202020202020202020202020202020202020202020202020202020202064696C6176203B20202020413842302E2E35384230,
  0x3E443842302D64657672657365723C2E2E3E423842302D64657672657365723C202020414E202320202020202020202020202020202020202020202020202020202020206465776F6C6C61736964203B20202020443842302E2E42384230,
  0x49412052455454454C204C494D41542E2E452052455454454C204C494D41542020312E3120232020202020202020202020202020202020202020202020202020202020202020202064696C6176203B20202020303942302E2E45384230,
  0x3E313942302D64657672657365723C202020414E202320202020202020202020202020202020202020202020202020202020206465776F6C6C61736964203B2020202020202020202031394230,
  0x414B2052455454454C204C494D41542E2E4F2052455454454C204C494D41542020312E3120232020202020202020202020202020202020202020202020202020202020202020202064696C6176203B20202020353942302E2E32394230,
  0x3E383942302D64657672657365723C2E2E3E363942302D64657672657365723C202020414E202320202020202020202020202020202020202020202020202020202020206465776F6C6C61736964203B20202020383942302E2E36394230,
  0x41432052455454454C204C494D41542E2E41474E2052455454454C204C494D41542020312E3120232020202020202020202020202020202020202020202020202020202020202020202064696C6176203B20202020413942302E2E39394230,
  0x3E423942302D64657672657365723C202020414E202320202020202020202020202020202020202020202020202020202020206465776F6C6C61736964203B2020202020202020202042394230,
  0x414A2052455454454C204C494D41542020312E3120232020202020202020202020202020202020202020202020202020202020202020202064696C6176203B2020202020202020202043394230,
  0x3E443942302D64657672657365723C202020414E202320202020202020202020202020202020202020202020202020202020206465776F6C6C61736964203B2020202020202020202044394230,
  0x4154542052455454454C204C494D41542E2E41594E2052455454454C204C494D41542020312E3120232020202020202020202020202020202020202020202020202020202020202020202064696C6176203B20202020463942302E2E45394230,
  0x3E324142302D64657672657365723C2E2E3E304142302D64657672657365723C202020414E202320202020202020202020202020202020202020202020202020202020206465776F6C6C61736964203B20202020324142302E2E30414230,
  0x41542052455454454C204C494D41542E2E414E4E2052455454454C204C494D41542020312E3120232020202020202020202020202020202020202020202020202020202020202020202064696C6176203B20202020344142302E2E33414230,
  0x3E374142302D64657672657365723C2E2E3E354142302D64657672657365723C202020414E202320202020202020202020202020202020202020202020202020202020206465776F6C6C61736964203B20202020374142302E2E35414230,
  0x41502052455454454C204C494D41542E2E414E2052455454454C204C494D41542020312E3120232020202020202020202020202020202020202020202020202020202020202020202064696C6176203B20202020414142302E2E38414230,
  0x3E444142302D64657672657365723C2E2E3E424142302D64657672657365723C202020414E202320202020202020202020202020202020202020202020202020202020206465776F6C6C61736964203B20202020444142302E2E42414230,
  0x41562052455454454C204C494D41542E2E414D2052455454454C204C494D41542020312E3120232020202020202020202020202020202020202020202020202020202020202020202064696C6176203B20202020354242302E2E45414230,
  0x4148532052455454454C204C494D41542020312E3420232020202020202020202020202020202020202020202020202020202020202020202064696C6176203B2020202020202020202036424230,
  0x41482052455454454C204C494D41542E2E4153532052455454454C204C494D41542020312E3120232020202020202020202020202020202020202020202020202020202020202020202064696C6176203B20202020394242302E2E37424230,
  0x3E444242302D64657672657365723C2E2E3E414242302D64657672657365723C202020414E202320202020202020202020202020202020202020202020202020202020206465776F6C6C61736964203B20202020444242302E2E41424230,
  0x5555204E474953204C45574F56204C494D41542E2E4141204E474953204C45574F56204C494D41542020312E3120232020202020202020202020202020202020202020202020202020202020202020202064696C6176203B20202020324342302E2E45424230,
  0x3E354342302D64657672657365723C2E2E3E334342302D64657672657365723C202020414E202320202020202020202020202020202020202020202020202020202020206465776F6C6C61736964203B20202020354342302E2E33434230,
  0x4941204E474953204C45574F56204C494D41542E2E45204E474953204C45574F56204C494D41542020312E3120232020202020202020202020202020202020202020202020202020202020202020202064696C6176203B20202020384342302E2E36434230,
  0x3E394342302D64657672657365723C202020414E202320202020202020202020202020202020202020202020202020202020206465776F6C6C61736964203B2020202020202020202039434230,
  0x414D41524956204E474953204C494D41542E2E4F204E474953204C45574F56204C494D41542020312E3120232020202020202020202020202020202020202020202020202020202020202020202064696C6176203B20202020444342302E2E41434230,
  0x3E464342302D64657672657365723C2E2E3E454342302D64657672657365723C202020414E202320202020202020202020202020202020202020202020202020202020206465776F6C6C61736964203B20202020464342302E2E45434230,
  0x4D4F204C494D41542020312E3520232020202020202020202020202020202020202020202020202020202020202020202064696C6176203B2020202020202020202030444230,
  0x3E364442302D64657672657365723C2E2E3E314442302D64657672657365723C202020414E202320202020202020202020202020202020202020202020202020202020206465776F6C6C61736964203B20202020364442302E2E31444230,
  0x4B52414D204854474E454C205541204C494D41542020312E3120232020202020202020202020202020202020202020202020202020202020202020202064696C6176203B2020202020202020202037444230,
  0x3E354542302D64657672657365723C2E2E3E384442302D64657672657365723C202020414E202320202020202020202020202020202020202020202020202020202020206465776F6C6C61736964203B20202020354542302E2E38444230,
  0x4F52455A205449474944204C494D41542020312E3420232020202020202020202020202020202020202020202020202020202020202020202064696C6176203B2020202020202020202036454230,
  0x454E494E205449474944204C494D41542E2E454E4F205449474944204C494D41542020312E3120232020202020202020202020202020202020202020202020202020202020202020202064696C6176203B20202020464542302E2E37454230,
  0x444E4153554F485420454E4F205245424D554E204C494D41542E2E4E4554205245424D554E204C494D41542020312E3120232020202038564E203B2020202020203B20202020202020202020202020202020202064696C6176203B20202020324642302E2E30464230,
  0x4E474953205245424D554E204C494D41542E2E4E47495320594144204C494D41542020302E3420232020202038564E203B2020202020203B20202020202020202020202020202020202064696C6176203B20202020414642302E2E33464230,
  0x3E464642302D64657672657365723C2E2E3E424642302D64657672657365723C202020414E202320202020202020202020202020202020202020202020202020202020206465776F6C6C61736964203B20202020464642302E2E42464230,
  0x45564F42412055444E49424152444E414320474E494E49424D4F43204E474953205547554C45542020302E3720232020202020202020202020202020202020202020202020202020202020202020202064696C6176203B2020202020202020202030304330,
  0x41475241534956204E474953205547554C45542E2E55444E49424152444E4143204E474953205547554C45542020312E3120232020202020202020202020202020202020202020202020202020202020202020202064696C6176203B20202020333043302E2E31304330,
  0x45564F4241204152415653554E4120474E494E49424D4F43204E474953205547554C455420302E313120232020202020202020202020202020202020202020202020202020202020202020202064696C6176203B2020202020202020202034304330,
  0x4C2043494C41434F562052455454454C205547554C45542E2E412052455454454C205547554C45542020312E3120232020202020202020202020202020202020202020202020202020202020202020202064696C6176203B20202020433043302E2E35304330,
  0x3E443043302D64657672657365723C202020414E202320202020202020202020202020202020202020202020202020202020206465776F6C6C61736964203B2020202020202020202044304330,
  0x49412052455454454C205547554C45542E2E452052455454454C205547554C45542020312E3120232020202020202020202020202020202020202020202020202020202020202020202064696C6176203B20202020303143302E2E45304330,
  0x3E313143302D64657672657365723C202020414E202320202020202020202020202020202020202020202020202020202020206465776F6C6C61736964203B2020202020202020202031314330,
  0x414E2052455454454C205547554C45542E2E4F2052455454454C205547554C45542020312E3120232020202020202020202020202020202020202020202020202020202020202020202064696C6176203B20202020383243302E2E32314330,
  0x3E393243302D64657672657365723C202020414E202320202020202020202020202020202020202020202020202020202020206465776F6C6C61736964203B2020202020202020202039324330,
  0x414C4C2052455454454C205547554C45542E2E41502052455454454C205547554C45542020312E3120232020202020202020202020202020202020202020202020202020202020202020202064696C6176203B20202020333343302E2E41324330,
  0x414C4C4C2052455454454C205547554C45542020302E3720232020202020202020202020202020202020202020202020202020202020202020202064696C6176203B2020202020202020202034334330,
  0x41482052455454454C205547554C45542E2E41562052455454454C205547554C45542020312E3120232020202020202020202020202020202020202020202020202020202020202020202064696C6176203B20202020393343302E2E35334330,
  0x3E433343302D64657672657365723C2E2E3E413343302D64657672657365723C202020414E202320202020202020202020202020202020202020202020202020202020206465776F6C6C61736964203B20202020433343302E2E41334330,
  0x4148415247415641204E474953205547554C45542020312E3520232020202020202020202020202020202020202020202020202020202020202020202064696C6176203B2020202020202020202044334330,
  0x52522043494C41434F56204E474953204C45574F56205547554C45542E2E4141204E474953204C45574F56205547554C45542020312E3120232020202020202020202020202020202020202020202020202020202020202020202064696C6176203B20202020343443302E2E45334330,
  0x3E353443302D64657672657365723C202020414E202320202020202020202020202020202020202020202020202020202020206465776F6C6C61736964203B2020202020202020202035344330,
  0x4941204E474953204C45574F56205547554C45542E2E45204E474953204C45574F56205547554C45542020312E3120232020202020202020202020202020202020202020202020202020202020202020202064696C6176203B20202020383443302E2E36344330,
  0x3E393443302D64657672657365723C202020414E202320202020202020202020202020202020202020202020202020202020206465776F6C6C61736964203B2020202020202020202039344330,
  0x414D41524956204E474953205547554C45542E2E4F204E474953204C45574F56205547554C45542020312E3120232020202020202020202020202020202020202020202020202020202020202020202064696C6176203B20202020443443302E2E41344330,
  0x3E343543302D64657672657365723C2E2E3E453443302D64657672657365723C202020414E202320202020202020202020202020202020202020202020202020202020206465776F6C6C61736964203B20202020343543302E2E45344330,
  0x4B52414D204854474E454C204941205547554C45542E2E4B52414D204854474E454C205547554C45542020312E3120232020202020202020202020202020202020202020202020202020202020202020202064696C6176203B20202020363543302E2E35354330,
  0x3E373543302D64657672657365723C202020414E202320202020202020202020202020202020202020202020202020202020206465776F6C6C61736964203B2020202020202020202037354330,
  0x415A442052455454454C205547554C45542E2E4153542052455454454C205547554C45542020312E3520232020202020202020202020202020202020202020202020202020202020202020202064696C6176203B20202020393543302E2E38354330,
  0x415252522052455454454C205547554C45542020302E3820232020202020202020202020202020202020202020202020202020202020202020202064696C6176203B2020202020202020202041354330,
  0x3E463543302D64657672657365723C2E2E3E423543302D64657672657365723C202020414E202320202020202020202020202020202020202020202020202020202020206465776F6C6C61736964203B20202020463543302E2E42354330,
  0x4C4C2043494C41434F562052455454454C205547554C45542E2E52522043494C41434F562052455454454C205547554C45542020312E3120232020202020202020202020202020202020202020202020202020202020202020202064696C6176203B20202020313643302E2E30364330,
  0x4C4C2043494C41434F56204E474953204C45574F56205547554C45542E2E4C2043494C41434F56204E474953204C45574F56205547554C45542020312E3520232020202020202020202020202020202020202020202020202020202020202020202064696C6176203B20202020333643302E2E32364330,
  0x3E353643302D64657672657365723C2E2E3E343643302D64657672657365723C202020414E202320202020202020202020202020202020202020202020202020202020206465776F6C6C61736964203B20202020353643302E2E34364330,
  0x454E494E205449474944205547554C45542E2E4F52455A205449474944205547554C45542020312E3120232020202020202020202020202020202020202020202020202020202020202020202064696C6176203B20202020463643302E2E36364330,
  0x3E363743302D64657672657365723C2E2E3E303743302D64657672657365723C202020414E202320202020202020202020202020202020202020202020202020202020206465776F6C6C61736964203B20202020363743302E2E30374330,
  0x4D414844444953204E474953205547554C455420302E323120232020202038564E203B2020202020203B20202020202020202020202020202020202064696C6176203B2020202020202020202037374330,
  0x554D555554204E474953205547554C45542E2E52554F4620464F20535245574F502044444F20524F46204F52455A205449474944204E4F495443415246205547554C45542020312E3520232020202038564E203B2020202020203B20202020202020202020202020202020202064696C6176203B20202020463743302E2E38374330,
  0x55444E49424152444E414320474E4943415053204E474953204144414E4E414B2020302E3920232020202020202020202020202020202020202020202020202020202020202020202064696C6176203B2020202020202020202030384330,
  0x55444E49424152444E4143204E474953204144414E4E414B2020302E3720232020202020202020202020202020202020202020202020202020202020202020202064696C6176203B2020202020202020202031384330,
  0x41475241534956204E474953204144414E4E414B2E2E4152415653554E41204E474953204144414E4E414B2020312E3120232020202020202020202020202020202020202020202020202020202020202020202064696C6176203B20202020333843302E2E32384330,
  0x4D414844444953204E474953204144414E4E414B20302E313120232020202038564E203B2020202020203B20202020202020202020202020202020202064696C6176203B2020202020202020202034384330,
  0x4C2043494C41434F562052455454454C204144414E4E414B2E2E412052455454454C204144414E4E414B2020312E3120232020202020202020202020202020202020202020202020202020202020202020202064696C6176203B20202020433843302E2E35384330,
  0x3E443843302D64657672657365723C202020414E202320202020202020202020202020202020202020202020202020202020206465776F6C6C61736964203B2020202020202020202044384330,
  0x49412052455454454C204144414E4E414B2E2E452052455454454C204144414E4E414B2020312E3120232020202020202020202020202020202020202020202020202020202020202020202064696C6176203B20202020303943302E2E45384330,
  0x3E313943302D64657672657365723C202020414E202320202020202020202020202020202020202020202020202020202020206465776F6C6C61736964203B2020202020202020202031394330,
  0x414E2052455454454C204144414E4E414B2E2E4F2052455454454C204144414E4E414B2020312E3120232020202020202020202020202020202020202020202020202020202020202020202064696C6176203B20202020384143302E2E32394330,
  0x3E394143302D64657672657365723C202020414E202320202020202020202020202020202020202020202020202020202020206465776F6C6C61736964203B2020202020202020202039414330,
  0x414C4C2052455454454C204144414E4E414B2E2E41502052455454454C204144414E4E414B2020312E3120232020202020202020202020202020202020202020202020202020202020202020202064696C6176203B20202020334243302E2E41414330,
  0x3E344243302D64657672657365723C202020414E202320202020202020202020202020202020202020202020202020202020206465776F6C6C61736964203B2020202020202020202034424330]

def mapText5 : List Nat := [
  0x41482052455454454C204144414E4E414B2E2E41562052455454454C204144414E4E414B2020312E3120232020202020202020202020202020202020202020202020202020202020202020202064696C6176203B20202020394243302E2E35424330,
  0x3E424243302D64657672657365723C2E2E3E414243302D64657672657365723C202020414E202320202020202020202020202020202020202020202020202020202020206465776F6C6C61736964203B20202020424243302E2E41424330,
  0x4148415247415641204E474953204144414E4E414B2E2E41544B554E204E474953204144414E4E414B2020302E3420232020202020202020202020202020202020202020202020202020202020202020202064696C6176203B20202020444243302E2E43424330,
  0x52522043494C41434F56204E474953204C45574F56204144414E4E414B2E2E4141204E474953204C45574F56204144414E4E414B2020312E3120232020202020202020202020202020202020202020202020202020202020202020202064696C6176203B20202020344343302E2E45424330,
  0x3E354343302D64657672657365723C202020414E202320202020202020202020202020202020202020202020202020202020206465776F6C6C61736964203B2020202020202020202035434330,
  0x4941204E474953204C45574F56204144414E4E414B2E2E45204E474953204C45574F56204144414E4E414B2020312E3120232020202020202020202020202020202020202020202020202020202020202020202064696C6176203B20202020384343302E2E36434330,
  0x3E394343302D64657672657365723C202020414E202320202020202020202020202020202020202020202020202020202020206465776F6C6C61736964203B2020202020202020202039434330,
  0x414D41524956204E474953204144414E4E414B2E2E4F204E474953204C45574F56204144414E4E414B2020312E3120232020202020202020202020202020202020202020202020202020202020202020202064696C6176203B20202020444343302E2E41434330,
  0x3E344443302D64657672657365723C2E2E3E454343302D64657672657365723C202020414E202320202020202020202020202020202020202020202020202020202020206465776F6C6C61736964203B20202020344443302E2E45434330,
  0x4B52414D204854474E454C204941204144414E4E414B2E2E4B52414D204854474E454C204144414E4E414B2020312E3120232020202020202020202020202020202020202020202020202020202020202020202064696C6176203B20202020364443302E2E35444330,
  0x3E444443302D64657672657365723C2E2E3E374443302D64657672657365723C202020414E202320202020202020202020202020202020202020202020202020202020206465776F6C6C61736964203B20202020444443302E2E37444330,
  0x41462052455454454C204144414E4E414B2020312E3120232020202020202020202020202020202020202020202020202020202020202020202064696C6176203B2020202020202020202045444330,
  0x3E464443302D64657672657365723C202020414E202320202020202020202020202020202020202020202020202020202020206465776F6C6C61736964203B2020202020202020202046444330,
  0x4C4C2043494C41434F562052455454454C204144414E4E414B2E2E52522043494C41434F562052455454454C204144414E4E414B2020312E3120232020202020202020202020202020202020202020202020202020202020202020202064696C6176203B20202020314543302E2E30454330,
  0x4C4C2043494C41434F56204E474953204C45574F56204144414E4E414B2E2E4C2043494C41434F56204E474953204C45574F56204144414E4E414B2020302E3520232020202020202020202020202020202020202020202020202020202020202020202064696C6176203B20202020334543302E2E32454330,
  0x3E354543302D64657672657365723C2E2E3E344543302D64657672657365723C202020414E202320202020202020202020202020202020202020202020202020202020206465776F6C6C61736964203B20202020354543302E2E34454330,
  0x454E494E205449474944204144414E4E414B2E2E4F52455A205449474944204144414E4E414B2020312E3120232020202020202020202020202020202020202020202020202020202020202020202064696C6176203B20202020464543302E2E36454330,
  0x3E304643302D64657672657365723C202020414E202320202020202020202020202020202020202020202020202020202020206465776F6C6C61736964203B2020202020202020202030464330,
  0x4159494E414D4844415055204E474953204144414E4E414B2E2E4159494C554D415648494A204E474953204144414E4E414B2020302E3520232020202020202020202020202020202020202020202020202020202020202020202064696C6176203B20202020324643302E2E31464330,
  0x3E464643302D64657672657365723C2E2E3E334643302D64657672657365723C202020414E202320202020202020202020202020202020202020202020202020202020206465776F6C6C61736964203B20202020464643302E2E33464330,
  0x45564F4241204152415653554E4120474E494E49424D4F43204E474953204D414C4159414C414D20302E303120232020202020202020202020202020202020202020202020202020202020202020202064696C6176203B2020202020202020202030304430,
  0x55444E49424152444E4143204E474953204D414C4159414C414D2020302E3720232020202020202020202020202020202020202020202020202020202020202020202064696C6176203B2020202020202020202031304430,
  0x41475241534956204E474953204D414C4159414C414D2E2E4152415653554E41204E474953204D414C4159414C414D2020312E3120232020202020202020202020202020202020202020202020202020202020202020202064696C6176203B20202020333044302E2E32304430,
  0x4152415653554E412043494445562052455454454C204D414C4159414C414D20302E333120232020202020202020202020202020202020202020202020202020202020202020202064696C6176203B2020202020202020202034304430,
  0x4C2043494C41434F562052455454454C204D414C4159414C414D2E2E412052455454454C204D414C4159414C414D2020312E3120232020202020202020202020202020202020202020202020202020202020202020202064696C6176203B20202020433044302E2E35304430,
  0x3E443044302D64657672657365723C202020414E202320202020202020202020202020202020202020202020202020202020206465776F6C6C61736964203B2020202020202020202044304430,
  0x49412052455454454C204D414C4159414C414D2E2E452052455454454C204D414C4159414C414D2020312E3120232020202020202020202020202020202020202020202020202020202020202020202064696C6176203B20202020303144302E2E45304430,
  0x3E313144302D64657672657365723C202020414E202320202020202020202020202020202020202020202020202020202020206465776F6C6C61736964203B2020202020202020202031314430,
  0x414E2052455454454C204D414C4159414C414D2E2E4F2052455454454C204D414C4159414C414D2020312E3120232020202020202020202020202020202020202020202020202020202020202020202064696C6176203B20202020383244302E2E32314430,
  0x414E4E4E2052455454454C204D414C4159414C414D2020302E3620232020202020202020202020202020202020202020202020202020202020202020202064696C6176203B2020202020202020202039324430,
  0x41482052455454454C204D414C4159414C414D2E2E41502052455454454C204D414C4159414C414D2020312E3120232020202020202020202020202020202020202020202020202020202020202020202064696C6176203B20202020393344302E2E41324430,
  0x415454542052455454454C204D414C4159414C414D2020302E3620232020202020202020202020202020202020202020202020202020202020202020202064696C6176203B2020202020202020202041334430,
  0x414D415249562052414C5543524943204E474953204D414C4159414C414D2E2E414D4152495620524142204C41434954524556204E474953204D414C4159414C414D20302E303120232020202020202020202020202020202020202020202020202020202020202020202064696C6176203B20202020433344302E2E42334430,
  0x4148415247415641204E474953204D414C4159414C414D2020312E3520232020202020202020202020202020202020202020202020202020202020202020202064696C6176203B2020202020202020202044334430,
  0x522043494C41434F56204E474953204C45574F56204D414C4159414C414D2E2E4141204E474953204C45574F56204D414C4159414C414D2020312E3120232020202020202020202020202020202020202020202020202020202020202020202064696C6176203B20202020333444302E2E45334430,
  0x52522043494C41434F56204E474953204C45574F56204D414C4159414C414D2020312E3520232020202020202020202020202020202020202020202020202020202020202020202064696C6176203B2020202020202020202034344430,
  0x3E353444302D64657672657365723C202020414E202320202020202020202020202020202020202020202020202020202020206465776F6C6C61736964203B2020202020202020202035344430,
  0x4941204E474953204C45574F56204D414C4159414C414D2E2E45204E474953204C45574F56204D414C4159414C414D2020312E3120232020202020202020202020202020202020202020202020202020202020202020202064696C6176203B20202020383444302E2E36344430,
  0x3E393444302D64657672657365723C202020414E202320202020202020202020202020202020202020202020202020202020206465776F6C6C61736964203B2020202020202020202039344430,
  0x414D41524956204E474953204D414C4159414C414D2E2E4F204E474953204C45574F56204D414C4159414C414D2020312E3120232020202020202020202020202020202020202020202020202020202020202020202064696C6176203B20202020443444302E2E41344430,
  0x4850455220544F442052455454454C204D414C4159414C414D2020302E3620232020202020202020202020202020202020202020202020202020202020202020202064696C6176203B2020202020202020202045344430,
  0x41524150204E474953204D414C4159414C414D2020302E3920232020202038564E203B2020202020203B20202020202020202020202020202020202064696C6176203B2020202020202020202046344430,
  0x3E333544302D64657672657365723C2E2E3E303544302D64657672657365723C202020414E202320202020202020202020202020202020202020202020202020202020206465776F6C6C61736964203B20202020333544302E2E30354430,
  0x4C4C4C20554C4C4948432052455454454C204D414C4159414C414D2E2E4D20554C4C4948432052455454454C204D414C4159414C414D2020302E3920232020202020202020202020202020202020202020202020202020202020202020202064696C6176203B20202020363544302E2E34354430,
  0x4B52414D204854474E454C205541204D414C4159414C414D2020312E3120232020202020202020202020202020202020202020202020202020202020202020202064696C6176203B2020202020202020202037354430,
  0x485446494620454E4F204E4F495443415246204D414C4159414C414D2E2E48544549545849532D444E412D444552444E55482D454E4F20454E4F204E4F495443415246204D414C4159414C414D2020302E3920232020202038564E203B2020202020203B20202020202020202020202020202020202064696C6176203B20202020453544302E2E38354430,
  0x494920434941484352412052455454454C204D414C4159414C414D2020302E3820232020202020202020202020202020202020202020202020202020202020202020202064696C6176203B2020202020202020202046354430,
  0x4C4C2043494C41434F562052455454454C204D414C4159414C414D2E2E52522043494C41434F562052455454454C204D414C4159414C414D2020312E3120232020202020202020202020202020202020202020202020202020202020202020202064696C6176203B20202020313644302E2E30364430,
  0x4C4C2043494C41434F56204E474953204C45574F56204D414C4159414C414D2E2E4C2043494C41434F56204E474953204C45574F56204D414C4159414C414D2020312E3520232020202020202020202020202020202020202020202020202020202020202020202064696C6176203B20202020333644302E2E32364430,
  0x3E353644302D64657672657365723C2E2E3E343644302D64657672657365723C202020414E202320202020202020202020202020202020202020202020202020202020206465776F6C6C61736964203B20202020353644302E2E34364430,
  0x454E494E205449474944204D414C4159414C414D2E2E4F52455A205449474944204D414C4159414C414D2020312E3120232020202020202020202020202020202020202020202020202020202020202020202064696C6176203B20202020463644302E2E36364430,
  0x5352455452415551204545524854204E4F495443415246204D414C4159414C414D2E2E4E4554205245424D554E204D414C4159414C414D2020312E3520232020202038564E203B2020202020203B20202020202020202020202020202020202064696C6176203B20202020353744302E2E30374430,
  0x5348544E454554584953204545524854204E4F495443415246204D414C4159414C414D2E2E48544E45455458495320454E4F204E4F495443415246204D414C4159414C414D2020302E3920232020202038564E203B2020202020203B20202020202020202020202020202020202064696C6176203B20202020383744302E2E36374430,
  0x4B52414D2045544144204D414C4159414C414D2020312E3520232020202038564E203B2020202020203B20202020202020202020202020202020202064696C6176203B2020202020202020202039374430,
  0x4B20554C4C4948432052455454454C204D414C4159414C414D2E2E4E4E20554C4C4948432052455454454C204D414C4159414C414D2020312E3520232020202020202020202020202020202020202020202020202020202020202020202064696C6176203B20202020463744302E2E41374430,
  0x3E303844302D64657672657365723C202020414E202320202020202020202020202020202020202020202020202020202020206465776F6C6C61736964203B2020202020202020202030384430,
  0x55444E49424152444E4143204E47495320414C41484E495320302E333120232020202020202020202020202020202020202020202020202020202020202020202064696C6176203B2020202020202020202031384430,
  0x415941475241534956204E47495320414C41484E49532E2E41594152415653554E41204E47495320414C41484E49532020302E3320232020202020202020202020202020202020202020202020202020202020202020202064696C6176203B20202020333844302E2E32384430,
  0x3E343844302D64657672657365723C202020414E202320202020202020202020202020202020202020202020202020202020206465776F6C6C61736964203B2020202020202020202034384430,
  0x414E4E415955412052455454454C20414C41484E49532E2E414E4E4159412052455454454C20414C41484E49532020302E3320232020202020202020202020202020202020202020202020202020202020202020202064696C6176203B20202020363944302E2E35384430,
  0x3E393944302D64657672657365723C2E2E3E373944302D64657672657365723C202020414E202320202020202020202020202020202020202020202020202020202020206465776F6C6C61736964203B20202020393944302E2E37394430,
  0x414E4E4159414E20414A41544E41442052455454454C20414C41484E49532E2E414E4E4159414B20414E4141525041504C412052455454454C20414C41484E49532020302E3320232020202020202020202020202020202020202020202020202020202020202020202064696C6176203B20202020314244302E2E41394430,
  0x3E324244302D64657672657365723C202020414E202320202020202020202020202020202020202020202020202020202020206465776F6C6C61736964203B2020202020202020202032424430,
  0x414E4E415941522052455454454C20414C41484E49532E2E414E4E4159414420414B41594E41532052455454454C20414C41484E49532020302E3320232020202020202020202020202020202020202020202020202020202020202020202064696C6176203B20202020424244302E2E33424430,
  0x3E434244302D64657672657365723C202020414E202320202020202020202020202020202020202020202020202020202020206465776F6C6C61736964203B2020202020202020202043424430,
  0x414E4E4159414C20414A41544E41442052455454454C20414C41484E49532020302E3320232020202020202020202020202020202020202020202020202020202020202020202064696C6176203B2020202020202020202044424430,
  0x3E464244302D64657672657365723C2E2E3E454244302D64657672657365723C202020414E202320202020202020202020202020202020202020202020202020202020206465776F6C6C61736964203B20202020464244302E2E45424430,
  0x414E4E415941462052455454454C20414C41484E49532E2E414E4E415941562052455454454C20414C41484E49532020302E3320232020202020202020202020202020202020202020202020202020202020202020202064696C6176203B20202020364344302E2E30434430,
  0x3E394344302D64657672657365723C2E2E3E374344302D64657672657365723C202020414E202320202020202020202020202020202020202020202020202020202020206465776F6C6C61736964203B20202020394344302E2E37434430,
  0x414E554B414C2D4C41204E47495320414C41484E49532020302E3320232020202020202020202020202020202020202020202020202020202020202020202064696C6176203B2020202020202020202041434430,
  0x3E454344302D64657672657365723C2E2E3E424344302D64657672657365723C202020414E202320202020202020202020202020202020202020202020202020202020206465776F6C6C61736964203B20202020454344302E2E42434430,
  0x414C4C49502D41415020495454454B204E474953204C45574F5620414C41484E49532E2E414C4C49502D414C4541204E474953204C45574F5620414C41484E49532020302E3320232020202020202020202020202020202020202020202020202020202020202020202064696C6176203B20202020344444302E2E46434430,
  0x3E354444302D64657672657365723C202020414E202320202020202020202020202020202020202020202020202020202020206465776F6C6C61736964203B2020202020202020202035444430,
  0x414C4C49502D4141502041474944204E474953204C45574F5620414C41484E49532020302E3320232020202020202020202020202020202020202020202020202020202020202020202064696C6176203B2020202020202020202036444430,
  0x3E374444302D64657672657365723C202020414E202320202020202020202020202020202020202020202020202020202020206465776F6C6C61736964203B2020202020202020202037444430,
  0x415454494B554E41594147204E474953204C45574F5620414C41484E49532E2E414C4C49502D415454454147204E474953204C45574F5620414C41484E49532020302E3320232020202020202020202020202020202020202020202020202020202020202020202064696C6176203B20202020464444302E2E38444430,
  0x3E354544302D64657672657365723C2E2E3E304544302D64657672657365723C202020414E202320202020202020202020202020202020202020202020202020202020206465776F6C6C61736964203B20202020354544302E2E30454430,
  0x454E494E205449474944204854494C20414C41484E49532E2E4F52455A205449474944204854494C20414C41484E49532020302E3720232020202020202020202020202020202020202020202020202020202020202020202064696C6176203B20202020464544302E2E36454430,
  0x3E314644302D64657672657365723C2E2E3E304644302D64657672657365723C202020414E202320202020202020202020202020202020202020202020202020202020206465776F6C6C61736964203B20202020314644302E2E30464430,
  0x415454494B554E415941472041474944204E474953204C45574F5620414C41484E49532E2E414C4C49502D4154544541472041474944204E474953204C45574F5620414C41484E49532020302E3320232020202020202020202020202020202020202020202020202020202020202020202064696C6176203B20202020334644302E2E32464430,
  0x4159494C4144444E554B204E4F4954415554434E555020414C41484E49532020302E3320232020202038564E203B2020202020203B20202020202020202020202020202020202064696C6176203B2020202020202020202034464430,
  0x3E303045302D64657672657365723C2E2E3E354644302D64657672657365723C202020414E202320202020202020202020202020202020202020202020202020202020206465776F6C6C61736964203B20202020303045302E2E35464430,
  0x414120415241532052455443415241484320494148542E2E49414B204F4B2052455443415241484320494148542020312E3120232020202020202020202020202020202020202020202020202020202020202020202064696C6176203B20202020323345302E2E31304530,
  0x4D4120415241532052455443415241484320494148542020312E3120232020202020323345302044344530203B202020202020202020202020202020202064657070616D203B2020202020202020202033334530,
  0x5548544E4948502052455443415241484320494148542E2E4920415241532052455443415241484320494148542020312E3120232020202020202020202020202020202020202020202020202020202020202020202064696C6176203B20202020413345302E2E34334530,
  0x3E453345302D64657672657365723C2E2E3E423345302D64657672657365723C202020414E202320202020202020202020202020202020202020202020202020202020206465776F6C6C61736964203B20202020453345302E2E42334530,
  0x54484142204C4F424D59532059434E455252554320494148542020312E3120232020202038564E203B2020202020203B20202020202020202020202020202020202064696C6176203B2020202020202020202046334530,
  0x4E414B4B414D41592052455443415241484320494148542E2E4520415241532052455443415241484320494148542020312E3120232020202020202020202020202020202020202020202020202020202020202020202064696C6176203B20202020453445302E2E30344530,
  0x4E414D474E4F462052455443415241484320494148542020312E3120232020202038564E203B2020202020203B20202020202020202020202020202020202064696C6176203B2020202020202020202046344530,
  0x454E494E20544947494420494148542E2E4F52455A20544947494420494148542020312E3120232020202020202020202020202020202020202020202020202020202020202020202064696C6176203B20202020393545302E2E30354530,
  0x54554D4F484B2052455443415241484320494148542E2E55484B4E41484B474E412052455443415241484320494148542020312E3120232020202038564E203B2020202020203B20202020202020202020202020202020202064696C6176203B20202020423545302E2E41354530,
  0x3E303845302D64657672657365723C2E2E3E433545302D64657672657365723C202020414E202320202020202020202020202020202020202020202020202020202020206465776F6C6C61736964203B20202020303845302E2E43354530,
  0x474E5553204F484B2052455454454C204F414C2E2E4F4B2052455454454C204F414C2020312E3120232020202020202020202020202020202020202020202020202020202020202020202064696C6176203B20202020323845302E2E31384530,
  0x3E333845302D64657672657365723C202020414E202320202020202020202020202020202020202020202020202020202020206465776F6C6C61736964203B2020202020202020202033384530,
  0x4D4154204F484B2052455454454C204F414C2020312E3120232020202020202020202020202020202020202020202020202020202020202020202064696C6176203B2020202020202020202034384530,
  0x3E353845302D64657672657365723C202020414E202320202020202020202020202020202020202020202020202020202020206465776F6C6C61736964203B2020202020202020202035384530,
  0x41484720494C41502052455454454C204F414C20302E323120232020202020202020202020202020202020202020202020202020202020202020202064696C6176203B2020202020202020202036384530,
  0x4F432052455454454C204F414C2E2E4F474E2052455454454C204F414C2020312E3120232020202020202020202020202020202020202020202020202020202020202020202064696C6176203B20202020383845302E2E37384530,
  0x41484320494C41502052455454454C204F414C20302E323120232020202020202020202020202020202020202020202020202020202020202020202064696C6176203B2020202020202020202039384530,
  0x4D4154204F532052455454454C204F414C2020312E3120232020202020202020202020202020202020202020202020202020202020202020202064696C6176203B2020202020202020202041384530,
  0x3E423845302D64657672657365723C202020414E202320202020202020202020202020202020202020202020202020202020206465776F6C6C61736964203B2020202020202020202042384530,
  0x41484A20494C41502052455454454C204F414C20302E323120232020202020202020202020202020202020202020202020202020202020202020202064696C6176203B2020202020202020202043384530,
  0x4F594E2052455454454C204F414C2020312E3120232020202020202020202020202020202020202020202020202020202020202020202064696C6176203B2020202020202020202044384530,
  0x414E4E20494C41502052455454454C204F414C2E2E41594E20494C41502052455454454C204F414C20302E323120232020202020202020202020202020202020202020202020202020202020202020202064696C6176203B20202020333945302E2E45384530,
  0x4D4154204F48542052455454454C204F414C2E2E4F442052455454454C204F414C2020312E3120232020202020202020202020202020202020202020202020202020202020202020202064696C6176203B20202020373945302E2E34394530,
  0x41484420494C41502052455454454C204F414C20302E323120232020202020202020202020202020202020202020202020202020202020202020202064696C6176203B2020202020202020202038394530,
  0x474E5553204F462052455454454C204F414C2E2E4F4E2052455454454C204F414C2020312E3120232020202020202020202020202020202020202020202020202020202020202020202064696C6176203B20202020463945302E2E39394530,
  0x41484220494C41502052455454454C204F414C20302E323120232020202020202020202020202020202020202020202020202020202020202020202064696C6176203B2020202020202020202030414530,
  0x474E494C204F4C2052455454454C204F414C2E2E4F4D2052455454454C204F414C2020312E3120232020202020202020202020202020202020202020202020202020202020202020202064696C6176203B20202020334145302E2E31414530,
  0x3E344145302D64657672657365723C202020414E202320202020202020202020202020202020202020202020202020202020206465776F6C6C61736964203B2020202020202020202034414530,
  0x544F4F4C204F4C2052455454454C204F414C2020312E3120232020202020202020202020202020202020202020202020202020202020202020202064696C6176203B2020202020202020202035414530,
  0x3E364145302D64657672657365723C202020414E202320202020202020202020202020202020202020202020202020202020206465776F6C6C61736964203B2020202020202020202036414530,
  0x4F572052455454454C204F414C2020312E3120232020202020202020202020202020202020202020202020202020202020202020202064696C6176203B2020202020202020202037414530,
  0x415353205449524B534E41532052455454454C204F414C2E2E414853205449524B534E41532052455454454C204F414C20302E323120232020202020202020202020202020202020202020202020202020202020202020202064696C6176203B20202020394145302E2E38414530,
  0x474E5553204F482052455454454C204F414C2E2E474E5553204F532052455454454C204F414C2020312E3120232020202020202020202020202020202020202020202020202020202020202020202064696C6176203B20202020424145302E2E41414530,
  0x414C4C20494C41502052455454454C204F414C20302E323120232020202020202020202020202020202020202020202020202020202020202020202064696C6176203B2020202020202020202043414530,
  0x4141204E474953204C45574F56204F414C2E2E4F2052455454454C204F414C2020312E3120232020202020202020202020202020202020202020202020202020202020202020202064696C6176203B20202020324245302E2E44414530,
  0x4D41204E474953204C45574F56204F414C2020312E3120232020202020324245302044434530203B202020202020202020202020202020202064657070616D203B2020202020202020202033424530,
  0x5555204E474953204C45574F56204F414C2E2E49204E474953204C45574F56204F414C2020312E3120232020202020202020202020202020202020202020202020202020202020202020202064696C6176203B20202020394245302E2E34424530,
  0x414D4152495620494C4150204E474953204F414C20302E323120232020202020202020202020202020202020202020202020202020202020202020202064696C6176203B2020202020202020202041424530,
  0x4F594E204E474953204C45574F56494D4553204F414C2E2E4E4F4B2049414D204E474953204C45574F56204F414C2020312E3120232020202020202020202020202020202020202020202020202020202020202020202064696C6176203B20202020444245302E2E42424530,
  0x3E464245302D64657672657365723C2E2E3E454245302D64657672657365723C202020414E202320202020202020202020202020202020202020202020202020202020206465776F6C6C61736964203B20202020464245302E2E45424530,
  0x4941204E474953204C45574F56204F414C2E2E45204E474953204C45574F56204F414C2020312E3120232020202020202020202020202020202020202020202020202020202020202020202064696C6176203B20202020344345302E2E30434530,
  0x3E354345302D64657672657365723C202020414E202320202020202020202020202020202020202020202020202020202020206465776F6C6C61736964203B2020202020202020202035434530,
  0x414C204F4B204F414C2020312E3120232020202020202020202020202020202020202020202020202020202020202020202064696C6176203B2020202020202020202036434530,
  0x3E374345302D64657672657365723C202020414E202320202020202020202020202020202020202020202020202020202020206465776F6C6C61736964203B2020202020202020202037434530,
  0x41544948414747494E204F414C2E2E4B452049414D20454E4F54204F414C2020312E3120232020202020202020202020202020202020202020202020202020202020202020202064696C6176203B20202020444345302E2E38434530,
  0x3E464345302D64657672657365723C2E2E3E454345302D64657672657365723C202020414E202320202020202020202020202020202020202020202020202020202020206465776F6C6C61736964203B20202020464345302E2E45434530,
  0x454E494E205449474944204F414C2E2E4F52455A205449474944204F414C2020312E3120232020202020202020202020202020202020202020202020202020202020202020202064696C6176203B20202020394445302E2E30444530,
  0x3E424445302D64657672657365723C2E2E3E414445302D64657672657365723C202020414E202320202020202020202020202020202020202020202020202020202020206465776F6C6C61736964203B20202020424445302E2E41444530,
  0x4F4E204F48204F414C2020312E3120232020202020393945302042414530203B202020202020202020202020202020202064657070616D203B2020202020202020202043444530,
  0x4F4D204F48204F414C2020312E3120232020202020314145302042414530203B202020202020202020202020202020202064657070616D203B2020202020202020202044444530,
  0x4F594E20554D484B2052455454454C204F414C2E2E4F4720554D484B2052455454454C204F414C2020312E3620232020202020202020202020202020202020202020202020202020202020202020202064696C6176203B20202020464445302E2E45444530,
  0x3E464645302D64657672657365723C2E2E3E304545302D64657672657365723C202020414E202320202020202020202020202020202020202020202020202020202020206465776F6C6C61736964203B20202020464645302E2E30454530,
  0x4D4F20454C42414C4C5953204E4154454249542020302E3220232020202020202020202020202020202020202020202020202020202020202020202064696C6176203B2020202020202020202030304630,
  0x4F474D2047495920474F4853202D414B42204B52414D204E4154454249542E2E412044455441434E555254204F474D204749592052455447204B52414D204E4154454249542020302E3220232020202038564E203B2020202020203B20202020202020202020202020202020202064696C6176203B20202020413046302E2E31304630,
  0x474548535420434942414C4C59535245544E49204B52414D204E4154454249542020302E3220232020202020202020202020202020202020202020202020202020202020202020202064696C6176203B2020202020202020202042304630,
  0x524154534220474548535420524554494D494C4544204B52414D204E4154454249542020302E3220232020202020202020202042304630203B202020202020202020202020202020202064657070616D203B2020202020202020202043304630,
  0x534741545220524148432D204E4143472041524753204E474953204C414349474F4C4F52545341204E4154454249542E2E44414853204B52414D204E4154454249542020302E3220232020202038564E203B2020202020203B20202020202020202020202020202020202064696C6176203B20202020373146302E2E44304630,
  0x53475548535420474E4F4453204E474953204C414349474F4C4F52545341204E4154454249542E2E415020445559484B2D204E474953204C414349474F4C4F52545341204E4154454249542020302E3220232020202020202020202020202020202020202020202020202020202020202020202064696C6176203B20202020393146302E2E38314630,
  0x47414E204C4544522052414B44204C454452204E474953204E4154454249542E2E474943472052414B44204C454452204E474953204E4154454249542020302E3220232020202038564E203B2020202020203B20202020202020202020202020202020202064696C6176203B20202020463146302E2E41314630,
  0x454E494E205449474944204E4154454249542E2E4F52455A205449474944204E4154454249542020302E3220232020202020202020202020202020202020202020202020202020202020202020202064696C6176203B20202020393246302E2E30324630,
  0x5347415452205355445342204B52414D204E4154454249542E2E454E4F20464C4148205449474944204E4154454249542020302E3220232020202038564E203B2020202020203B20202020202020202020202020202020202064696C6176203B20202020343346302E2E41324630,
  0x414C5A2049594E20474E555A42205341474E204B52414D204E4154454249542020302E3220232020202020202020202020202020202020202020202020202020202020202020202064696C6176203B2020202020202020202035334630,
  0x4E41432047494D2049485A422053474154522044555A442D205445524143204B52414D204E4154454249542020302E3220232020202038564E203B2020202020203B20202020202020202020202020202020202064696C6176203B2020202020202020202036334630,
  0x534741545220524F475320474E555A42205341474E204B52414D204E4154454249542020302E3220232020202020202020202020202020202020202020202020202020202020202020202064696C6176203B2020202020202020202037334630,
  0x4F474D20454843204B52414D204E4154454249542020302E3220232020202038564E203B2020202020203B20202020202020202020202020202020202064696C6176203B2020202020202020202038334630,
  0x555248502D20415354204B52414D204E4154454249542020302E3220232020202020202020202020202020202020202020202020202020202020202020202064696C6176203B2020202020202020202039334630,
  0x5341594720474E41484B20474E41204B52414D204E4154454249542E2E4E4F594720534741545220475547204B52414D204E4154454249542020302E3220232020202038564E203B2020202020203B20202020202020202020202020202020202064696C6176203B20202020443346302E2E41334630,
  0x41472052455454454C204E4154454249542E2E534548535420524159204E474953204E4154454249542020302E3220232020202020202020202020202020202020202020202020202020202020202020202064696C6176203B20202020323446302E2E45334630,
  0x4148472052455454454C204E4154454249542020302E3220232020202020374246302032344630203B202020202020202020202020202020202064657070616D203B2020202020202020202033344630,
  0x414A2052455454454C204E4154454249542E2E41474E2052455454454C204E4154454249542020302E3220232020202020202020202020202020202020202020202020202020202020202020202064696C6176203B20202020373446302E2E34344630,
  0x3E383446302D64657672657365723C202020414E202320202020202020202020202020202020202020202020202020202020206465776F6C6C61736964203B2020202020202020202038344630,
  0x4144442052455454454C204E4154454249542E2E41594E2052455454454C204E4154454249542020302E3220232020202020202020202020202020202020202020202020202020202020202020202064696C6176203B20202020433446302E2E39344630,
  0x414844442052455454454C204E4154454249542020302E3220232020202020374246302043344630203B202020202020202020202020202020202064657070616D203B2020202020202020202044344630,
  0x41442052455454454C204E4154454249542E2E414E4E2052455454454C204E4154454249542020302E3220232020202020202020202020202020202020202020202020202020202020202020202064696C6176203B20202020313546302E2E45344630,
  0x4148442052455454454C204E4154454249542020302E3220232020202020374246302031354630203B202020202020202020202020202020202064657070616D203B2020202020202020202032354630,
  0x41422052455454454C204E4154454249542E2E414E2052455454454C204E4154454249542020302E3220232020202020202020202020202020202020202020202020202020202020202020202064696C6176203B20202020363546302E2E33354630,
  0x4148422052455454454C204E4154454249542020302E3220232020202020374246302036354630203B202020202020202020202020202020202064657070616D203B2020202020202020202037354630,
  0x415A442052455454454C204E4154454249542E2E414D2052455454454C204E4154454249542020302E3220232020202020202020202020202020202020202020202020202020202020202020202064696C6176203B20202020423546302E2E38354630,
  0x41485A442052455454454C204E4154454249542020302E3220232020202020374246302042354630203B202020202020202020202020202020202064657070616D203B2020202020202020202043354630,
  0x412052455454454C204E4154454249542E2E41572052455454454C204E4154454249542020302E3220232020202020202020202020202020202020202020202020202020202020202020202064696C6176203B20202020383646302E2E44354630,
  0x4153534B2052455454454C204E4154454249542020302E3220232020202020354246302030344630203B202020202020202020202020202020202064657070616D203B2020202020202020202039364630,
  0x4152204D524F462D44455849462052455454454C204E4154454249542020302E3320232020202020202020202020202020202020202020202020202020202020202020202064696C6176203B2020202020202020202041364630,
  0x4152522052455454454C204E4154454249542E2E414B4B2052455454454C204E4154454249542020312E3520232020202020202020202020202020202020202020202020202020202020202020202064696C6176203B20202020433646302E2E42364630,
  0x3E303746302D64657672657365723C2E2E3E443646302D64657672657365723C202020414E202320202020202020202020202020202020202020202020202020202020206465776F6C6C61736964203B20202020303746302E2E44364630,
  0x49204E474953204C45574F56204E4154454249542E2E4141204E474953204C45574F56204E4154454249542020302E3220232020202020202020202020202020202020202020202020202020202020202020202064696C6176203B20202020323746302E2E31374630,
  0x4949204E474953204C45574F56204E4154454249542020302E3220232020202020323746302031374630203B202020202020202020202020202020202064657070616D203B2020202020202020202033374630,
  0x55204E474953204C45574F56204E4154454249542020302E3220232020202020202020202020202020202020202020202020202020202020202020202064696C6176203B2020202020202020202034374630,
  0x5555204E474953204C45574F56204E4154454249542020302E3220232020202020343746302031374630203B202020202020202020202020202020202064657070616D203B2020202020202020202035374630,
  0x522043494C41434F56204E474953204C45574F56204E4154454249542020302E3220232020202020303846302032424630203B202020202020202020202020202020202064657070616D203B2020202020202020202036374630,
  0x52522043494C41434F56204E474953204C45574F56204E4154454249542020302E3223203038463020313746302032424630203B202020202020202020202020202020202064657070616D203B2020202020202020202037374630,
  0x4C2043494C41434F56204E474953204C45574F56204E4154454249542020302E3220232020202020303846302033424630203B202020202020202020202020202020202064657070616D203B2020202020202020202038374630,
  0x4C4C2043494C41434F56204E474953204C45574F56204E4154454249542020302E3223203038463020313746302033424630203B202020202020202020202020202020202064657070616D203B2020202020202020202039374630,
  0x49204445535245564552204E474953204C45574F56204E4154454249542E2E45204E474953204C45574F56204E4154454249542020302E3220232020202020202020202020202020202020202020202020202020202020202020202064696C6176203B20202020303846302E2E41374630,
  0x4949204445535245564552204E474953204C45574F56204E4154454249542020302E3220232020202020303846302031374630203B202020202020202020202020202020202064657070616D203B2020202020202020202031384630,
  0x41544E414C4148204B52414D204E4154454249542E2E41442041414E20414C5A2049594E204E474953204E4154454249542020302E3220232020202020202020202020202020202020202020202020202020202020202020202064696C6176203B20202020343846302E2E32384630,
  0x4154554C4150204B52414D204E4154454249542020302E3220232020202038564E203B2020202020203B20202020202020202020202020202020202064696C6176203B2020202020202020202035384630,
  0x53474E495947522044454D20555247204E474953204E4154454249542E2E53474154522049434C204E474953204E4154454249542020302E3220232020202020202020202020202020202020202020202020202020202020202020202064696C6176203B20202020423846302E2E36384630,
  0x4E4143205548434D204445545245564E49204E4749532044454E494F4A425553204E4154454249542E2E4E4143205548434D204445545245564E49204E474953204E4154454249542020302E3620232020202020202020202020202020202020202020202020202020202020202020202064696C6176203B20202020463846302E2E43384630,
  0x41472052455454454C2044454E494F4A425553204E4154454249542E2E414B2052455454454C2044454E494F4A425553204E4154454249542020302E3220232020202020202020202020202020202020202020202020202020202020202020202064696C6176203B20202020323946302E2E30394630,
  0x4148472052455454454C2044454E494F4A425553204E4154454249542020302E3220232020202020374246302032394630203B202020202020202020202020202020202064657070616D203B2020202020202020202033394630,
  0x41432052455454454C2044454E494F4A425553204E4154454249542E2E41474E2052455454454C2044454E494F4A425553204E4154454249542020302E3220232020202020202020202020202020202020202020202020202020202020202020202064696C6176203B20202020353946302E2E34394630,
  0x4148432052455454454C2044454E494F4A425553204E4154454249542020302E3320232020202020202020202020202020202020202020202020202020202020202020202064696C6176203B2020202020202020202036394630,
  0x414A2052455454454C2044454E494F4A425553204E4154454249542020302E3220232020202020202020202020202020202020202020202020202020202020202020202064696C6176203B2020202020202020202037394630,
  0x3E383946302D64657672657365723C202020414E202320202020202020202020202020202020202020202020202020202020206465776F6C6C61736964203B2020202020202020202038394630,
  0x4144442052455454454C2044454E494F4A425553204E4154454249542E2E41594E2052455454454C2044454E494F4A425553204E4154454249542020302E3220232020202020202020202020202020202020202020202020202020202020202020202064696C6176203B20202020433946302E2E39394630,
  0x414844442052455454454C2044454E494F4A425553204E4154454249542020302E3220232020202020374246302043394630203B202020202020202020202020202020202064657070616D203B2020202020202020202044394630,
  0x41442052455454454C2044454E494F4A425553204E4154454249542E2E414E4E2052455454454C2044454E494F4A425553204E4154454249542020302E3220232020202020202020202020202020202020202020202020202020202020202020202064696C6176203B20202020314146302E2E45394630,
  0x4148442052455454454C2044454E494F4A425553204E4154454249542020302E3220232020202020374246302031414630203B202020202020202020202020202020202064657070616D203B2020202020202020202032414630,
  0x41422052455454454C2044454E494F4A425553204E4154454249542E2E414E2052455454454C2044454E494F4A425553204E4154454249542020302E3220232020202020202020202020202020202020202020202020202020202020202020202064696C6176203B20202020364146302E2E33414630,
  0x4148422052455454454C2044454E494F4A425553204E4154454249542020302E3220232020202020374246302036414630203B202020202020202020202020202020202064657070616D203B2020202020202020202037414630,
  0x415A442052455454454C2044454E494F4A425553204E4154454249542E2E414D2052455454454C2044454E494F4A425553204E4154454249542020302E3220232020202020202020202020202020202020202020202020202020202020202020202064696C6176203B20202020424146302E2E38414630,
  0x41485A442052455454454C2044454E494F4A425553204E4154454249542020302E3220232020202020374246302042414630203B202020202020202020202020202020202064657070616D203B2020202020202020202043414630,
  0x41572052455454454C2044454E494F4A425553204E4154454249542020302E3220232020202020202020202020202020202020202020202020202020202020202020202064696C6176203B2020202020202020202044414630,
  0x412D2052455454454C2044454E494F4A425553204E4154454249542E2E41485A2052455454454C2044454E494F4A425553204E4154454249542020302E3320232020202020202020202020202020202020202020202020202020202020202020202064696C6176203B20202020304246302E2E45414630,
  0x41482052455454454C2044454E494F4A425553204E4154454249542E2E41592052455454454C2044454E494F4A425553204E4154454249542020302E3220232020202020202020202020202020202020202020202020202020202020202020202064696C6176203B20202020374246302E2E31424630,
  0x412052455454454C2044454E494F4A425553204E4154454249542020302E3320232020202020202020202020202020202020202020202020202020202020202020202064696C6176203B2020202020202020202038424630,
  0x4153534B2052455454454C2044454E494F4A425553204E4154454249542020302E3220232020202020354246302030394630203B202020202020202020202020202020202064657070616D203B2020202020202020202039424630,
  0x4152204D524F462D44455849462052455454454C2044454E494F4A425553204E4154454249542E2E4157204D524F462D44455849462052455454454C2044454E494F4A425553204E4154454249542020302E3320232020202020202020202020202020202020202020202020202020202020202020202064696C6176203B20202020434246302E2E41424630,
  0x3E444246302D64657672657365723C202020414E202320202020202020202020202020202020202020202020202020202020206465776F6C6C61736964203B2020202020202020202044424630,
  0x454A52204F4452204C4F424D5953204E4154454249542E2E41484B20555220554B204E4154454249542020302E3320232020202038564E203B2020202020203B20202020202020202020202020202020202064696C6176203B20202020354346302E2E45424630,
  0x4E41444720414D444150204C4F424D5953204E4154454249542020302E3320232020202020202020202020202020202020202020202020202020202020202020202064696C6176203B2020202020202020202036434630,
  0x4C4959484B2D2049485A4220554220524F4E204C4F424D5953204E4154454249542E2E4D415247204159475220454A52204F4452204C4F424D5953204E4154454249542020302E3320232020202038564E203B2020202020203B20202020202020202020202020202020202064696C6176203B20202020434346302E2E37434630,
  0x3E444346302D64657672657365723C202020414E202320202020202020202020202020202020202020202020202020202020206465776F6C6C61736964203B2020202020202020202044434630,
  0x52414B44204C4544522047414E204C454452204E474953204E4154454249542020312E3520232020202038564E203B2020202020203B20202020202020202020202020202020202064696C6176203B2020202020202020202045434630,
  0x4D5553472047414E204C454452204E474953204E4154454249542020302E3320232020202038564E203B2020202020203B20202020202020202020202020202020202064696C6176203B2020202020202020202046434630,
  0x4E41594752204F474D20494720474959204D41594E4D204B52414D204E4154454249542E2E4E41594752204F474D20494720474F4853202D414B5342204B52414D204E4154454249542020312E3420232020202038564E203B2020202020203B20202020202020202020202020202020202064696C6176203B20202020314446302E2E30444630,
  0x414D2042414753204F474D2047495920474E49594E52204144524220474E49534F4C43204B52414D204E4154454249542E2E4745485354205349594E204B52414D204E4154454249542020312E3520232020202038564E203B2020202020203B20202020202020202020202020202020202064696C6176203B20202020344446302E2E32444630,
  0x53544F442048544957204E4749532049545341565320474E494341462D5446454C2E2E4E4749532049545341565320474E494341462D54484749522020322E3520232020202038564E203B2020202020203B20202020202020202020202020202020202064696C6176203B20202020384446302E2E35444630,
  0x5347415452204E4148434D20474E494C49415254204B52414D204E4154454249542E2E5347415452204E4148434D20474E494441454C204B52414D204E4154454249542020302E3620232020202038564E203B2020202020203B20202020202020202020202020202020202064696C6176203B20202020414446302E2E39444630,
  0x3E464646302D64657672657365723C2E2E3E424446302D64657672657365723C202020414E202320202020202020202020202020202020202020202020202020202020206465776F6C6C61736964203B20202020464646302E2E42444630,
  0x412052455454454C2052414D4E41594D2E2E414B2052455454454C2052414D4E41594D2020302E3320232020202020202020202020202020202020202020202020202020202020202020202064696C6176203B20202020313230312E2E30303031,
  0x41204E4148532052455454454C2052414D4E41594D2020312E3520232020202020202020202020202020202020202020202020202020202020202020202064696C6176203B2020202020202020202032323031,
  0x452052455454454C2052414D4E41594D2E2E492052455454454C2052414D4E41594D2020302E3320232020202020202020202020202020202020202020202020202020202020202020202064696C6176203B20202020373230312E2E33323031,
  0x45204E4F4D2052455454454C2052414D4E41594D2020312E3520232020202020202020202020202020202020202020202020202020202020202020202064696C6176203B2020202020202020202038323031,
  0x55412052455454454C2052414D4E41594D2E2E4F2052455454454C2052414D4E41594D2020302E3320232020202020202020202020202020202020202020202020202020202020202020202064696C6176203B20202020413230312E2E39323031,
  0x4141204C4C4154204E474953204C45574F562052414D4E41594D2020312E3520232020202020202020202020202020202020202020202020202020202020202020202064696C6176203B2020202020202020202042323031,
  0x4941204E474953204C45574F562052414D4E41594D2E2E4141204E474953204C45574F562052414D4E41594D2020302E3320232020202020202020202020202020202020202020202020202020202020202020202064696C6176203B20202020323330312E2E43323031,
  0x45564F42412045204E474953204C45574F562052414D4E41594D2E2E4949204E4F4D204E474953204C45574F562052414D4E41594D2020312E3520232020202020202020202020202020202020202020202020202020202020202020202064696C6176203B20202020353330312E2E33333031,
  0x414D41524956204E4749532052414D4E41594D2E2E4152415653554E41204E4749532052414D4E41594D2020302E3320232020202020202020202020202020202020202020202020202020202020202020202064696C6176203B20202020393330312E2E36333031,
  0x41532054414552472052455454454C2052414D4E41594D2E2E54415341204E4749532052414D4E41594D2020312E3520232020202020202020202020202020202020202020202020202020202020202020202064696C6176203B20202020463330312E2E41333031,
  0x454E494E2054494749442052414D4E41594D2E2E4F52455A2054494749442052414D4E41594D2020302E3320232020202020202020202020202020202020202020202020202020202020202020202064696C6176203B20202020393430312E2E30343031,
  0x45564954494E4547204C4F424D59532052414D4E41594D2E2E4E4F495443455320454C5454494C204E4749532052414D4E41594D2020302E3320232020202038564E203B2020202020203B20202020202020202020202020202020202064696C6176203B20202020463430312E2E41343031,
  0x4C4C2043494C41434F56204E474953204C45574F562052414D4E41594D2E2E4148532052455454454C2052414D4E41594D2020302E3320232020202020202020202020202020202020202020202020202020202020202020202064696C6176203B20202020393530312E2E30353031,
  0x454E494E205449474944204E4148532052414D4E41594D2E2E41474E204E4F4D2052455454454C2052414D4E41594D2020312E3520232020202020202020202020202020202020202020202020202020202020202020202064696C6176203B20202020393930312E2E41353031,
  0x4941204E4F544941204E474953204C45574F562052414D4E41594D2E2E312D454E4F542049544D41484B204E4749532052414D4E41594D2020322E3520232020202020202020202020202020202020202020202020202020202020202020202064696C6176203B20202020443930312E2E41393031,
  0x4E4F4954414D414C435845204E414853204C4F424D59532052414D4E41594D2E2E454E4F204E414853204C4F424D59532052414D4E41594D2020312E3520232020202038564E203B2020202020203B20202020202020202020202020202020202064696C6176203B20202020463930312E2E45393031,
  0x454F482052455454454C204C415449504143204E414947524F45472E2E4E412052455454454C204C415449504143204E414947524F45472020312E31202320202020202020202020202020202020202020202020202020202020206465776F6C6C61736964203B20202020354330312E2E30413031,
  0x3E364330312D64657672657365723C202020414E202320202020202020202020202020202020202020202020202020202020206465776F6C6C61736964203B2020202020202020202036433031,
  0x4E592052455454454C204C415449504143204E414947524F45472020312E3620232020202020202020202037324432203B202020202020202020202020202020202064657070616D203B2020202020202020202037433031,
  0x3E434330312D64657672657365723C2E2E3E384330312D64657672657365723C202020414E202320202020202020202020202020202020202020202020202020202020206465776F6C6C61736964203B20202020434330312E2E38433031,
  0x4E45412052455454454C204C415449504143204E414947524F45472020312E3620232020202020202020202044324432203B202020202020202020202020202020202064657070616D203B2020202020202020202044433031,
  0x3E464330312D64657672657365723C2E2E3E454330312D64657672657365723C202020414E202320202020202020202020202020202020202020202020202020202020206465776F6C6C61736964203B20202020464330312E2E45433031,
  0x49462052455454454C204E414947524F45472E2E4E412052455454454C204E414947524F45472020312E3120232020202020202020202020202020202020202020202020202020202020202020202064696C6176203B20202020364630312E2E30443031,
  0x4946494C452052455454454C204E414947524F45472E2E4E592052455454454C204E414947524F45472020322E3320232020202020202020202020202020202020202020202020202020202020202020202064696C6176203B20202020384630312E2E37463031,
  0x4E49412052455454454C204E414947524F45472E2E4E41472044454E5255542052455454454C204E414947524F45472020312E3420232020202020202020202020202020202020202020202020202020202020202020202064696C6176203B20202020414630312E2E39463031,
  0x524F5441524150455320485041524741524150204E414947524F45472020312E3120232020202038564E203B2020202020203B20202020202020202020202020202020202064696C6176203B2020202020202020202042463031,
  0x52414E204E414947524F45472052455454454C205245494649444F4D2020312E3420232020202020202020202043443031203B202020202020202020202020202020202064657070616D203B2020202020202020202043463031,
  0x4E474953204C414942414C2052455454454C204E414947524F45472E2E4E45412052455454454C204E414947524F45472020312E3620232020202020202020202020202020202020202020202020202020202020202020202064696C6176203B20202020464630312E2E44463031,
  0x48554549484E49524F455920474E4F45534F4843204C55474E41482E2E4B4F4559494B20474E4F45534F4843204C55474E41482020312E3120232020202038564E203B2020202020203B20202020202020202020202020202020202064696C6176203B20202020393531312E2E30303131,
  0x4C554549522D5455454B495420474E4F45534F4843204C55474E41482E2E5455454B49542D4B4F4559494B20474E4F45534F4843204C55474E41482020322E3520232020202038564E203B2020202020203B20202020202020202020202020202020202064696C6176203B20202020453531312E2E41353131,
  0x52454C4C494620474E4F4553474E554A204C55474E41482E2E52454C4C494620474E4F45534F4843204C55474E41482020312E31202320202020202020202020202020202020202020202020202020202020206465776F6C6C61736964203B20202020303631312E2E46353131,
  0x4145415241474E41535320474E4F4553474E554A204C55474E41482E2E4120474E4F4553474E554A204C55474E41482020312E3120232020202038564E203B2020202020203B20202020202020202020202020202020202064696C6176203B20202020324131312E2E31363131,
  0x4541592D4F20474E4F4553474E554A204C55474E41482E2E55452D4120474E4F4553474E554A204C55474E41482020322E3520232020202038564E203B2020202020203B20202020202020202020202020202020202064696C6176203B20202020374131312E2E33413131,
  0x48554549484E49524F455920474E4F4553474E4F4A204C55474E41482E2E4B4F4559494B20474E4F4553474E4F4A204C55474E41482020312E3120232020202038564E203B2020202020203B20202020202020202020202020202020202064696C6176203B20202020394631312E2E38413131,
  0x4E5545494E474E41535320474E4F4553474E4F4A204C55474E41482E2E4E5545494E2D4B4F4559494B20474E4F4553474E4F4A204C55474E41482020322E3520232020202038564E203B2020202020203B20202020202020202020202020202020202064696C6176203B20202020464631312E2E41463131,
  0x4F4820454C42414C4C5953204349504F494854452E2E414820454C42414C4C5953204349504F494854452020302E3320232020202020202020202020202020202020202020202020202020202020202020202064696C6176203B20202020363032312E2E30303231,
  0x414F4820454C42414C4C5953204349504F494854452020312E3420232020202020202020202020202020202020202020202020202020202020202020202064696C6176203B2020202020202020202037303231,
  0x4F5120454C42414C4C5953204349504F494854452E2E414C20454C42414C4C5953204349504F494854452020302E3320232020202020202020202020202020202020202020202020202020202020202020202064696C6176203B20202020363432312E2E38303231]

def mapText6 : List Nat := [
  0x414F5120454C42414C4C5953204349504F494854452020312E3420232020202020202020202020202020202020202020202020202020202020202020202064696C6176203B2020202020202020202037343231,
  0x41575120454C42414C4C5953204349504F494854452020302E3320232020202020202020202020202020202020202020202020202020202020202020202064696C6176203B2020202020202020202038343231,
  0x3E393432312D64657672657365723C202020414E202320202020202020202020202020202020202020202020202020202020206465776F6C6C61736964203B2020202020202020202039343231,
  0x45575120454C42414C4C5953204349504F494854452E2E49575120454C42414C4C5953204349504F494854452020302E3320232020202020202020202020202020202020202020202020202020202020202020202064696C6176203B20202020443432312E2E41343231,
  0x3E463432312D64657672657365723C2E2E3E453432312D64657672657365723C202020414E202320202020202020202020202020202020202020202020202020202020206465776F6C6C61736964203B20202020463432312E2E45343231,
  0x4F485120454C42414C4C5953204349504F494854452E2E41485120454C42414C4C5953204349504F494854452020302E3320232020202020202020202020202020202020202020202020202020202020202020202064696C6176203B20202020363532312E2E30353231,
  0x3E373532312D64657672657365723C202020414E202320202020202020202020202020202020202020202020202020202020206465776F6C6C61736964203B2020202020202020202037353231,
  0x4157485120454C42414C4C5953204349504F494854452020302E3320232020202020202020202020202020202020202020202020202020202020202020202064696C6176203B2020202020202020202038353231,
  0x3E393532312D64657672657365723C202020414E202320202020202020202020202020202020202020202020202020202020206465776F6C6C61736964203B2020202020202020202039353231,
  0x4557485120454C42414C4C5953204349504F494854452E2E4957485120454C42414C4C5953204349504F494854452020302E3320232020202020202020202020202020202020202020202020202020202020202020202064696C6176203B20202020443532312E2E41353231,
  0x3E463532312D64657672657365723C2E2E3E453532312D64657672657365723C202020414E202320202020202020202020202020202020202020202020202020202020206465776F6C6C61736964203B20202020463532312E2E45353231,
  0x4F5820454C42414C4C5953204349504F494854452E2E414220454C42414C4C5953204349504F494854452020302E3320232020202020202020202020202020202020202020202020202020202020202020202064696C6176203B20202020363832312E2E30363231,
  0x414F5820454C42414C4C5953204349504F494854452020312E3420232020202020202020202020202020202020202020202020202020202020202020202064696C6176203B2020202020202020202037383231,
  0x41575820454C42414C4C5953204349504F494854452020302E3320232020202020202020202020202020202020202020202020202020202020202020202064696C6176203B2020202020202020202038383231,
  0x3E393832312D64657672657365723C202020414E202320202020202020202020202020202020202020202020202020202020206465776F6C6C61736964203B2020202020202020202039383231,
  0x45575820454C42414C4C5953204349504F494854452E2E49575820454C42414C4C5953204349504F494854452020302E3320232020202020202020202020202020202020202020202020202020202020202020202064696C6176203B20202020443832312E2E41383231,
  0x3E463832312D64657672657365723C2E2E3E453832312D64657672657365723C202020414E202320202020202020202020202020202020202020202020202020202020206465776F6C6C61736964203B20202020463832312E2E45383231,
  0x4F4B20454C42414C4C5953204349504F494854452E2E414E20454C42414C4C5953204349504F494854452020302E3320232020202020202020202020202020202020202020202020202020202020202020202064696C6176203B20202020454132312E2E30393231,
  0x414F4B20454C42414C4C5953204349504F494854452020312E3420232020202020202020202020202020202020202020202020202020202020202020202064696C6176203B2020202020202020202046413231,
  0x41574B20454C42414C4C5953204349504F494854452020302E3320232020202020202020202020202020202020202020202020202020202020202020202064696C6176203B2020202020202020202030423231,
  0x3E314232312D64657672657365723C202020414E202320202020202020202020202020202020202020202020202020202020206465776F6C6C61736964203B2020202020202020202031423231,
  0x45574B20454C42414C4C5953204349504F494854452E2E49574B20454C42414C4C5953204349504F494854452020302E3320232020202020202020202020202020202020202020202020202020202020202020202064696C6176203B20202020354232312E2E32423231,
  0x3E374232312D64657672657365723C2E2E3E364232312D64657672657365723C202020414E202320202020202020202020202020202020202020202020202020202020206465776F6C6C61736964203B20202020374232312E2E36423231,
  0x4F584B20454C42414C4C5953204349504F494854452E2E41584B20454C42414C4C5953204349504F494854452020302E3320232020202020202020202020202020202020202020202020202020202020202020202064696C6176203B20202020454232312E2E38423231,
  0x3E464232312D64657672657365723C202020414E202320202020202020202020202020202020202020202020202020202020206465776F6C6C61736964203B2020202020202020202046423231,
  0x4157584B20454C42414C4C5953204349504F494854452020302E3320232020202020202020202020202020202020202020202020202020202020202020202064696C6176203B2020202020202020202030433231,
  0x3E314332312D64657672657365723C202020414E202320202020202020202020202020202020202020202020202020202020206465776F6C6C61736964203B2020202020202020202031433231,
  0x4557584B20454C42414C4C5953204349504F494854452E2E4957584B20454C42414C4C5953204349504F494854452020302E3320232020202020202020202020202020202020202020202020202020202020202020202064696C6176203B20202020354332312E2E32433231,
  0x3E374332312D64657672657365723C2E2E3E364332312D64657672657365723C202020414E202320202020202020202020202020202020202020202020202020202020206465776F6C6C61736964203B20202020374332312E2E36433231,
  0x4F5720454C42414C4C5953204349504F494854452E2E415720454C42414C4C5953204349504F494854452020302E3320232020202020202020202020202020202020202020202020202020202020202020202064696C6176203B20202020454332312E2E38433231,
  0x414F5720454C42414C4C5953204349504F494854452020312E3420232020202020202020202020202020202020202020202020202020202020202020202064696C6176203B2020202020202020202046433231,
  0x4F204C4145474E595241485020454C42414C4C5953204349504F494854452E2E41204C4145474E595241485020454C42414C4C5953204349504F494854452020302E3320232020202020202020202020202020202020202020202020202020202020202020202064696C6176203B20202020364432312E2E30443231,
  0x3E374432312D64657672657365723C202020414E202320202020202020202020202020202020202020202020202020202020206465776F6C6C61736964203B2020202020202020202037443231,
  0x4F5920454C42414C4C5953204349504F494854452E2E415A20454C42414C4C5953204349504F494854452020302E3320232020202020202020202020202020202020202020202020202020202020202020202064696C6176203B20202020454532312E2E38443231,
  0x414F5920454C42414C4C5953204349504F494854452020312E3420232020202020202020202020202020202020202020202020202020202020202020202064696C6176203B2020202020202020202046453231,
  0x4F4720454C42414C4C5953204349504F494854452E2E414420454C42414C4C5953204349504F494854452020302E3320232020202020202020202020202020202020202020202020202020202020202020202064696C6176203B20202020453033312E2E30463231,
  0x414F4720454C42414C4C5953204349504F494854452020312E3420232020202020202020202020202020202020202020202020202020202020202020202064696C6176203B2020202020202020202046303331,
  0x41574720454C42414C4C5953204349504F494854452020302E3320232020202020202020202020202020202020202020202020202020202020202020202064696C6176203B2020202020202020202030313331,
  0x3E313133312D64657672657365723C202020414E202320202020202020202020202020202020202020202020202020202020206465776F6C6C61736964203B2020202020202020202031313331,
  0x45574720454C42414C4C5953204349504F494854452E2E49574720454C42414C4C5953204349504F494854452020302E3320232020202020202020202020202020202020202020202020202020202020202020202064696C6176203B20202020353133312E2E32313331,
  0x3E373133312D64657672657365723C2E2E3E363133312D64657672657365723C202020414E202320202020202020202020202020202020202020202020202020202020206465776F6C6C61736964203B20202020373133312E2E36313331,
  0x4F474720454C42414C4C5953204349504F494854452E2E41474720454C42414C4C5953204349504F494854452020302E3320232020202020202020202020202020202020202020202020202020202020202020202064696C6176203B20202020453133312E2E38313331,
  0x414157474720454C42414C4C5953204349504F494854452020312E3420232020202020202020202020202020202020202020202020202020202020202020202064696C6176203B2020202020202020202046313331,
  0x4F5A5420454C42414C4C5953204349504F494854452E2E41485420454C42414C4C5953204349504F494854452020302E3320232020202020202020202020202020202020202020202020202020202020202020202064696C6176203B20202020363433312E2E30323331,
  0x414F5A5420454C42414C4C5953204349504F494854452020312E3420232020202020202020202020202020202020202020202020202020202020202020202064696C6176203B2020202020202020202037343331,
  0x41594620454C42414C4C5953204349504F494854452E2E414620454C42414C4C5953204349504F494854452020302E3320232020202020202020202020202020202020202020202020202020202020202020202064696C6176203B20202020413533312E2E38343331,
  0x3E433533312D64657672657365723C2E2E3E423533312D64657672657365723C202020414E202320202020202020202020202020202020202020202020202020202020206465776F6C6C61736964203B20202020433533312E2E42353331,
  0x4B52414D204854474E454C204C45574F5620474E494E49424D4F43204349504F494854452E2E4B52414D204854474E454C204C45574F5620444E41204E4F4954414E494D454720474E494E49424D4F43204349504F494854452020302E3620232020202020202020202020202020202020202020202020202020202020202020202064696C6176203B20202020453533312E2E44353331,
  0x4B52414D204E4F4954414E494D454720474E494E49424D4F43204349504F494854452020312E3420232020202020202020202020202020202020202020202020202020202020202020202064696C6176203B2020202020202020202046353331,
  0x4B52414D204E4F4954434553204349504F494854452020312E3420232020202038564E203B2020202020203B20202020202020202020202020202020202064696C6176203B2020202020202020202030363331,
  0x444E4153554F4854204E4554205245424D554E204349504F494854452E2E454341505344524F57204349504F494854452020302E3320232020202038564E203B2020202020203B20202020202020202020202020202020202064696C6176203B20202020433733312E2E31363331,
  0x3E463733312D64657672657365723C2E2E3E443733312D64657672657365723C202020414E202320202020202020202020202020202020202020202020202020202020206465776F6C6C61736964203B20202020463733312E2E44373331,
  0x45575020454C42414C4C5953204349504F494854452E2E41574D2054494542544142455320454C42414C4C5953204349504F494854452020312E3420232020202020202020202020202020202020202020202020202020202020202020202064696C6176203B20202020463833312E2E30383331,
  0x5452554B204B52414D204C414E4F54204349504F494854452E2E54455A4959204B52414D204C414E4F54204349504F494854452020312E3420232020202038564E203B2020202020203B20202020202020202020202020202020202064696C6176203B20202020393933312E2E30393331,
  0x3E463933312D64657672657365723C2E2E3E413933312D64657672657365723C202020414E202320202020202020202020202020202020202020202020202020202020206465776F6C6C61736964203B20202020463933312E2E41393331,
  0x56592052455454454C2045454B4F524548432E2E412052455454454C2045454B4F524548432020302E3320232020202020202020202020202020202020202020202020202020202020202020202064696C6176203B20202020344633312E2E30413331,
  0x564D2052455454454C2045454B4F524548432020302E3820232020202020202020202020202020202020202020202020202020202020202020202064696C6176203B2020202020202020202035463331,
  0x3E374633312D64657672657365723C2E2E3E364633312D64657672657365723C202020414E202320202020202020202020202020202020202020202020202020202020206465776F6C6C61736964203B20202020374633312E2E36463331,
  0x45592052455454454C204C4C414D532045454B4F524548432020302E3820232020202020202020202030463331203B202020202020202020202020202020202064657070616D203B2020202020202020202038463331,
  0x49592052455454454C204C4C414D532045454B4F524548432020302E3820232020202020202020202031463331203B202020202020202020202020202020202064657070616D203B2020202020202020202039463331,
  0x4F592052455454454C204C4C414D532045454B4F524548432020302E3820232020202020202020202032463331203B202020202020202020202020202020202064657070616D203B2020202020202020202041463331,
  0x55592052455454454C204C4C414D532045454B4F524548432020302E3820232020202020202020202033463331203B202020202020202020202020202020202064657070616D203B2020202020202020202042463331,
  0x56592052455454454C204C4C414D532045454B4F524548432020302E3820232020202020202020202034463331203B202020202020202020202020202020202064657070616D203B2020202020202020202043463331,
  0x564D2052455454454C204C4C414D532045454B4F524548432020302E3820232020202020202020202035463331203B202020202020202020202020202020202064657070616D203B2020202020202020202044463331,
  0x3E464633312D64657672657365723C2E2E3E454633312D64657672657365723C202020414E202320202020202020202020202020202020202020202020202020202020206465776F6C6C61736964203B20202020464633312E2E45463331,
  0x4E45485059482053434942414C4C5953204E414944414E41432020322E3520232020202038564E203B2020202020203B20202020202020202020202020202020202064696C6176203B2020202020202020202030303431,
  0x4153545420524549525241432053434942414C4C5953204E414944414E41432E2E452053434942414C4C5953204E414944414E41432020302E3320232020202020202020202020202020202020202020202020202020202020202020202064696C6176203B20202020433636312E2E31303431,
  0x504F5453204C4C55462053434942414C4C5953204E414944414E41432E2E4E474953204948432053434942414C4C5953204E414944414E41432020302E3320232020202038564E203B2020202020203B20202020202020202020202020202020202064696C6176203B20202020453636312E2E44363631,
  0x4141474E4E2053434942414C4C5953204E414944414E41432E2E4941512053434942414C4C5953204E414944414E41432020302E3320232020202020202020202020202020202020202020202020202020202020202020202064696C6176203B20202020363736312E2E46363631,
  0x5720544F4F464B43414C422053434942414C4C5953204E414944414E41432E2E454557485420454552432D53444F4F572053434942414C4C5953204E414944414E41432020322E3520232020202020202020202020202020202020202020202020202020202020202020202064696C6176203B20202020463736312E2E37373631,
  0x4B52414D204543415053204D4148474F2020302E33202320202020202020202020202020202020202020202020202020202020206465776F6C6C61736964203B2020202020202020202030383631,
  0x48544945502052455454454C204D4148474F2E2E48544945422052455454454C204D4148474F2020302E3320232020202020202020202020202020202020202020202020202020202020202020202064696C6176203B20202020413936312E2E31383631,
  0x4B52414D2052454854414546204445535245564552204D4148474F2E2E4B52414D2052454854414546204D4148474F2020302E3320232020202038564E203B2020202020203B20202020202020202020202020202020202064696C6176203B20202020433936312E2E42393631,
  0x3E463936312D64657672657365723C2E2E3E443936312D64657672657365723C202020414E202320202020202020202020202020202020202020202020202020202020206465776F6C6C61736964203B20202020463936312E2E44393631,
  0x582052455454454C2043494E55522E2E4620454620484F454620554845462052455454454C2043494E55522020302E3320232020202020202020202020202020202020202020202020202020202020202020202064696C6176203B20202020414536312E2E30413631,
  0x4C4F424D595320524F4854474C45422043494E55522E2E4E4F4954415554434E555020454C474E49532043494E55522020302E3320232020202038564E203B2020202020203B20202020202020202020202020202020202064696C6176203B20202020304636312E2E42453631,
  0x435345412054454B53414320534B4E4152462052455454454C2043494E55522E2E4B2052455454454C2043494E55522020302E3720232020202020202020202020202020202020202020202020202020202020202020202064696C6176203B20202020384636312E2E31463631,
  0x3E464636312D64657672657365723C2E2E3E394636312D64657672657365723C202020414E202320202020202020202020202020202020202020202020202020202020206465776F6C6C61736964203B20202020464636312E2E39463631,
  0x41592052455454454C20474F4C414741542E2E412052455454454C20474F4C414741542020322E3320232020202020202020202020202020202020202020202020202020202020202020202064696C6176203B20202020433037312E2E30303731,
  0x3E443037312D64657672657365723C202020414E202320202020202020202020202020202020202020202020202020202020206465776F6C6C61736964203B2020202020202020202044303731,
  0x414D41524956204E47495320474F4C414741542E2E414C2052455454454C20474F4C414741542020322E3320232020202020202020202020202020202020202020202020202020202020202020202064696C6176203B20202020343137312E2E45303731,
  0x3E463137312D64657672657365723C2E2E3E353137312D64657672657365723C202020414E202320202020202020202020202020202020202020202020202020202020206465776F6C6C61736964203B20202020463137312E2E35313731,
  0x444F5044554D4150204E474953204F4F4E554E41482E2E412052455454454C204F4F4E554E41482020322E3320232020202020202020202020202020202020202020202020202020202020202020202064696C6176203B20202020343337312E2E30323731,
  0x4E4F4954415554434E555020454C42554F4420454E495050494C4948502E2E4E4F4954415554434E555020454C474E495320454E495050494C4948502020322E3320232020202038564E203B2020202020203B20202020202020202020202020202020202064696C6176203B20202020363337312E2E35333731,
  0x3E463337312D64657672657365723C2E2E3E373337312D64657672657365723C202020414E202320202020202020202020202020202020202020202020202020202020206465776F6C6C61736964203B20202020463337312E2E37333731,
  0x55204E474953204C45574F562044494855422E2E412052455454454C2044494855422020322E3320232020202020202020202020202020202020202020202020202020202020202020202064696C6176203B20202020333537312E2E30343731,
  0x3E463537312D64657672657365723C2E2E3E343537312D64657672657365723C202020414E202320202020202020202020202020202020202020202020202020202020206465776F6C6C61736964203B20202020463537312E2E34353731,
  0x41592052455454454C2041574E41424741542E2E412052455454454C2041574E41424741542020322E3320232020202020202020202020202020202020202020202020202020202020202020202064696C6176203B20202020433637312E2E30363731,
  0x3E443637312D64657672657365723C202020414E202320202020202020202020202020202020202020202020202020202020206465776F6C6C61736964203B2020202020202020202044363731,
  0x41532052455454454C2041574E41424741542E2E414C2052455454454C2041574E41424741542020322E3320232020202020202020202020202020202020202020202020202020202020202020202064696C6176203B20202020303737312E2E45363731,
  0x3E313737312D64657672657365723C202020414E202320202020202020202020202020202020202020202020202020202020206465776F6C6C61736964203B2020202020202020202031373731,
  0x55204E474953204C45574F562041574E41424741542E2E49204E474953204C45574F562041574E41424741542020322E3320232020202020202020202020202020202020202020202020202020202020202020202064696C6176203B20202020333737312E2E32373731,
  0x3E463737312D64657672657365723C2E2E3E343737312D64657672657365723C202020414E202320202020202020202020202020202020202020202020202020202020206465776F6C6C61736964203B20202020463737312E2E34373731,
  0x554151204C45574F5620544E45444E455045444E492052454D484B2E2E414B2052455454454C2052454D484B2020302E3320232020202020202020202020202020202020202020202020202020202020202020202064696C6176203B20202020334237312E2E30383731,
  0x414120544E455245484E49204C45574F562052454D484B2E2E514120544E455245484E49204C45574F562052454D484B2020302E33202320202020202020202020202020202020202020202020202020202020206465776F6C6C61736964203B20202020354237312E2E34423731,
  0x544153414D4148544142204E4749532052454D484B2E2E4141204E474953204C45574F562052454D484B2020302E3320232020202020202020202020202020202020202020202020202020202020202020202064696C6176203B20202020334437312E2E36423731,
  0x4855554B204949502043554E4D4143204E4749532052454D484B2E2E4E41484B204E4749532052454D484B2020302E3320232020202038564E203B2020202020203B20202020202020202020202020202020202064696C6176203B20202020364437312E2E34443731,
  0x4F4F54204B454C204E4749532052454D484B2020302E3320232020202020202020202020202020202020202020202020202020202020202020202064696C6176203B2020202020202020202037443731,
  0x4C454952204C4F424D59532059434E45525255432052454D484B2E2E4C4159594542204E4749532052454D484B2020302E3320232020202038564E203B2020202020203B20202020202020202020202020202020202064696C6176203B20202020424437312E2E38443731,
  0x41594E4153414841524B415641204E4749532052454D484B2020302E3320232020202020202020202020202020202020202020202020202020202020202020202064696C6176203B2020202020202020202043443731,
  0x4E41434148545441204E4749532052454D484B2020302E3420232020202020202020202020202020202020202020202020202020202020202020202064696C6176203B2020202020202020202044443731,
  0x3E464437312D64657672657365723C2E2E3E454437312D64657672657365723C202020414E202320202020202020202020202020202020202020202020202020202020206465776F6C6C61736964203B20202020464437312E2E45443731,
  0x454E494E2054494749442052454D484B2E2E4F52455A2054494749442052454D484B2020302E3320232020202020202020202020202020202020202020202020202020202020202020202064696C6176203B20202020394537312E2E30453731,
  0x3E464537312D64657672657365723C2E2E3E414537312D64657672657365723C202020414E202320202020202020202020202020202020202020202020202020202020206465776F6C6C61736964203B20202020464537312E2E41453731,
  0x4E4F55422D4D415250204B41545441204B454C204C4F424D59532052454D484B2E2E4E4F53204B41545441204B454C204C4F424D59532052454D484B2020302E3420232020202038564E203B2020202020203B20202020202020202020202020202020202064696C6176203B20202020394637312E2E30463731,
  0x3E464637312D64657672657365723C2E2E3E414637312D64657672657365723C202020414E202320202020202020202020202020202020202020202020202020202020206465776F6C6C61736964203B20202020464637312E2E41463731,
  0x53544F442052554F46204E41494C4F474E4F4D2E2E4147524942204E41494C4F474E4F4D2020302E3320232020202038564E203B2020202020203B20202020202020202020202020202020202064696C6176203B20202020353038312E2E30303831,
  0x4E45485059482054464F53204F444F54204E41494C4F474E4F4D2020302E33202320202020202020202020202020202020202020202020202020202020206465776F6C6C61736964203B2020202020202020202036303831,
  0x55475552494E204E41494C4F474E4F4D2E2E52454B52414D20595241444E554F4220454C42414C4C59532045424953204E41494C4F474E4F4D2020302E3320232020202038564E203B2020202020203B20202020202020202020202020202020202064696C6176203B20202020413038312E2E37303831,
  0x454552485420524F5443454C4553204E4F495441495241562045455246204E41494C4F474E4F4D2E2E454E4F20524F5443454C4553204E4F495441495241562045455246204E41494C4F474E4F4D2020302E33202320202020202020202020202020202020202020202020202020202020202020206465726F6E6769203B20202020443038312E2E42303831,
  0x524F54415241504553204C45574F56204E41494C4F474E4F4D2020302E33202320202020202020202020202020202020202020202020202020202020206465776F6C6C61736964203B2020202020202020202045303831,
  0x3E463038312D64657672657365723C202020414E202320202020202020202020202020202020202020202020202020202020206465776F6C6C61736964203B2020202020202020202046303831,
  0x454E494E205449474944204E41494C4F474E4F4D2E2E4F52455A205449474944204E41494C4F474E4F4D2020302E3320232020202020202020202020202020202020202020202020202020202020202020202064696C6176203B20202020393138312E2E30313831,
  0x3E463138312D64657672657365723C2E2E3E413138312D64657672657365723C202020414E202320202020202020202020202020202020202020202020202020202020206465776F6C6C61736964203B20202020463138312E2E41313831,
  0x41485A205548434E414D2052455454454C204E41494C4F474E4F4D2E2E412052455454454C204E41494C4F474E4F4D2020302E3320232020202020202020202020202020202020202020202020202020202020202020202064696C6176203B20202020373738312E2E30323831,
  0x53544F44204F57542048544957204148432052455454454C204E41494C4F474E4F4D20302E313120232020202020202020202020202020202020202020202020202020202020202020202064696C6176203B2020202020202020202038373831,
  0x3E463738312D64657672657365723C2E2E3E393738312D64657672657365723C202020414E202320202020202020202020202020202020202020202020202020202020206465776F6C6C61736964203B20202020463738312E2E39373831,
  0x41474C4147414420494C414720494C412052455454454C204E41494C4F474E4F4D2E2E454E4F204152415653554E4120494C414720494C412052455454454C204E41494C4F474E4F4D2020302E3320232020202020202020202020202020202020202020202020202020202020202020202064696C6176203B20202020394138312E2E30383831,
  0x41484C20494C414720494C41205548434E414D2052455454454C204E41494C4F474E4F4D2020312E3520232020202020202020202020202020202020202020202020202020202020202020202064696C6176203B2020202020202020202041413831,
  0x3E464138312D64657672657365723C2E2E3E424138312D64657672657365723C202020414E202320202020202020202020202020202020202020202020202020202020206465776F6C6C61736964203B20202020464138312E2E42413831,
  0x53204C41544E454420524549525241432053434942414C4C5953204E414944414E41432E2E594F2053434942414C4C5953204E414944414E41432020322E3520232020202020202020202020202020202020202020202020202020202020202020202064696C6176203B20202020354638312E2E30423831,
  0x3E464638312D64657672657365723C2E2E3E364638312D64657672657365723C202020414E202320202020202020202020202020202020202020202020202020202020206465776F6C6C61736964203B20202020464638312E2E36463831,
  0x41482052455454454C2055424D494C2E2E52455454454C20524549525241432D4C45574F562055424D494C2020302E3420232020202020202020202020202020202020202020202020202020202020202020202064696C6176203B20202020433139312E2E30303931,
  0x4152542052455454454C2055424D494C2E2E4E4159472052455454454C2055424D494C2020302E3720232020202020202020202020202020202020202020202020202020202020202020202064696C6176203B20202020453139312E2E44313931,
  0x3E463139312D64657672657365723C202020414E202320202020202020202020202020202020202020202020202020202020206465776F6C6C61736964203B2020202020202020202046313931,
  0x41572052455454454C2044454E494F4A4255532055424D494C2E2E41204E474953204C45574F562055424D494C2020302E3420232020202020202020202020202020202020202020202020202020202020202020202064696C6176203B20202020423239312E2E30323931,
  0x3E463239312D64657672657365723C2E2E3E433239312D64657672657365723C202020414E202320202020202020202020202020202020202020202020202020202020206465776F6C6C61736964203B20202020463239312E2E43323931,
  0x492D4153204E4749532055424D494C2E2E414B2052455454454C204C4C414D532055424D494C2020302E3420232020202020202020202020202020202020202020202020202020202020202020202064696C6176203B20202020423339312E2E30333931,
  0x3E463339312D64657672657365723C2E2E3E433339312D64657672657365723C202020414E202320202020202020202020202020202020202020202020202020202020206465776F6C6C61736964203B20202020463339312E2E43333931,
  0x4F4F4C204E4749532055424D494C2020302E3420232020202038564E203B2020202020203B20202020202020202020202020202020202064696C6176203B2020202020202020202030343931,
  0x3E333439312D64657672657365723C2E2E3E313439312D64657672657365723C202020414E202320202020202020202020202020202020202020202020202020202020206465776F6C6C61736964203B20202020333439312E2E31343931,
  0x4B52414D204E4F4954534555512055424D494C2E2E4B52414D204E4F4954414D414C4358452055424D494C2020302E3420232020202038564E203B2020202020203B20202020202020202020202020202020202064696C6176203B20202020353439312E2E34343931,
  0x49412052455454454C20454C204941542E2E4F52455A2054494749442055424D494C2020302E3420232020202020202020202020202020202020202020202020202020202020202020202064696C6176203B20202020443639312E2E36343931,
  0x3E463639312D64657672657365723C2E2E3E453639312D64657672657365723C202020414E202320202020202020202020202020202020202020202020202020202020206465776F6C6C61736964203B20202020463639312E2E45363931,
  0x362D454E4F542052455454454C20454C204941542E2E322D454E4F542052455454454C20454C204941542020302E3420232020202020202020202020202020202020202020202020202020202020202020202064696C6176203B20202020343739312E2E30373931,
  0x3E463739312D64657672657365723C2E2E3E353739312D64657672657365723C202020414E202320202020202020202020202020202020202020202020202020202020206465776F6C6C61736964203B20202020463739312E2E35373931,
  0x41565820574F4C2052455454454C2045554C204941542057454E2E2E415120484749482052455454454C2045554C204941542057454E2020312E3420232020202020202020202020202020202020202020202020202020202020202020202064696C6176203B20202020394139312E2E30383931,
  0x41555320574F4C2052455454454C2045554C204941542057454E2E2E41555320484749482052455454454C2045554C204941542057454E2020322E3520232020202020202020202020202020202020202020202020202020202020202020202064696C6176203B20202020424139312E2E41413931,
  0x3E464139312D64657672657365723C2E2E3E434139312D64657672657365723C202020414E202320202020202020202020202020202020202020202020202020202020206465776F6C6C61736964203B20202020464139312E2E43413931,
  0x322D4B52414D20454E4F542045554C204941542057454E2E2E52454E4554524F4853204C45574F56204E474953204C45574F562045554C204941542057454E2020312E3420232020202020202020202020202020202020202020202020202020202020202020202064696C6176203B20202020394339312E2E30423931,
  0x3E464339312D64657672657365723C2E2E3E414339312D64657672657365723C202020414E202320202020202020202020202020202020202020202020202020202020206465776F6C6C61736964203B20202020464339312E2E41433931,
  0x454E494E2054494749442045554C204941542057454E2E2E4F52455A2054494749442045554C204941542057454E2020312E3420232020202020202020202020202020202020202020202020202020202020202020202064696C6176203B20202020394439312E2E30443931,
  0x454E4F205449474944204D4148542045554C204941542057454E2020322E35202320202020385658203B2020202020203B20202020202020202020202020202020202064696C6176203B2020202020202020202041443931,
  0x3E444439312D64657672657365723C2E2E3E424439312D64657672657365723C202020414E202320202020202020202020202020202020202020202020202020202020206465776F6C6C61736964203B20202020444439312E2E42443931,
  0x5645414C204E4749532045554C204941542057454E2E2E45414C204E4749532045554C204941542057454E2020312E3420232020202038564E203B2020202020203B20202020202020202020202020202020202064696C6176203B20202020464439312E2E45443931,
  0x434F52204D4152502D504144204C4F424D59532052454D484B2E2E544153414D4148544150204C4F424D59532052454D484B2020302E3420232020202038564E203B2020202020203B20202020202020202020202020202020202064696C6176203B20202020464639312E2E30453931,
  0x4541204E474953204C45574F56204553454E494755422E2E414B2052455454454C204553454E494755422020312E3420232020202020202020202020202020202020202020202020202020202020202020202064696C6176203B20202020423141312E2E30304131,
  0x3E443141312D64657672657365723C2E2E3E433141312D64657672657365723C202020414E202320202020202020202020202020202020202020202020202020202020206465776F6C6C61736964203B20202020443141312E2E43314131,
  0x4E4F495443455320464F20444E45204553454E494755422E2E4157414C4C4150204553454E494755422020312E3420232020202038564E203B2020202020203B20202020202020202020202020202020202064696C6176203B20202020463141312E2E45314131,
  0x4153204E47495320544E414E4F534E4F43204D414854204941542E2E414B20484749482052455454454C204D414854204941542020322E3520232020202020202020202020202020202020202020202020202020202020202020202064696C6176203B20202020453541312E2E30324131,
  0x3E463541312D64657672657365723C202020414E202320202020202020202020202020202020202020202020202020202020206465776F6C6C61736964203B2020202020202020202046354131,
  0x4E4152414B2045554C2D4E4555484B204E474953204D414854204941542E2E544F4B4153204E474953204D414854204941542020322E3520232020202020202020202020202020202020202020202020202020202020202020202064696C6176203B20202020433741312E2E30364131,
  0x3E453741312D64657672657365723C2E2E3E443741312D64657672657365723C202020414E202320202020202020202020202020202020202020202020202020202020206465776F6C6C61736964203B20202020453741312E2E44374131,
  0x454E494E2054494749442041524F48204D414854204941542E2E544F442043494D4D4152474F545059524320474E494E49424D4F43204D414854204941542020322E3520232020202020202020202020202020202020202020202020202020202020202020202064696C6176203B20202020393841312E2E46374131,
  0x3E463841312D64657672657365723C2E2E3E413841312D64657672657365723C202020414E202320202020202020202020202020202020202020202020202020202020206465776F6C6C61736964203B20202020463841312E2E41384131,
  0x454E494E205449474944204D414854204D414854204941542E2E4F52455A205449474944204D414854204D414854204941542020322E3520232020202020202020202020202020202020202020202020202020202020202020202064696C6176203B20202020393941312E2E30394131,
  0x3E463941312D64657672657365723C2E2E3E413941312D64657672657365723C202020414E202320202020202020202020202020202020202020202020202020202020206465776F6C6C61736964203B20202020463941312E2E41394131,
  0x414E41522044455441544F52204445535245564552204E474953204D414854204941542E2E474E414957204E474953204D414854204941542020322E3520232020202038564E203B2020202020203B20202020202020202020202020202020202064696C6176203B20202020364141312E2E30414131,
  0x4B4F4D41592049414D204E474953204D414854204941542020322E3520232020202020202020202020202020202020202020202020202020202020202020202064696C6176203B2020202020202020202037414131,
  0x474E414143204E474953204D414854204941542E2E4E41414B204E474953204D414854204941542020322E3520232020202038564E203B2020202020203B20202020202020202020202020202020202064696C6176203B20202020444141312E2E38414131,
  0x3E464141312D64657672657365723C2E2E3E454141312D64657672657365723C202020414E202320202020202020202020202020202020202020202020202020202020206465776F6C6C61736964203B20202020464141312E2E45414131,
  0x574F4C4542205345534548544E4552415020474E494E49424D4F432E2E544E454343412058454C464D55435249432044454C42554F4420474E494E49424D4F432020302E3720232020202020202020202020202020202020202020202020202020202020202020202064696C6176203B20202020444241312E2E30424131,
  0x59414C5245564F205345534548544E4552415020474E494E49424D4F432020302E3720232020202038564E203B2020202020203B20202020202020202020202020202020202064696C6176203B2020202020202020202045424131,
  0x574F4C454220572044454E5255542052455454454C204C4C414D53204E4954414C20474E494E49424D4F432E2E574F4C454220572052455454454C204C4C414D53204E4954414C20474E494E49424D4F4320302E333120232020202020202020202020202020202020202020202020202020202020202020202064696C6176203B20202020304341312E2E46424131,
  0x3E464641312D64657672657365723C2E2E3E314341312D64657672657365723C202020414E202320202020202020202020202020202020202020202020202020202020206465776F6C6C61736964203B20202020464641312E2E31434131,
  0x4B41534153204152555953412052455454454C204553454E494C41422E2E4D4543495220554C55204E474953204553454E494C41422020302E3520232020202020202020202020202020202020202020202020202020202020202020202064696C6176203B20202020423442312E2E30304231,
  0x3E463442312D64657672657365723C2E2E3E433442312D64657672657365723C202020414E202320202020202020202020202020202020202020202020202020202020206465776F6C6C61736964203B20202020463442312E2E43344231,
  0x454E494E205449474944204553454E494C41422E2E4F52455A205449474944204553454E494C41422020302E3520232020202020202020202020202020202020202020202020202020202020202020202064696C6176203B20202020393542312E2E30354231,
  0x4544454720474E4144204C4F424D5953204C41434953554D204553454E494C41422E2E49544E4150204553454E494C41422020302E3520232020202038564E203B2020202020203B20202020202020202020202020202020202064696C6176203B20202020413642312E2E41354231,
  0x474E4F4720474E494E49424D4F43204C4F424D5953204C41434953554D204553454E494C41422E2E484547455420474E494E49424D4F43204C4F424D5953204C41434953554D204553454E494C41422020302E3520232020202020202020202020202020202020202020202020202020202020202020202064696C6176203B20202020333742312E2E42364231,
  0x474E4950204E45504F20444E41482D5446454C204C4F424D5953204C41434953554D204553454E494C41422E2E475544204E45504F20444E41482D5448474952204C4F424D5953204C41434953554D204553454E494C41422020302E3520232020202038564E203B2020202020203B20202020202020202020202020202020202064696C6176203B20202020433742312E2E34374231,
  0x3E463742312D64657672657365723C2E2E3E443742312D64657672657365723C202020414E202320202020202020202020202020202020202020202020202020202020206465776F6C6C61736964203B20202020463742312E2E44374231,
  0x484541414D4150204E474953204553454E41444E55532E2E4B454345594E4150204E474953204553454E41444E55532020312E3520232020202020202020202020202020202020202020202020202020202020202020202064696C6176203B20202020414142312E2E30384231,
  0x4157204E41474E41534150204E47495320544E414E4F534E4F43204553454E41444E55532E2E414D41524956204E474953204553454E41444E55532020312E3620232020202020202020202020202020202020202020202020202020202020202020202064696C6176203B20202020444142312E2E42414231,
  0x454E494E205449474944204553454E41444E55532E2E41484B2052455454454C204553454E41444E55532020312E3520232020202020202020202020202020202020202020202020202020202020202020202064696C6176203B20202020394242312E2E45414231,
  0x4D204C414E49462052455454454C204553454E41444E55532E2E4148415247415641204553454E41444E55532020312E3620232020202020202020202020202020202020202020202020202020202020202020202064696C6176203B20202020464242312E2E41424231,
  0x4E414E4F474E4F4E4150204B415441422E2E412052455454454C204B415441422020302E3620232020202020202020202020202020202020202020202020202020202020202020202064696C6176203B20202020334642312E2E30434231,
  0x3E424642312D64657672657365723C2E2E3E344642312D64657672657365723C202020414E202320202020202020202020202020202020202020202020202020202020206465776F6C6C61736964203B20202020424642312E2E34464231,
  0x54414C4F474E41502055444E4942204C4F424D5953204B415441422E2E4B4554454D20414E2055444E4942204C4F424D5953204B415441422020302E3620232020202038564E203B2020202020203B20202020202020202020202020202020202064696C6176203B20202020464642312E2E43464231,
  0x41544B554E204E4749532041484350454C2E2E414B2052455454454C2041484350454C2020312E3520232020202020202020202020202020202020202020202020202020202020202020202064696C6176203B20202020373343312E2E30304331,
  0x3E413343312D64657672657365723C2E2E3E383343312D64657672657365723C202020414E202320202020202020202020202020202020202020202020202020202020206465776F6C6C61736964203B20202020413343312E2E38334331,
  0x4B4F4F485354204E4F4954415554434E55502041484350454C2E2E4C4F522D4154204E4F4954415554434E55502041484350454C2020312E3520232020202038564E203B2020202020203B20202020202020202020202020202020202064696C6176203B20202020463343312E2E42334331,
  0x454E494E2054494749442041484350454C2E2E4F52455A2054494749442041484350454C2020312E3520232020202020202020202020202020202020202020202020202020202020202020202064696C6176203B20202020393443312E2E30344331,
  0x3E433443312D64657672657365723C2E2E3E413443312D64657672657365723C202020414E202320202020202020202020202020202020202020202020202020202020206465776F6C6C61736964203B20202020433443312E2E41344331,
  0x4441484120494B494843204C4F2E2E4154542052455454454C2041484350454C2020312E3520232020202020202020202020202020202020202020202020202020202020202020202064696C6176203B20202020443743312E2E44344331,
  0x44414143554D20454C42554F44204E4F4954415554434E555020494B494843204C4F2E2E44414143554D204E4F4954415554434E555020494B494843204C4F2020312E3520232020202038564E203B2020202020203B20202020202020202020202020202020202064696C6176203B20202020463743312E2E45374331,
  0x4556204445444E554F522052455454454C204C4C414D532043494C4C495259432020302E3920232020202020202020202032333430203B202020202020202020202020202020202064657070616D203B2020202020202020202030384331,
  0x45442044454747454C2D474E4F4C2052455454454C204C4C414D532043494C4C495259432020302E3920232020202020202020202034333430203B202020202020202020202020202020202064657070616D203B2020202020202020202031384331,
  0x4F20574F5252414E2052455454454C204C4C414D532043494C4C495259432020302E3920232020202020202020202045333430203B202020202020202020202020202020202064657070616D203B2020202020202020202032384331,
  0x534520454449572052455454454C204C4C414D532043494C4C495259432020302E3920232020202020202020202031343430203B202020202020202020202020202020202064657070616D203B2020202020202020202033384331,
  0x45542044454747454C2D45455248542052455454454C204C4C414D532043494C4C495259432E2E4554204C4C41542052455454454C204C4C414D532043494C4C495259432020302E3920232020202020202020202032343430203B202020202020202020202020202020202064657070616D203B20202020353843312E2E34384331,
  0x4E4749532044524148204C4C41542052455454454C204C4C414D532043494C4C495259432020302E3920232020202020202020202041343430203B202020202020202020202020202020202064657070616D203B2020202020202020202036384331,
  0x544159204C4C41542052455454454C204C4C414D532043494C4C495259432020302E3920232020202020202020202033363430203B202020202020202020202020202020202064657070616D203B2020202020202020202037384331,
  0x4B55204445444E454C424E552052455454454C204C4C414D532043494C4C495259432020302E3920232020202020202020202042343641203B202020202020202020202020202020202064657070616D203B2020202020202020202038384331,
  0x3E463843312D64657672657365723C2E2E3E393843312D64657672657365723C202020414E202320202020202020202020202020202020202020202020202020202020206465776F6C6C61736964203B20202020463843312E2E39384331,
  0x4E412052455454454C204C41544950414320494C55525641544D204E414947524F454720302E313120232020202020202020202030443031203B202020202020202020202020202020202064657070616D203B2020202020202020202030394331,
  0x4E41422052455454454C204C41544950414320494C55525641544D204E414947524F454720302E313120232020202020202020202031443031203B202020202020202020202020202020202064657070616D203B2020202020202020202031394331,
  0x4E41472052455454454C204C41544950414320494C55525641544D204E414947524F454720302E313120232020202020202020202032443031203B202020202020202020202020202020202064657070616D203B2020202020202020202032394331,
  0x4E4F442052455454454C204C41544950414320494C55525641544D204E414947524F454720302E313120232020202020202020202033443031203B202020202020202020202020202020202064657070616D203B2020202020202020202033394331,
  0x4E452052455454454C204C41544950414320494C55525641544D204E414947524F454720302E313120232020202020202020202034443031203B202020202020202020202020202020202064657070616D203B2020202020202020202034394331,
  0x4E49562052455454454C204C41544950414320494C55525641544D204E414947524F454720302E313120232020202020202020202035443031203B202020202020202020202020202020202064657070616D203B2020202020202020202035394331,
  0x4E455A2052455454454C204C41544950414320494C55525641544D204E414947524F454720302E313120232020202020202020202036443031203B202020202020202020202020202020202064657070616D203B2020202020202020202036394331,
  0x4E41542052455454454C204C41544950414320494C55525641544D204E414947524F454720302E313120232020202020202020202037443031203B202020202020202020202020202020202064657070616D203B2020202020202020202037394331,
  0x4E492052455454454C204C41544950414320494C55525641544D204E414947524F454720302E313120232020202020202020202038443031203B202020202020202020202020202020202064657070616D203B2020202020202020202038394331,
  0x4E414B2052455454454C204C41544950414320494C55525641544D204E414947524F454720302E313120232020202020202020202039443031203B202020202020202020202020202020202064657070616D203B2020202020202020202039394331,
  0x53414C2052455454454C204C41544950414320494C55525641544D204E414947524F454720302E313120232020202020202020202041443031203B202020202020202020202020202020202064657070616D203B2020202020202020202041394331,
  0x4E414D2052455454454C204C41544950414320494C55525641544D204E414947524F454720302E313120232020202020202020202042443031203B202020202020202020202020202020202064657070616D203B2020202020202020202042394331,
  0x52414E2052455454454C204C41544950414320494C55525641544D204E414947524F454720302E313120232020202020202020202043443031203B202020202020202020202020202020202064657070616D203B2020202020202020202043394331,
  0x4E4F2052455454454C204C41544950414320494C55525641544D204E414947524F454720302E313120232020202020202020202044443031203B202020202020202020202020202020202064657070616D203B2020202020202020202044394331,
  0x5241502052455454454C204C41544950414320494C55525641544D204E414947524F454720302E313120232020202020202020202045443031203B202020202020202020202020202020202064657070616D203B2020202020202020202045394331,
  0x5241485A2052455454454C204C41544950414320494C55525641544D204E414947524F454720302E313120232020202020202020202046443031203B202020202020202020202020202020202064657070616D203B2020202020202020202046394331,
  0x4541522052455454454C204C41544950414320494C55525641544D204E414947524F454720302E313120232020202020202020202030453031203B202020202020202020202020202020202064657070616D203B2020202020202020202030414331,
  0x4E41532052455454454C204C41544950414320494C55525641544D204E414947524F454720302E313120232020202020202020202031453031203B202020202020202020202020202020202064657070616D203B2020202020202020202031414331,
  0x5241542052455454454C204C41544950414320494C55525641544D204E414947524F454720302E313120232020202020202020202032453031203B202020202020202020202020202020202064657070616D203B2020202020202020202032414331,
  0x4E552052455454454C204C41544950414320494C55525641544D204E414947524F454720302E313120232020202020202020202033453031203B202020202020202020202020202020202064657070616D203B2020202020202020202033414331,
  0x524148502052455454454C204C41544950414320494C55525641544D204E414947524F454720302E313120232020202020202020202034453031203B202020202020202020202020202020202064657070616D203B2020202020202020202034414331,
  0x5241484B2052455454454C204C41544950414320494C55525641544D204E414947524F454720302E313120232020202020202020202035453031203B202020202020202020202020202020202064657070616D203B2020202020202020202035414331,
  0x4E4148472052455454454C204C41544950414320494C55525641544D204E414947524F454720302E313120232020202020202020202036453031203B202020202020202020202020202020202064657070616D203B2020202020202020202036414331,
  0x5241512052455454454C204C41544950414320494C55525641544D204E414947524F454720302E313120232020202020202020202037453031203B202020202020202020202020202020202064657070616D203B2020202020202020202037414331,
  0x4E4948532052455454454C204C41544950414320494C55525641544D204E414947524F454720302E313120232020202020202020202038453031203B202020202020202020202020202020202064657070616D203B2020202020202020202038414331,
  0x4E4948432052455454454C204C41544950414320494C55525641544D204E414947524F454720302E313120232020202020202020202039453031203B202020202020202020202020202020202064657070616D203B2020202020202020202039414331,
  0x4E41432052455454454C204C41544950414320494C55525641544D204E414947524F454720302E313120232020202020202020202041453031203B202020202020202020202020202020202064657070616D203B2020202020202020202041414331,
  0x4C494A2052455454454C204C41544950414320494C55525641544D204E414947524F454720302E313120232020202020202020202042453031203B202020202020202020202020202020202064657070616D203B2020202020202020202042414331,
  0x4C49432052455454454C204C41544950414320494C55525641544D204E414947524F454720302E313120232020202020202020202043453031203B202020202020202020202020202020202064657070616D203B2020202020202020202043414331,
  0x524148432052455454454C204C41544950414320494C55525641544D204E414947524F454720302E313120232020202020202020202044453031203B202020202020202020202020202020202064657070616D203B2020202020202020202044414331,
  0x4E41582052455454454C204C41544950414320494C55525641544D204E414947524F454720302E313120232020202020202020202045453031203B202020202020202020202020202020202064657070616D203B2020202020202020202045414331,
  0x4E41484A2052455454454C204C41544950414320494C55525641544D204E414947524F454720302E313120232020202020202020202046453031203B202020202020202020202020202020202064657070616D203B2020202020202020202046414331,
  0x4541482052455454454C204C41544950414320494C55525641544D204E414947524F454720302E313120232020202020202020202030463031203B202020202020202020202020202020202064657070616D203B2020202020202020202030424331,
  0x45482052455454454C204C41544950414320494C55525641544D204E414947524F454720302E313120232020202020202020202031463031203B202020202020202020202020202020202064657070616D203B2020202020202020202031424331,
  0x4549482052455454454C204C41544950414320494C55525641544D204E414947524F454720302E313120232020202020202020202032463031203B202020202020202020202020202020202064657070616D203B2020202020202020202032424331,
  0x45572052455454454C204C41544950414320494C55525641544D204E414947524F454720302E313120232020202020202020202033463031203B202020202020202020202020202020202064657070616D203B2020202020202020202033424331,
  0x5241482052455454454C204C41544950414320494C55525641544D204E414947524F454720302E313120232020202020202020202034463031203B202020202020202020202020202020202064657070616D203B2020202020202020202034424331,
  0x454F482052455454454C204C41544950414320494C55525641544D204E414947524F454720302E313120232020202020202020202035463031203B202020202020202020202020202020202064657070616D203B2020202020202020202035424331,
  0x49462052455454454C204C41544950414320494C55525641544D204E414947524F454720302E313120232020202020202020202036463031203B202020202020202020202020202020202064657070616D203B2020202020202020202036424331,
  0x4E592052455454454C204C41544950414320494C55525641544D204E414947524F454720302E313120232020202020202020202037463031203B202020202020202020202020202020202064657070616D203B2020202020202020202037424331,
  0x4946494C452052455454454C204C41544950414320494C55525641544D204E414947524F454720302E313120232020202020202020202038463031203B202020202020202020202020202020202064657070616D203B2020202020202020202038424331,
  0x4E41472044454E5255542052455454454C204C41544950414320494C55525641544D204E414947524F454720302E313120232020202020202020202039463031203B202020202020202020202020202020202064657070616D203B2020202020202020202039424331,
  0x4E49412052455454454C204C41544950414320494C55525641544D204E414947524F454720302E313120232020202020202020202041463031203B202020202020202020202020202020202064657070616D203B2020202020202020202041424331,
  0x3E434243312D64657672657365723C2E2E3E424243312D64657672657365723C202020414E202320202020202020202020202020202020202020202020202020202020206465776F6C6C61736964203B20202020434243312E2E42424331,
  0x4E45412052455454454C204C41544950414320494C55525641544D204E414947524F454720302E313120232020202020202020202044463031203B202020202020202020202020202020202064657070616D203B2020202020202020202044424331,
  0x4E47495320445241482052455454454C204C41544950414320494C55525641544D204E414947524F454720302E313120232020202020202020202045463031203B202020202020202020202020202020202064657070616D203B2020202020202020202045424331,
  0x4E474953204C414942414C2052455454454C204C41544950414320494C55525641544D204E414947524F454720302E313120232020202020202020202046463031203B202020202020202020202020202020202064657070616D203B2020202020202020202046424331,
  0x41474E415441532041422055444E4942204E4F4954415554434E5550204553454E41444E55532E2E41595255532055444E4942204E4F4954415554434E5550204553454E41444E55532020312E3620232020202038564E203B2020202020203B20202020202020202020202020202020202064696C6176203B20202020374343312E2E30434331,
  0x3E464343312D64657672657365723C2E2E3E384343312D64657672657365723C202020414E202320202020202020202020202020202020202020202020202020202020206465776F6C6C61736964203B20202020464343312E2E38434331,
  0x41484B4E45525020454E4F542043494445562E2E414E41485352414B20454E4F542043494445562020322E3520232020202020202020202020202020202020202020202020202020202020202020202064696C6176203B20202020324443312E2E30444331,
  0x41534156485348494E204E4749532043494445562020322E3520232020202038564E203B2020202020203B20202020202020202020202020202020202064696C6176203B2020202020202020202033444331,
  0x414752415349564148445241204E4749532043494445562E2E4154495241565320454E494C44494D20434944455652554A4159204E4749532043494445562020322E3520232020202020202020202020202020202020202020202020202020202020202020202064696C6176203B20202020324643312E2E34444331,
  0x4159494E414D4844415055204E4749532043494445562E2E4147524153495641484452412044455441544F52204E4749532043494445562020312E3620232020202020202020202020202020202020202020202020202020202020202020202064696C6176203B20202020364643312E2E33464331,
  0x414D41524B495441204E47495320434944455620302E303120232020202020202020202020202020202020202020202020202020202020202020202064696C6176203B2020202020202020202037464331,
  0x45564F424120474E495220454C42554F4420454E4F542043494445562E2E45564F424120474E495220454E4F542043494445562020302E3720232020202020202020202020202020202020202020202020202020202020202020202064696C6176203B20202020394643312E2E38464331]

def mapText7 : List Nat := [
  0x41484B554D4F475241544E41204152415653554E4120454C42554F44204E47495320434944455620302E323120232020202020202020202020202020202020202020202020202020202020202020202064696C6176203B2020202020202020202041464331,
  0x3E464643312D64657672657365723C2E2E3E424643312D64657672657365723C202020414E202320202020202020202020202020202020202020202020202020202020206465776F6C6C61736964203B20202020464643312E2E42464331,
  0x4C45204C415449504143204C4C414D532052455454454C2043494C4C495259432E2E41204C415449504143204C4C414D532052455454454C204E4954414C2020302E3420232020202020202020202020202020202020202020202020202020202020202020202064696C6176203B20202020423244312E2E30304431,
  0x41204C4154495041432052455454454C205245494649444F4D2020302E3420232020202020202020202031363030203B202020202020202020202020202020202064657070616D203B2020202020202020202043324431,
  0x4541204C4154495041432052455454454C205245494649444F4D2020302E3420232020202020202020202036453030203B202020202020202020202020202020202064657070616D203B2020202020202020202044324431,
  0x42204C4154495041432052455454454C205245494649444F4D2020302E3420232020202020202020202032363030203B202020202020202020202020202020202064657070616D203B2020202020202020202045324431,
  0x4220444552524142204C4154495041432052455454454C205245494649444F4D2020302E3420232020202020202020202020202020202020202020202020202020202020202020202064696C6176203B2020202020202020202046324431,
  0x44204C4154495041432052455454454C205245494649444F4D2020302E3420232020202020202020202034363030203B202020202020202020202020202020202064657070616D203B2020202020202020202030334431,
  0x45204C4154495041432052455454454C205245494649444F4D2020302E3420232020202020202020202035363030203B202020202020202020202020202020202064657070616D203B2020202020202020202031334431,
  0x45204445535245564552204C4154495041432052455454454C205245494649444F4D2020302E3420232020202020202020202044443130203B202020202020202020202020202020202064657070616D203B2020202020202020202032334431,
  0x47204C4154495041432052455454454C205245494649444F4D2020302E3420232020202020202020202037363030203B202020202020202020202020202020202064657070616D203B2020202020202020202033334431,
  0x48204C4154495041432052455454454C205245494649444F4D2020302E3420232020202020202020202038363030203B202020202020202020202020202020202064657070616D203B2020202020202020202034334431,
  0x49204C4154495041432052455454454C205245494649444F4D2020302E3420232020202020202020202039363030203B202020202020202020202020202020202064657070616D203B2020202020202020202035334431,
  0x4A204C4154495041432052455454454C205245494649444F4D2020302E3420232020202020202020202041363030203B202020202020202020202020202020202064657070616D203B2020202020202020202036334431,
  0x4B204C4154495041432052455454454C205245494649444F4D2020302E3420232020202020202020202042363030203B202020202020202020202020202020202064657070616D203B2020202020202020202037334431,
  0x4C204C4154495041432052455454454C205245494649444F4D2020302E3420232020202020202020202043363030203B202020202020202020202020202020202064657070616D203B2020202020202020202038334431,
  0x4D204C4154495041432052455454454C205245494649444F4D2020302E3420232020202020202020202044363030203B202020202020202020202020202020202064657070616D203B2020202020202020202039334431,
  0x4E204C4154495041432052455454454C205245494649444F4D2020302E3420232020202020202020202045363030203B202020202020202020202020202020202064657070616D203B2020202020202020202041334431,
  0x4E204445535245564552204C4154495041432052455454454C205245494649444F4D2020302E3420232020202020202020202020202020202020202020202020202020202020202020202064696C6176203B2020202020202020202042334431,
  0x4F204C4154495041432052455454454C205245494649444F4D2020302E3420232020202020202020202046363030203B202020202020202020202020202020202064657070616D203B2020202020202020202043334431,
  0x554F204C4154495041432052455454454C205245494649444F4D2020302E3420232020202020202020202033323230203B202020202020202020202020202020202064657070616D203B2020202020202020202044334431,
  0x50204C4154495041432052455454454C205245494649444F4D2020302E3420232020202020202020202030373030203B202020202020202020202020202020202064657070616D203B2020202020202020202045334431,
  0x52204C4154495041432052455454454C205245494649444F4D2020302E3420232020202020202020202032373030203B202020202020202020202020202020202064657070616D203B2020202020202020202046334431,
  0x54204C4154495041432052455454454C205245494649444F4D2020302E3420232020202020202020202034373030203B202020202020202020202020202020202064657070616D203B2020202020202020202030344431,
  0x55204C4154495041432052455454454C205245494649444F4D2020302E3420232020202020202020202035373030203B202020202020202020202020202020202064657070616D203B2020202020202020202031344431,
  0x57204C4154495041432052455454454C205245494649444F4D2020302E3420232020202020202020202037373030203B202020202020202020202020202020202064657070616D203B2020202020202020202032344431,
  0x41204C4C414D532052455454454C205245494649444F4D2020302E3420232020202020202020202031363030203B202020202020202020202020202020202064657070616D203B2020202020202020202033344431,
  0x412044454E525554204C4C414D532052455454454C205245494649444F4D2020302E3420232020202020202020202030353230203B202020202020202020202020202020202064657070616D203B2020202020202020202034344431,
  0x4148504C41204C4C414D532052455454454C205245494649444F4D2020302E3420232020202020202020202031353230203B202020202020202020202020202020202064657070616D203B2020202020202020202035344431,
  0x45412044454E525554204C4C414D532052455454454C205245494649444F4D2020302E3420232020202020202020202032304431203B202020202020202020202020202020202064657070616D203B2020202020202020202036344431,
  0x42204C4C414D532052455454454C205245494649444F4D2020302E3420232020202020202020202032363030203B202020202020202020202020202020202064657070616D203B2020202020202020202037344431,
  0x44204C4C414D532052455454454C205245494649444F4D2020302E3420232020202020202020202034363030203B202020202020202020202020202020202064657070616D203B2020202020202020202038344431,
  0x45204C4C414D532052455454454C205245494649444F4D2020302E3420232020202020202020202035363030203B202020202020202020202020202020202064657070616D203B2020202020202020202039344431,
  0x4157484353204C4C414D532052455454454C205245494649444F4D2020302E3420232020202020202020202039353230203B202020202020202020202020202020202064657070616D203B2020202020202020202041344431,
  0x45204E45504F204C4C414D532052455454454C205245494649444F4D2020302E3420232020202020202020202042353230203B202020202020202020202020202020202064657070616D203B2020202020202020202042344431,
  0x45204E45504F2044454E525554204C4C414D532052455454454C205245494649444F4D2020302E3420232020202020202020202043353230203B202020202020202020202020202020202064657070616D203B2020202020202020202043344431,
  0x47204C4C414D532052455454454C205245494649444F4D2020302E3420232020202020202020202037363030203B202020202020202020202020202020202064657070616D203B2020202020202020202044344431,
  0x492044454E525554204C4C414D532052455454454C205245494649444F4D2020302E3420232020202020202020202020202020202020202020202020202020202020202020202064696C6176203B2020202020202020202045344431,
  0x4B204C4C414D532052455454454C205245494649444F4D2020302E3420232020202020202020202042363030203B202020202020202020202020202020202064657070616D203B2020202020202020202046344431,
  0x4D204C4C414D532052455454454C205245494649444F4D2020302E3420232020202020202020202044363030203B202020202020202020202020202020202064657070616D203B2020202020202020202030354431,
  0x474E45204C4C414D532052455454454C205245494649444F4D2020302E3420232020202020202020202042343130203B202020202020202020202020202020202064657070616D203B2020202020202020202031354431,
  0x4F204C4C414D532052455454454C205245494649444F4D2020302E3420232020202020202020202046363030203B202020202020202020202020202020202064657070616D203B2020202020202020202032354431,
  0x4F204E45504F204C4C414D532052455454454C205245494649444F4D2020302E3420232020202020202020202034353230203B202020202020202020202020202020202064657070616D203B2020202020202020202033354431,
  0x4F20464C414820504F54204C4C414D532052455454454C205245494649444F4D2020302E3420232020202020202020202036314431203B202020202020202020202020202020202064657070616D203B2020202020202020202034354431,
  0x4F20464C4148204D4F54544F42204C4C414D532052455454454C205245494649444F4D2020302E3420232020202020202020202037314431203B202020202020202020202020202020202064657070616D203B2020202020202020202035354431,
  0x50204C4C414D532052455454454C205245494649444F4D2020302E3420232020202020202020202030373030203B202020202020202020202020202020202064657070616D203B2020202020202020202036354431,
  0x54204C4C414D532052455454454C205245494649444F4D2020302E3420232020202020202020202034373030203B202020202020202020202020202020202064657070616D203B2020202020202020202037354431,
  0x55204C4C414D532052455454454C205245494649444F4D2020302E3420232020202020202020202035373030203B202020202020202020202020202020202064657070616D203B2020202020202020202038354431,
  0x55205359415745444953204C4C414D532052455454454C205245494649444F4D2020302E3420232020202020202020202044314431203B202020202020202020202020202020202064657070616D203B2020202020202020202039354431,
  0x4D2044454E525554204C4C414D532052455454454C205245494649444F4D2020302E3420232020202020202020202046363230203B202020202020202020202020202020202064657070616D203B2020202020202020202041354431,
  0x56204C4C414D532052455454454C205245494649444F4D2020302E3420232020202020202020202036373030203B202020202020202020202020202020202064657070616D203B2020202020202020202042354431,
  0x4E4941204C4C414D532052455454454C205245494649444F4D2020302E3420232020202020202020202035324431203B202020202020202020202020202020202064657070616D203B2020202020202020202043354431,
  0x41544542204C4C414D532052455454454C205245494649444F4D2020302E3420232020202020202020202032423330203B202020202020202020202020202020202064657070616D203B2020202020202020202044354431,
  0x414D4D4147204B45455247204C4C414D532052455454454C205245494649444F4D2020302E3420232020202020202020202033423330203B202020202020202020202020202020202064657070616D203B2020202020202020202045354431,
  0x41544C4544204C4C414D532052455454454C205245494649444F4D2020302E3420232020202020202020202034423330203B202020202020202020202020202020202064657070616D203B2020202020202020202046354431,
  0x494850204B45455247204C4C414D532052455454454C205245494649444F4D2020302E3420232020202020202020202036433330203B202020202020202020202020202020202064657070616D203B2020202020202020202030364431,
  0x494843204C4C414D532052455454454C205245494649444F4D2020302E3420232020202020202020202037433330203B202020202020202020202020202020202064657070616D203B2020202020202020202031364431,
  0x492052455454454C204C4C414D5320545049524353425553204E4954414C2020302E3420232020202020202020202039363030203B202020202020202020202020202020202064657070616D203B2020202020202020202032364431,
  0x522052455454454C204C4C414D5320545049524353425553204E4954414C2020302E3420232020202020202020202032373030203B202020202020202020202020202020202064657070616D203B2020202020202020202033364431,
  0x552052455454454C204C4C414D5320545049524353425553204E4954414C2020302E3420232020202020202020202035373030203B202020202020202020202020202020202064657070616D203B2020202020202020202034364431,
  0x562052455454454C204C4C414D5320545049524353425553204E4954414C2020302E3420232020202020202020202036373030203B202020202020202020202020202020202064657070616D203B2020202020202020202035364431,
  0x415445422052455454454C204C4C414D5320545049524353425553204B454552472020302E3420232020202020202020202032423330203B202020202020202020202020202020202064657070616D203B2020202020202020202036364431,
  0x414D4D41472052455454454C204C4C414D5320545049524353425553204B454552472020302E3420232020202020202020202033423330203B202020202020202020202020202020202064657070616D203B2020202020202020202037364431,
  0x4F48522052455454454C204C4C414D5320545049524353425553204B454552472020302E3420232020202020202020202031433330203B202020202020202020202020202020202064657070616D203B2020202020202020202038364431,
  0x4948502052455454454C204C4C414D5320545049524353425553204B454552472020302E3420232020202020202020202036433330203B202020202020202020202020202020202064657070616D203B2020202020202020202039364431,
  0x4948432052455454454C204C4C414D5320545049524353425553204B454552472020302E3420232020202020202020202037433330203B202020202020202020202020202020202064657070616D203B2020202020202020202041364431,
  0x45552052455454454C204C4C414D53204E4954414C2020302E3420232020202020202020202020202020202020202020202020202020202020202020202064696C6176203B2020202020202020202042364431,
  0x472044454E5255542052455454454C204C4C414D53204E4954414C2E2E45444C495420454C4444494D204854495720422052455454454C204C4C414D53204E4954414C2020312E3420232020202020202020202020202020202020202020202020202020202020202020202064696C6176203B20202020373744312E2E43364431,
  0x4E452043494C4C495259432052455454454C205245494649444F4D2020312E3420232020202020202020202044333430203B202020202020202020202020202020202064657070616D203B2020202020202020202038374431,
  0x4B4F4F482058454C464F52544552204854495720485A452052455454454C204C4C414D53204E4954414C2E2E472052414C55534E492052455454454C204C4C414D53204E4954414C2020312E3420232020202020202020202020202020202020202020202020202020202020202020202064696C6176203B20202020413944312E2E39374431,
  0x4148504C412044454E525554204C4C414D532052455454454C205245494649444F4D2020312E3420232020202020202020202032353230203B202020202020202020202020202020202064657070616D203B2020202020202020202042394431,
  0x43204C4C414D532052455454454C205245494649444F4D2020312E3420232020202020202020202033363030203B202020202020202020202020202020202064657070616D203B2020202020202020202043394431,
  0x4C52554320485449572043204C4C414D532052455454454C205245494649444F4D2020312E3420232020202020202020202035353230203B202020202020202020202020202020202064657070616D203B2020202020202020202044394431,
  0x485445204C4C414D532052455454454C205245494649444F4D2020312E3420232020202020202020202030463030203B202020202020202020202020202020202064657070616D203B2020202020202020202045394431,
  0x45204E45504F204445535245564552204C4C414D532052455454454C205245494649444F4D2020312E3420232020202020202020202043353230203B202020202020202020202020202020202064657070616D203B2020202020202020202046394431,
  0x46204C4C414D532052455454454C205245494649444F4D2020312E3420232020202020202020202036363030203B202020202020202020202020202020202064657070616D203B2020202020202020202030414431,
  0x454B4F5254532048544957204A205353454C544F44204C4C414D532052455454454C205245494649444F4D2020312E3420232020202020202020202046353230203B202020202020202020202020202020202064657070616D203B2020202020202020202031414431,
  0x4720545049524353204C4C414D532052455454454C205245494649444F4D2020312E3420232020202020202020202031363230203B202020202020202020202020202020202064657070616D203B2020202020202020202032414431,
  0x482044454E525554204C4C414D532052455454454C205245494649444F4D2020312E3420232020202020202020202035363230203B202020202020202020202020202020202064657070616D203B2020202020202020202033414431,
  0x454B4F52545320485449572049204C4C414D532052455454454C205245494649444F4D2020312E3420232020202020202020202038363230203B202020202020202020202020202020202064657070616D203B2020202020202020202034414431,
  0x41544F49204C4C414D532052455454454C205245494649444F4D2020312E3420232020202020202020202039363230203B202020202020202020202020202020202064657070616D203B2020202020202020202035414431,
  0x49204C415449504143204C4C414D532052455454454C205245494649444F4D2020312E3420232020202020202020202041363230203B202020202020202020202020202020202064657070616D203B2020202020202020202036414431,
  0x454B4F52545320485449572049204C415449504143204C4C414D532052455454454C205245494649444F4D2020312E3420232020202020202020202042374431203B202020202020202020202020202020202064657070616D203B2020202020202020202037414431,
  0x4C4941542D444553534F52432048544957204A204C4C414D532052455454454C205245494649444F4D2020312E3420232020202020202020202044393230203B202020202020202020202020202020202064657070616D203B2020202020202020202038414431,
  0x4B4F4F482058454C464F525445522048544957204C204C4C414D532052455454454C205245494649444F4D2020312E3420232020202020202020202044363230203B202020202020202020202020202020202064657070616D203B2020202020202020202039414431,
  0x4B4F4F48204C4154414C41502048544957204C204C4C414D532052455454454C205245494649444F4D2020312E3420232020202020202020202035384431203B202020202020202020202020202020202064657070616D203B2020202020202020202041414431,
  0x4C204C415449504143204C4C414D532052455454454C205245494649444F4D2020312E3420232020202020202020202046393230203B202020202020202020202020202020202064657070616D203B2020202020202020202042414431,
  0x4B4F4F482048544957204D204C4C414D532052455454454C205245494649444F4D2020312E3420232020202020202020202031373230203B202020202020202020202020202020202064657070616D203B2020202020202020202043414431,
  0x47454C20474E4F4C2048544957204D2044454E525554204C4C414D532052455454454C205245494649444F4D2020312E3420232020202020202020202030373230203B202020202020202020202020202020202064657070616D203B2020202020202020202044414431,
  0x4B4F4F48205446454C2048544957204E204C4C414D532052455454454C205245494649444F4D2020312E3420232020202020202020202032373230203B202020202020202020202020202020202064657070616D203B2020202020202020202045414431,
  0x4B4F4F482058454C464F525445522048544957204E204C4C414D532052455454454C205245494649444F4D2020312E3420232020202020202020202033373230203B202020202020202020202020202020202064657070616D203B2020202020202020202046414431,
  0x4E204C415449504143204C4C414D532052455454454C205245494649444F4D2020312E3420232020202020202020202034373230203B202020202020202020202020202020202064657070616D203B2020202020202020202030424431,
  0x4F20444552524142204C4C414D532052455454454C205245494649444F4D2020312E3420232020202020202020202035373230203B202020202020202020202020202020202064657070616D203B2020202020202020202031424431,
  0x494850204C4C414D532052455454454C205245494649444F4D2020312E3420232020202020202020202038373230203B202020202020202020202020202020202064657070616D203B2020202020202020202032424431,
  0x4B4F4F4820485449572053204C4C414D532052455454454C205245494649444F4D2020312E3420232020202020202020202032383230203B202020202020202020202020202020202064657070616D203B2020202020202020202033424431,
  0x485345204C4C414D532052455454454C205245494649444F4D2020312E3420232020202020202020202033383230203B202020202020202020202020202020202064657070616D203B2020202020202020202034424431,
  0x4B4F4F48204C4154414C415020485449572054204C4C414D532052455454454C205245494649444F4D2020312E3420232020202020202020202042413130203B202020202020202020202020202020202064657070616D203B2020202020202020202035424431,
  0x5241422055204C4C414D532052455454454C205245494649444F4D2020312E3420232020202020202020202039383230203B202020202020202020202020202020202064657070616D203B2020202020202020202036424431,
  0x4E4F4C49535055204C4C414D532052455454454C205245494649444F4D2020312E3420232020202020202020202041383230203B202020202020202020202020202020202064657070616D203B2020202020202020202037424431,
  0x55204C415449504143204C4C414D532052455454454C205245494649444F4D2020312E3420232020202020202020202043314431203B202020202020202020202020202020202064657070616D203B2020202020202020202038424431,
  0x4B4F4F4820485449572056204C4C414D532052455454454C205245494649444F4D2020312E3420232020202020202020202042383230203B202020202020202020202020202020202064657070616D203B2020202020202020202039424431,
  0x562044454E525554204C4C414D532052455454454C205245494649444F4D2020312E3420232020202020202020202043383230203B202020202020202020202020202020202064657070616D203B2020202020202020202041424431,
  0x5A204C4C414D532052455454454C205245494649444F4D2020312E3420232020202020202020202041373030203B202020202020202020202020202020202064657070616D203B2020202020202020202042424431,
  0x4B4F4F482058454C464F525445522048544957205A204C4C414D532052455454454C205245494649444F4D2020312E3420232020202020202020202030393230203B202020202020202020202020202020202064657070616D203B2020202020202020202043424431,
  0x4C5255432048544957205A204C4C414D532052455454454C205245494649444F4D2020312E3420232020202020202020202031393230203B202020202020202020202020202020202064657070616D203B2020202020202020202044424431,
  0x485A45204C4C414D532052455454454C205245494649444F4D2020312E3420232020202020202020202032393230203B202020202020202020202020202020202064657070616D203B2020202020202020202045424431,
  0x4154454854204C4C414D532052455454454C205245494649444F4D2020312E3420232020202020202020202038423330203B202020202020202020202020202020202064657070616D203B2020202020202020202046424431,
  0x4B52414D204E4F49534E455053555320474E494E49424D4F432E2E544E4543434120455641524720444554544F4420474E494E49424D4F432020312E3420232020202020202020202020202020202020202020202020202020202020202020202064696C6176203B20202020334344312E2E30434431,
  0x574F4C454220522052455454454C204C4C414D53204E4954414C20474E494E49424D4F432E2E45545543412D4E4F5243414D20474E494E49424D4F432020302E3520232020202020202020202020202020202020202020202020202020202020202020202064696C6176203B20202020414344312E2E34434431,
  0x5A2052455454454C204C4C414D53204E4954414C20474E494E49424D4F432E2E4E4F5243414D2D455645524220474E494E49424D4F432020312E3520232020202020202020202020202020202020202020202020202020202020202020202064696C6176203B20202020364544312E2E42434431,
  0x45564F4241204B43415420505520474E494E49424D4F432E2E4148504C412052455454454C204C4C414D53204E4954414C20474E494E49424D4F432020302E3720232020202020202020202020202020202020202020202020202020202020202020202064696C6176203B20202020354644312E2E37454431,
  0x574F4C454220454744495242204445545245564E49204544495720474E494E49424D4F432E2E54484749522045564F424120414B5956414B20474E494E49424D4F4320302E303120232020202020202020202020202020202020202020202020202020202020202020202064696C6176203B20202020394644312E2E36464431,
  0x3E414644312D64657672657365723C202020414E202320202020202020202020202020202020202020202020202020202020206465776F6C6C61736964203B2020202020202020202041464431,
  0x4B52414D204E4F4954454C454420474E494E49424D4F432020302E3920232020202020202020202020202020202020202020202020202020202020202020202064696C6176203B2020202020202020202042464431,
  0x574F4C4542204556455242204445545245564E4920454C42554F4420474E494E49424D4F432020302E3620232020202020202020202020202020202020202020202020202020202020202020202064696C6176203B2020202020202020202043464431,
  0x574F4C4542204F54204C415551452054534F4D4C4120474E494E49424D4F432020322E3520232020202020202020202020202020202020202020202020202020202020202020202064696C6176203B2020202020202020202044464431,
  0x574F4C45422044414548574F525241204E574F4420444E412044414548574F52524120544847495220474E494E49424D4F432E2E45564F42412044414548574F525241205446454C20474E494E49424D4F432020302E3520232020202020202020202020202020202020202020202020202020202020202020202064696C6176203B20202020464644312E2E45464431,
  0x574F4C454220474E4952204854495720412052455454454C204C415449504143204E4954414C2020312E3120232020202020202020202031304531203B202020202020202020202020202020202064657070616D203B2020202020202020202030304531,
  0x574F4C454220474E4952204854495720412052455454454C204C4C414D53204E4954414C2020312E3120232020202020202020202020202020202020202020202020202020202020202020202064696C6176203B2020202020202020202031304531,
  0x45564F424120544F44204854495720422052455454454C204C415449504143204E4954414C2020312E3120232020202020202020202033304531203B202020202020202020202020202020202064657070616D203B2020202020202020202032304531,
  0x45564F424120544F44204854495720422052455454454C204C4C414D53204E4954414C2020312E3120232020202020202020202020202020202020202020202020202020202020202020202064696C6176203B2020202020202020202033304531,
  0x574F4C454220544F44204854495720422052455454454C204C415449504143204E4954414C2020312E3120232020202020202020202035304531203B202020202020202020202020202020202064657070616D203B2020202020202020202034304531,
  0x574F4C454220544F44204854495720422052455454454C204C4C414D53204E4954414C2020312E3120232020202020202020202020202020202020202020202020202020202020202020202064696C6176203B2020202020202020202035304531,
  0x574F4C454220454E494C204854495720422052455454454C204C415449504143204E4954414C2020312E3120232020202020202020202037304531203B202020202020202020202020202020202064657070616D203B2020202020202020202036304531,
  0x574F4C454220454E494C204854495720422052455454454C204C4C414D53204E4954414C2020312E3120232020202020202020202020202020202020202020202020202020202020202020202064696C6176203B2020202020202020202037304531,
  0x455455434120444E4120414C4C49444543204854495720432052455454454C204C415449504143204E4954414C2020312E3120232020202020202020202039304531203B202020202020202020202020202020202064657070616D203B2020202020202020202038304531,
  0x455455434120444E4120414C4C49444543204854495720432052455454454C204C4C414D53204E4954414C2020312E3120232020202020202020202020202020202020202020202020202020202020202020202064696C6176203B2020202020202020202039304531,
  0x45564F424120544F44204854495720442052455454454C204C415449504143204E4954414C2020312E3120232020202020202020202042304531203B202020202020202020202020202020202064657070616D203B2020202020202020202041304531,
  0x45564F424120544F44204854495720442052455454454C204C4C414D53204E4954414C2020312E3120232020202020202020202020202020202020202020202020202020202020202020202064696C6176203B2020202020202020202042304531,
  0x574F4C454220544F44204854495720442052455454454C204C415449504143204E4954414C2020312E3120232020202020202020202044304531203B202020202020202020202020202020202064657070616D203B2020202020202020202043304531,
  0x574F4C454220544F44204854495720442052455454454C204C4C414D53204E4954414C2020312E3120232020202020202020202020202020202020202020202020202020202020202020202064696C6176203B2020202020202020202044304531,
  0x574F4C454220454E494C204854495720442052455454454C204C415449504143204E4954414C2020312E3120232020202020202020202046304531203B202020202020202020202020202020202064657070616D203B2020202020202020202045304531,
  0x574F4C454220454E494C204854495720442052455454454C204C4C414D53204E4954414C2020312E3120232020202020202020202020202020202020202020202020202020202020202020202064696C6176203B2020202020202020202046304531,
  0x414C4C49444543204854495720442052455454454C204C415449504143204E4954414C2020312E3120232020202020202020202031314531203B202020202020202020202020202020202064657070616D203B2020202020202020202030314531,
  0x414C4C49444543204854495720442052455454454C204C4C414D53204E4954414C2020312E3120232020202020202020202020202020202020202020202020202020202020202020202064696C6176203B2020202020202020202031314531,
  0x574F4C45422058454C464D5543524943204854495720442052455454454C204C415449504143204E4954414C2020312E3120232020202020202020202033314531203B202020202020202020202020202020202064657070616D203B2020202020202020202032314531,
  0x574F4C45422058454C464D5543524943204854495720442052455454454C204C4C414D53204E4954414C2020312E3120232020202020202020202020202020202020202020202020202020202020202020202064696C6176203B2020202020202020202033314531,
  0x455641524720444E41204E4F5243414D204854495720452052455454454C204C415449504143204E4954414C2020312E3120232020202020202020202035314531203B202020202020202020202020202020202064657070616D203B2020202020202020202034314531,
  0x455641524720444E41204E4F5243414D204854495720452052455454454C204C4C414D53204E4954414C2020312E3120232020202020202020202020202020202020202020202020202020202020202020202064696C6176203B2020202020202020202035314531,
  0x455455434120444E41204E4F5243414D204854495720452052455454454C204C415449504143204E4954414C2020312E3120232020202020202020202037314531203B202020202020202020202020202020202064657070616D203B2020202020202020202036314531,
  0x455455434120444E41204E4F5243414D204854495720452052455454454C204C4C414D53204E4954414C2020312E3120232020202020202020202020202020202020202020202020202020202020202020202064696C6176203B2020202020202020202037314531,
  0x574F4C45422058454C464D5543524943204854495720452052455454454C204C415449504143204E4954414C2020312E3120232020202020202020202039314531203B202020202020202020202020202020202064657070616D203B2020202020202020202038314531,
  0x574F4C45422058454C464D5543524943204854495720452052455454454C204C4C414D53204E4954414C2020312E3120232020202020202020202020202020202020202020202020202020202020202020202064696C6176203B2020202020202020202039314531,
  0x574F4C45422045444C4954204854495720452052455454454C204C415449504143204E4954414C2020312E3120232020202020202020202042314531203B202020202020202020202020202020202064657070616D203B2020202020202020202041314531,
  0x574F4C45422045444C4954204854495720452052455454454C204C4C414D53204E4954414C2020312E3120232020202020202020202020202020202020202020202020202020202020202020202064696C6176203B2020202020202020202042314531,
  0x455645524220444E4120414C4C49444543204854495720452052455454454C204C415449504143204E4954414C2020312E3120232020202020202020202044314531203B202020202020202020202020202020202064657070616D203B2020202020202020202043314531,
  0x455645524220444E4120414C4C49444543204854495720452052455454454C204C4C414D53204E4954414C2020312E3120232020202020202020202020202020202020202020202020202020202020202020202064696C6176203B2020202020202020202044314531,
  0x45564F424120544F44204854495720462052455454454C204C415449504143204E4954414C2020312E3120232020202020202020202046314531203B202020202020202020202020202020202064657070616D203B2020202020202020202045314531,
  0x45564F424120544F44204854495720462052455454454C204C4C414D53204E4954414C2020312E3120232020202020202020202020202020202020202020202020202020202020202020202064696C6176203B2020202020202020202046314531,
  0x4E4F5243414D204854495720472052455454454C204C415449504143204E4954414C2020312E3120232020202020202020202031324531203B202020202020202020202020202020202064657070616D203B2020202020202020202030324531,
  0x4E4F5243414D204854495720472052455454454C204C4C414D53204E4954414C2020312E3120232020202020202020202020202020202020202020202020202020202020202020202064696C6176203B2020202020202020202031324531,
  0x45564F424120544F44204854495720482052455454454C204C415449504143204E4954414C2020312E3120232020202020202020202033324531203B202020202020202020202020202020202064657070616D203B2020202020202020202032324531,
  0x45564F424120544F44204854495720482052455454454C204C4C414D53204E4954414C2020312E3120232020202020202020202020202020202020202020202020202020202020202020202064696C6176203B2020202020202020202033324531,
  0x574F4C454220544F44204854495720482052455454454C204C415449504143204E4954414C2020312E3120232020202020202020202035324531203B202020202020202020202020202020202064657070616D203B2020202020202020202034324531,
  0x574F4C454220544F44204854495720482052455454454C204C4C414D53204E4954414C2020312E3120232020202020202020202020202020202020202020202020202020202020202020202064696C6176203B2020202020202020202035324531,
  0x534953455245414944204854495720482052455454454C204C415449504143204E4954414C2020312E3120232020202020202020202037324531203B202020202020202020202020202020202064657070616D203B2020202020202020202036324531,
  0x534953455245414944204854495720482052455454454C204C4C414D53204E4954414C2020312E3120232020202020202020202020202020202020202020202020202020202020202020202064696C6176203B2020202020202020202037324531,
  0x414C4C49444543204854495720482052455454454C204C415449504143204E4954414C2020312E3120232020202020202020202039324531203B202020202020202020202020202020202064657070616D203B2020202020202020202038324531,
  0x414C4C49444543204854495720482052455454454C204C4C414D53204E4954414C2020312E3120232020202020202020202020202020202020202020202020202020202020202020202064696C6176203B2020202020202020202039324531,
  0x574F4C4542204556455242204854495720482052455454454C204C415449504143204E4954414C2020312E3120232020202020202020202042324531203B202020202020202020202020202020202064657070616D203B2020202020202020202041324531,
  0x574F4C4542204556455242204854495720482052455454454C204C4C414D53204E4954414C2020312E3120232020202020202020202020202020202020202020202020202020202020202020202064696C6176203B2020202020202020202042324531,
  0x574F4C45422045444C4954204854495720492052455454454C204C415449504143204E4954414C2020312E3120232020202020202020202044324531203B202020202020202020202020202020202064657070616D203B2020202020202020202043324531,
  0x574F4C45422045444C4954204854495720492052455454454C204C4C414D53204E4954414C2020312E3120232020202020202020202020202020202020202020202020202020202020202020202064696C6176203B2020202020202020202044324531,
  0x455455434120444E4120534953455245414944204854495720492052455454454C204C415449504143204E4954414C2020312E3120232020202020202020202046324531203B202020202020202020202020202020202064657070616D203B2020202020202020202045324531,
  0x455455434120444E4120534953455245414944204854495720492052455454454C204C4C414D53204E4954414C2020312E3120232020202020202020202020202020202020202020202020202020202020202020202064696C6176203B2020202020202020202046324531,
  0x45545543412048544957204B2052455454454C204C415449504143204E4954414C2020312E3120232020202020202020202031334531203B202020202020202020202020202020202064657070616D203B2020202020202020202030334531,
  0x45545543412048544957204B2052455454454C204C4C414D53204E4954414C2020312E3120232020202020202020202020202020202020202020202020202020202020202020202064696C6176203B2020202020202020202031334531,
  0x574F4C454220544F442048544957204B2052455454454C204C415449504143204E4954414C2020312E3120232020202020202020202033334531203B202020202020202020202020202020202064657070616D203B2020202020202020202032334531,
  0x574F4C454220544F442048544957204B2052455454454C204C4C414D53204E4954414C2020312E3120232020202020202020202020202020202020202020202020202020202020202020202064696C6176203B2020202020202020202033334531,
  0x574F4C454220454E494C2048544957204B2052455454454C204C415449504143204E4954414C2020312E3120232020202020202020202035334531203B202020202020202020202020202020202064657070616D203B2020202020202020202034334531,
  0x574F4C454220454E494C2048544957204B2052455454454C204C4C414D53204E4954414C2020312E3120232020202020202020202020202020202020202020202020202020202020202020202064696C6176203B2020202020202020202035334531,
  0x574F4C454220544F442048544957204C2052455454454C204C415449504143204E4954414C2020312E3120232020202020202020202037334531203B202020202020202020202020202020202064657070616D203B2020202020202020202036334531,
  0x574F4C454220544F442048544957204C2052455454454C204C4C414D53204E4954414C2020312E3120232020202020202020202020202020202020202020202020202020202020202020202064696C6176203B2020202020202020202037334531,
  0x4E4F5243414D20444E4120574F4C454220544F442048544957204C2052455454454C204C415449504143204E4954414C2020312E3120232020202020202020202039334531203B202020202020202020202020202020202064657070616D203B2020202020202020202038334531,
  0x4E4F5243414D20444E4120574F4C454220544F442048544957204C2052455454454C204C4C414D53204E4954414C2020312E3120232020202020202020202020202020202020202020202020202020202020202020202064696C6176203B2020202020202020202039334531,
  0x574F4C454220454E494C2048544957204C2052455454454C204C415449504143204E4954414C2020312E3120232020202020202020202042334531203B202020202020202020202020202020202064657070616D203B2020202020202020202041334531,
  0x574F4C454220454E494C2048544957204C2052455454454C204C4C414D53204E4954414C2020312E3120232020202020202020202020202020202020202020202020202020202020202020202064696C6176203B2020202020202020202042334531,
  0x574F4C45422058454C464D55435249432048544957204C2052455454454C204C415449504143204E4954414C2020312E3120232020202020202020202044334531203B202020202020202020202020202020202064657070616D203B2020202020202020202043334531,
  0x574F4C45422058454C464D55435249432048544957204C2052455454454C204C4C414D53204E4954414C2020312E3120232020202020202020202020202020202020202020202020202020202020202020202064696C6176203B2020202020202020202044334531,
  0x45545543412048544957204D2052455454454C204C415449504143204E4954414C2020312E3120232020202020202020202046334531203B202020202020202020202020202020202064657070616D203B2020202020202020202045334531,
  0x45545543412048544957204D2052455454454C204C4C414D53204E4954414C2020312E3120232020202020202020202020202020202020202020202020202020202020202020202064696C6176203B2020202020202020202046334531,
  0x45564F424120544F442048544957204D2052455454454C204C415449504143204E4954414C2020312E3120232020202020202020202031344531203B202020202020202020202020202020202064657070616D203B2020202020202020202030344531,
  0x45564F424120544F442048544957204D2052455454454C204C4C414D53204E4954414C2020312E3120232020202020202020202020202020202020202020202020202020202020202020202064696C6176203B2020202020202020202031344531,
  0x574F4C454220544F442048544957204D2052455454454C204C415449504143204E4954414C2020312E3120232020202020202020202033344531203B202020202020202020202020202020202064657070616D203B2020202020202020202032344531,
  0x574F4C454220544F442048544957204D2052455454454C204C4C414D53204E4954414C2020312E3120232020202020202020202020202020202020202020202020202020202020202020202064696C6176203B2020202020202020202033344531,
  0x45564F424120544F442048544957204E2052455454454C204C415449504143204E4954414C2020312E3120232020202020202020202035344531203B202020202020202020202020202020202064657070616D203B2020202020202020202034344531,
  0x45564F424120544F442048544957204E2052455454454C204C4C414D53204E4954414C2020312E3120232020202020202020202020202020202020202020202020202020202020202020202064696C6176203B2020202020202020202035344531,
  0x574F4C454220544F442048544957204E2052455454454C204C415449504143204E4954414C2020312E3120232020202020202020202037344531203B202020202020202020202020202020202064657070616D203B2020202020202020202036344531,
  0x574F4C454220544F442048544957204E2052455454454C204C4C414D53204E4954414C2020312E3120232020202020202020202020202020202020202020202020202020202020202020202064696C6176203B2020202020202020202037344531,
  0x574F4C454220454E494C2048544957204E2052455454454C204C415449504143204E4954414C2020312E3120232020202020202020202039344531203B202020202020202020202020202020202064657070616D203B2020202020202020202038344531,
  0x574F4C454220454E494C2048544957204E2052455454454C204C4C414D53204E4954414C2020312E3120232020202020202020202020202020202020202020202020202020202020202020202064696C6176203B2020202020202020202039344531,
  0x574F4C45422058454C464D55435249432048544957204E2052455454454C204C415449504143204E4954414C2020312E3120232020202020202020202042344531203B202020202020202020202020202020202064657070616D203B2020202020202020202041344531,
  0x574F4C45422058454C464D55435249432048544957204E2052455454454C204C4C414D53204E4954414C2020312E3120232020202020202020202020202020202020202020202020202020202020202020202064696C6176203B2020202020202020202042344531,
  0x455455434120444E412045444C49542048544957204F2052455454454C204C415449504143204E4954414C2020312E3120232020202020202020202044344531203B202020202020202020202020202020202064657070616D203B2020202020202020202043344531,
  0x455455434120444E412045444C49542048544957204F2052455454454C204C4C414D53204E4954414C2020312E3120232020202020202020202020202020202020202020202020202020202020202020202064696C6176203B2020202020202020202044344531,
  0x53495345524541494420444E412045444C49542048544957204F2052455454454C204C415449504143204E4954414C2020312E3120232020202020202020202046344531203B202020202020202020202020202020202064657070616D203B2020202020202020202045344531,
  0x53495345524541494420444E412045444C49542048544957204F2052455454454C204C4C414D53204E4954414C2020312E3120232020202020202020202020202020202020202020202020202020202020202020202064696C6176203B2020202020202020202046344531,
  0x455641524720444E41204E4F5243414D2048544957204F2052455454454C204C415449504143204E4954414C2020312E3120232020202020202020202031354531203B202020202020202020202020202020202064657070616D203B2020202020202020202030354531,
  0x455641524720444E41204E4F5243414D2048544957204F2052455454454C204C4C414D53204E4954414C2020312E3120232020202020202020202020202020202020202020202020202020202020202020202064696C6176203B2020202020202020202031354531,
  0x455455434120444E41204E4F5243414D2048544957204F2052455454454C204C415449504143204E4954414C2020312E3120232020202020202020202033354531203B202020202020202020202020202020202064657070616D203B2020202020202020202032354531,
  0x455455434120444E41204E4F5243414D2048544957204F2052455454454C204C4C414D53204E4954414C2020312E3120232020202020202020202020202020202020202020202020202020202020202020202064696C6176203B2020202020202020202033354531,
  0x4554554341204854495720502052455454454C204C415449504143204E4954414C2020312E3120232020202020202020202035354531203B202020202020202020202020202020202064657070616D203B2020202020202020202034354531,
  0x4554554341204854495720502052455454454C204C4C414D53204E4954414C2020312E3120232020202020202020202020202020202020202020202020202020202020202020202064696C6176203B2020202020202020202035354531,
  0x45564F424120544F44204854495720502052455454454C204C415449504143204E4954414C2020312E3120232020202020202020202037354531203B202020202020202020202020202020202064657070616D203B2020202020202020202036354531,
  0x45564F424120544F44204854495720502052455454454C204C4C414D53204E4954414C2020312E3120232020202020202020202020202020202020202020202020202020202020202020202064696C6176203B2020202020202020202037354531,
  0x45564F424120544F44204854495720522052455454454C204C415449504143204E4954414C2020312E3120232020202020202020202039354531203B202020202020202020202020202020202064657070616D203B2020202020202020202038354531,
  0x45564F424120544F44204854495720522052455454454C204C4C414D53204E4954414C2020312E3120232020202020202020202020202020202020202020202020202020202020202020202064696C6176203B2020202020202020202039354531,
  0x574F4C454220544F44204854495720522052455454454C204C415449504143204E4954414C2020312E3120232020202020202020202042354531203B202020202020202020202020202020202064657070616D203B2020202020202020202041354531,
  0x574F4C454220544F44204854495720522052455454454C204C4C414D53204E4954414C2020312E3120232020202020202020202020202020202020202020202020202020202020202020202064696C6176203B2020202020202020202042354531,
  0x4E4F5243414D20444E4120574F4C454220544F44204854495720522052455454454C204C415449504143204E4954414C2020312E3120232020202020202020202044354531203B202020202020202020202020202020202064657070616D203B2020202020202020202043354531,
  0x4E4F5243414D20444E4120574F4C454220544F44204854495720522052455454454C204C4C414D53204E4954414C2020312E3120232020202020202020202020202020202020202020202020202020202020202020202064696C6176203B2020202020202020202044354531,
  0x574F4C454220454E494C204854495720522052455454454C204C415449504143204E4954414C2020312E3120232020202020202020202046354531203B202020202020202020202020202020202064657070616D203B2020202020202020202045354531,
  0x574F4C454220454E494C204854495720522052455454454C204C4C414D53204E4954414C2020312E3120232020202020202020202020202020202020202020202020202020202020202020202064696C6176203B2020202020202020202046354531,
  0x45564F424120544F44204854495720532052455454454C204C415449504143204E4954414C2020312E3120232020202020202020202031364531203B202020202020202020202020202020202064657070616D203B2020202020202020202030364531,
  0x45564F424120544F44204854495720532052455454454C204C4C414D53204E4954414C2020312E3120232020202020202020202020202020202020202020202020202020202020202020202064696C6176203B2020202020202020202031364531,
  0x574F4C454220544F44204854495720532052455454454C204C415449504143204E4954414C2020312E3120232020202020202020202033364531203B202020202020202020202020202020202064657070616D203B2020202020202020202032364531,
  0x574F4C454220544F44204854495720532052455454454C204C4C414D53204E4954414C2020312E3120232020202020202020202020202020202020202020202020202020202020202020202064696C6176203B2020202020202020202033364531,
  0x45564F424120544F4420444E41204554554341204854495720532052455454454C204C415449504143204E4954414C2020312E3120232020202020202020202035364531203B202020202020202020202020202020202064657070616D203B2020202020202020202034364531,
  0x45564F424120544F4420444E41204554554341204854495720532052455454454C204C4C414D53204E4954414C2020312E3120232020202020202020202020202020202020202020202020202020202020202020202064696C6176203B2020202020202020202035364531,
  0x45564F424120544F4420444E41204E4F524143204854495720532052455454454C204C415449504143204E4954414C2020312E3120232020202020202020202037364531203B202020202020202020202020202020202064657070616D203B2020202020202020202036364531,
  0x45564F424120544F4420444E41204E4F524143204854495720532052455454454C204C4C414D53204E4954414C2020312E3120232020202020202020202020202020202020202020202020202020202020202020202064696C6176203B2020202020202020202037364531,
  0x45564F424120544F4420444E4120574F4C454220544F44204854495720532052455454454C204C415449504143204E4954414C2020312E3120232020202020202020202039364531203B202020202020202020202020202020202064657070616D203B2020202020202020202038364531,
  0x45564F424120544F4420444E4120574F4C454220544F44204854495720532052455454454C204C4C414D53204E4954414C2020312E3120232020202020202020202020202020202020202020202020202020202020202020202064696C6176203B2020202020202020202039364531,
  0x45564F424120544F44204854495720542052455454454C204C415449504143204E4954414C2020312E3120232020202020202020202042364531203B202020202020202020202020202020202064657070616D203B2020202020202020202041364531,
  0x45564F424120544F44204854495720542052455454454C204C4C414D53204E4954414C2020312E3120232020202020202020202020202020202020202020202020202020202020202020202064696C6176203B2020202020202020202042364531,
  0x574F4C454220544F44204854495720542052455454454C204C415449504143204E4954414C2020312E3120232020202020202020202044364531203B202020202020202020202020202020202064657070616D203B2020202020202020202043364531,
  0x574F4C454220544F44204854495720542052455454454C204C4C414D53204E4954414C2020312E3120232020202020202020202020202020202020202020202020202020202020202020202064696C6176203B2020202020202020202044364531,
  0x574F4C454220454E494C204854495720542052455454454C204C415449504143204E4954414C2020312E3120232020202020202020202046364531203B202020202020202020202020202020202064657070616D203B2020202020202020202045364531,
  0x574F4C454220454E494C204854495720542052455454454C204C4C414D53204E4954414C2020312E3120232020202020202020202020202020202020202020202020202020202020202020202064696C6176203B2020202020202020202046364531,
  0x574F4C45422058454C464D5543524943204854495720542052455454454C204C415449504143204E4954414C2020312E3120232020202020202020202031374531203B202020202020202020202020202020202064657070616D203B2020202020202020202030374531,
  0x574F4C45422058454C464D5543524943204854495720542052455454454C204C4C414D53204E4954414C2020312E3120232020202020202020202020202020202020202020202020202020202020202020202064696C6176203B2020202020202020202031374531,
  0x574F4C454220534953455245414944204854495720552052455454454C204C415449504143204E4954414C2020312E3120232020202020202020202033374531203B202020202020202020202020202020202064657070616D203B2020202020202020202032374531,
  0x574F4C454220534953455245414944204854495720552052455454454C204C4C414D53204E4954414C2020312E3120232020202020202020202020202020202020202020202020202020202020202020202064696C6176203B2020202020202020202033374531,
  0x574F4C45422045444C4954204854495720552052455454454C204C415449504143204E4954414C2020312E3120232020202020202020202035374531203B202020202020202020202020202020202064657070616D203B2020202020202020202034374531,
  0x574F4C45422045444C4954204854495720552052455454454C204C4C414D53204E4954414C2020312E3120232020202020202020202020202020202020202020202020202020202020202020202064696C6176203B2020202020202020202035374531,
  0x574F4C45422058454C464D5543524943204854495720552052455454454C204C415449504143204E4954414C2020312E3120232020202020202020202037374531203B202020202020202020202020202020202064657070616D203B2020202020202020202036374531,
  0x574F4C45422058454C464D5543524943204854495720552052455454454C204C4C414D53204E4954414C2020312E3120232020202020202020202020202020202020202020202020202020202020202020202064696C6176203B2020202020202020202037374531,
  0x455455434120444E412045444C4954204854495720552052455454454C204C415449504143204E4954414C2020312E3120232020202020202020202039374531203B202020202020202020202020202020202064657070616D203B2020202020202020202038374531,
  0x455455434120444E412045444C4954204854495720552052455454454C204C4C414D53204E4954414C2020312E3120232020202020202020202020202020202020202020202020202020202020202020202064696C6176203B2020202020202020202039374531,
  0x53495345524541494420444E41204E4F5243414D204854495720552052455454454C204C415449504143204E4954414C2020312E3120232020202020202020202042374531203B202020202020202020202020202020202064657070616D203B2020202020202020202041374531,
  0x53495345524541494420444E41204E4F5243414D204854495720552052455454454C204C4C414D53204E4954414C2020312E3120232020202020202020202020202020202020202020202020202020202020202020202064696C6176203B2020202020202020202042374531,
  0x45444C4954204854495720562052455454454C204C415449504143204E4954414C2020312E3120232020202020202020202044374531203B202020202020202020202020202020202064657070616D203B2020202020202020202043374531,
  0x45444C4954204854495720562052455454454C204C4C414D53204E4954414C2020312E3120232020202020202020202020202020202020202020202020202020202020202020202064696C6176203B2020202020202020202044374531,
  0x574F4C454220544F44204854495720562052455454454C204C415449504143204E4954414C2020312E3120232020202020202020202046374531203B202020202020202020202020202020202064657070616D203B2020202020202020202045374531,
  0x574F4C454220544F44204854495720562052455454454C204C4C414D53204E4954414C2020312E3120232020202020202020202020202020202020202020202020202020202020202020202064696C6176203B2020202020202020202046374531,
  0x4556415247204854495720572052455454454C204C415449504143204E4954414C2020312E3120232020202020202020202031384531203B202020202020202020202020202020202064657070616D203B2020202020202020202030384531,
  0x4556415247204854495720572052455454454C204C4C414D53204E4954414C2020312E3120232020202020202020202020202020202020202020202020202020202020202020202064696C6176203B2020202020202020202031384531,
  0x4554554341204854495720572052455454454C204C415449504143204E4954414C2020312E3120232020202020202020202033384531203B202020202020202020202020202020202064657070616D203B2020202020202020202032384531,
  0x4554554341204854495720572052455454454C204C4C414D53204E4954414C2020312E3120232020202020202020202020202020202020202020202020202020202020202020202064696C6176203B2020202020202020202033384531,
  0x534953455245414944204854495720572052455454454C204C415449504143204E4954414C2020312E3120232020202020202020202035384531203B202020202020202020202020202020202064657070616D203B2020202020202020202034384531]

def mapText8 : List Nat := [
  0x534953455245414944204854495720572052455454454C204C4C414D53204E4954414C2020312E3120232020202020202020202020202020202020202020202020202020202020202020202064696C6176203B2020202020202020202035384531,
  0x45564F424120544F44204854495720572052455454454C204C415449504143204E4954414C2020312E3120232020202020202020202037384531203B202020202020202020202020202020202064657070616D203B2020202020202020202036384531,
  0x45564F424120544F44204854495720572052455454454C204C4C414D53204E4954414C2020312E3120232020202020202020202020202020202020202020202020202020202020202020202064696C6176203B2020202020202020202037384531,
  0x574F4C454220544F44204854495720572052455454454C204C415449504143204E4954414C2020312E3120232020202020202020202039384531203B202020202020202020202020202020202064657070616D203B2020202020202020202038384531,
  0x574F4C454220544F44204854495720572052455454454C204C4C414D53204E4954414C2020312E3120232020202020202020202020202020202020202020202020202020202020202020202064696C6176203B2020202020202020202039384531,
  0x45564F424120544F44204854495720582052455454454C204C415449504143204E4954414C2020312E3120232020202020202020202042384531203B202020202020202020202020202020202064657070616D203B2020202020202020202041384531,
  0x45564F424120544F44204854495720582052455454454C204C4C414D53204E4954414C2020312E3120232020202020202020202020202020202020202020202020202020202020202020202064696C6176203B2020202020202020202042384531,
  0x534953455245414944204854495720582052455454454C204C415449504143204E4954414C2020312E3120232020202020202020202044384531203B202020202020202020202020202020202064657070616D203B2020202020202020202043384531,
  0x534953455245414944204854495720582052455454454C204C4C414D53204E4954414C2020312E3120232020202020202020202020202020202020202020202020202020202020202020202064696C6176203B2020202020202020202044384531,
  0x45564F424120544F44204854495720592052455454454C204C415449504143204E4954414C2020312E3120232020202020202020202046384531203B202020202020202020202020202020202064657070616D203B2020202020202020202045384531,
  0x45564F424120544F44204854495720592052455454454C204C4C414D53204E4954414C2020312E3120232020202020202020202020202020202020202020202020202020202020202020202064696C6176203B2020202020202020202046384531,
  0x58454C464D55435249432048544957205A2052455454454C204C415449504143204E4954414C2020312E3120232020202020202020202031394531203B202020202020202020202020202020202064657070616D203B2020202020202020202030394531,
  0x58454C464D55435249432048544957205A2052455454454C204C4C414D53204E4954414C2020312E3120232020202020202020202020202020202020202020202020202020202020202020202064696C6176203B2020202020202020202031394531,
  0x574F4C454220544F442048544957205A2052455454454C204C415449504143204E4954414C2020312E3120232020202020202020202033394531203B202020202020202020202020202020202064657070616D203B2020202020202020202032394531,
  0x574F4C454220544F442048544957205A2052455454454C204C4C414D53204E4954414C2020312E3120232020202020202020202020202020202020202020202020202020202020202020202064696C6176203B2020202020202020202033394531,
  0x574F4C454220454E494C2048544957205A2052455454454C204C415449504143204E4954414C2020312E3120232020202020202020202035394531203B202020202020202020202020202020202064657070616D203B2020202020202020202034394531,
  0x45564F424120474E4952204854495720592052455454454C204C4C414D53204E4954414C2E2E574F4C454220454E494C2048544957205A2052455454454C204C4C414D53204E4954414C2020312E3120232020202020202020202020202020202020202020202020202020202020202020202064696C6176203B20202020393945312E2E35394531,
  0x474E495220464C4148205448474952204854495720412052455454454C204C4C414D53204E4954414C2020312E3120232020202020454232302031363030203B202020202020202020202020202020202064657070616D203B2020202020202020202041394531,
  0x45564F424120544F442048544957205320474E4F4C2052455454454C204C4C414D53204E4954414C2020302E3220232020202020202020202031364531203B202020202020202020202020202020202064657070616D203B2020202020202020202042394531,
  0x454B4F52545320484749482048544957205320474E4F4C2052455454454C204C4C414D53204E4954414C2E2E454B4F525453204C414E4F474149442048544957205320474E4F4C2052455454454C204C4C414D53204E4954414C2020312E3520232020202020202020202020202020202020202020202020202020202020202020202064696C6176203B20202020443945312E2E43394531,
  0x532050524148532052455454454C204C415449504143204E4954414C2020312E3520232020202020333730302033373030203B202020202020202020202020202020202064657070616D203B2020202020202020202045394531,
  0x41544C45442052455454454C204C4C414D53204E4954414C2020312E3520232020202020202020202020202020202020202020202020202020202020202020202064696C6176203B2020202020202020202046394531,
  0x574F4C454220544F44204854495720412052455454454C204C415449504143204E4954414C2020312E3120232020202020202020202031414531203B202020202020202020202020202020202064657070616D203B2020202020202020202030414531,
  0x574F4C454220544F44204854495720412052455454454C204C4C414D53204E4954414C2020312E3120232020202020202020202020202020202020202020202020202020202020202020202064696C6176203B2020202020202020202031414531,
  0x45564F4241204B4F4F48204854495720412052455454454C204C415449504143204E4954414C2020312E3120232020202020202020202033414531203B202020202020202020202020202020202064657070616D203B2020202020202020202032414531,
  0x45564F4241204B4F4F48204854495720412052455454454C204C4C414D53204E4954414C2020312E3120232020202020202020202020202020202020202020202020202020202020202020202064696C6176203B2020202020202020202033414531,
  0x455455434120444E412058454C464D5543524943204854495720412052455454454C204C415449504143204E4954414C2020312E3120232020202020202020202035414531203B202020202020202020202020202020202064657070616D203B2020202020202020202034414531,
  0x455455434120444E412058454C464D5543524943204854495720412052455454454C204C4C414D53204E4954414C2020312E3120232020202020202020202020202020202020202020202020202020202020202020202064696C6176203B2020202020202020202035414531,
  0x455641524720444E412058454C464D5543524943204854495720412052455454454C204C415449504143204E4954414C2020312E3120232020202020202020202037414531203B202020202020202020202020202020202064657070616D203B2020202020202020202036414531,
  0x455641524720444E412058454C464D5543524943204854495720412052455454454C204C4C414D53204E4954414C2020312E3120232020202020202020202020202020202020202020202020202020202020202020202064696C6176203B2020202020202020202037414531,
  0x45564F4241204B4F4F4820444E412058454C464D5543524943204854495720412052455454454C204C415449504143204E4954414C2020312E3120232020202020202020202039414531203B202020202020202020202020202020202064657070616D203B2020202020202020202038414531,
  0x45564F4241204B4F4F4820444E412058454C464D5543524943204854495720412052455454454C204C4C414D53204E4954414C2020312E3120232020202020202020202020202020202020202020202020202020202020202020202064696C6176203B2020202020202020202039414531,
  0x45444C495420444E412058454C464D5543524943204854495720412052455454454C204C415449504143204E4954414C2020312E3120232020202020202020202042414531203B202020202020202020202020202020202064657070616D203B2020202020202020202041414531,
  0x45444C495420444E412058454C464D5543524943204854495720412052455454454C204C4C414D53204E4954414C2020312E3120232020202020202020202020202020202020202020202020202020202020202020202064696C6176203B2020202020202020202042414531,
  0x574F4C454220544F4420444E412058454C464D5543524943204854495720412052455454454C204C415449504143204E4954414C2020312E3120232020202020202020202044414531203B202020202020202020202020202020202064657070616D203B2020202020202020202043414531,
  0x574F4C454220544F4420444E412058454C464D5543524943204854495720412052455454454C204C4C414D53204E4954414C2020312E3120232020202020202020202020202020202020202020202020202020202020202020202064696C6176203B2020202020202020202044414531,
  0x455455434120444E41204556455242204854495720412052455454454C204C415449504143204E4954414C2020312E3120232020202020202020202046414531203B202020202020202020202020202020202064657070616D203B2020202020202020202045414531,
  0x455455434120444E41204556455242204854495720412052455454454C204C4C414D53204E4954414C2020312E3120232020202020202020202020202020202020202020202020202020202020202020202064696C6176203B2020202020202020202046414531,
  0x455641524720444E41204556455242204854495720412052455454454C204C415449504143204E4954414C2020312E3120232020202020202020202031424531203B202020202020202020202020202020202064657070616D203B2020202020202020202030424531,
  0x455641524720444E41204556455242204854495720412052455454454C204C4C414D53204E4954414C2020312E3120232020202020202020202020202020202020202020202020202020202020202020202064696C6176203B2020202020202020202031424531,
  0x45564F4241204B4F4F4820444E41204556455242204854495720412052455454454C204C415449504143204E4954414C2020312E3120232020202020202020202033424531203B202020202020202020202020202020202064657070616D203B2020202020202020202032424531,
  0x45564F4241204B4F4F4820444E41204556455242204854495720412052455454454C204C4C414D53204E4954414C2020312E3120232020202020202020202020202020202020202020202020202020202020202020202064696C6176203B2020202020202020202033424531,
  0x45444C495420444E41204556455242204854495720412052455454454C204C415449504143204E4954414C2020312E3120232020202020202020202035424531203B202020202020202020202020202020202064657070616D203B2020202020202020202034424531,
  0x45444C495420444E41204556455242204854495720412052455454454C204C4C414D53204E4954414C2020312E3120232020202020202020202020202020202020202020202020202020202020202020202064696C6176203B2020202020202020202035424531,
  0x574F4C454220544F4420444E41204556455242204854495720412052455454454C204C415449504143204E4954414C2020312E3120232020202020202020202037424531203B202020202020202020202020202020202064657070616D203B2020202020202020202036424531,
  0x574F4C454220544F4420444E41204556455242204854495720412052455454454C204C4C414D53204E4954414C2020312E3120232020202020202020202020202020202020202020202020202020202020202020202064696C6176203B2020202020202020202037424531,
  0x574F4C454220544F44204854495720452052455454454C204C415449504143204E4954414C2020312E3120232020202020202020202039424531203B202020202020202020202020202020202064657070616D203B2020202020202020202038424531,
  0x574F4C454220544F44204854495720452052455454454C204C4C414D53204E4954414C2020312E3120232020202020202020202020202020202020202020202020202020202020202020202064696C6176203B2020202020202020202039424531,
  0x45564F4241204B4F4F48204854495720452052455454454C204C415449504143204E4954414C2020312E3120232020202020202020202042424531203B202020202020202020202020202020202064657070616D203B2020202020202020202041424531,
  0x45564F4241204B4F4F48204854495720452052455454454C204C4C414D53204E4954414C2020312E3120232020202020202020202020202020202020202020202020202020202020202020202064696C6176203B2020202020202020202042424531,
  0x45444C4954204854495720452052455454454C204C415449504143204E4954414C2020312E3120232020202020202020202044424531203B202020202020202020202020202020202064657070616D203B2020202020202020202043424531,
  0x45444C4954204854495720452052455454454C204C4C414D53204E4954414C2020312E3120232020202020202020202020202020202020202020202020202020202020202020202064696C6176203B2020202020202020202044424531,
  0x455455434120444E412058454C464D5543524943204854495720452052455454454C204C415449504143204E4954414C2020312E3120232020202020202020202046424531203B202020202020202020202020202020202064657070616D203B2020202020202020202045424531,
  0x455455434120444E412058454C464D5543524943204854495720452052455454454C204C4C414D53204E4954414C2020312E3120232020202020202020202020202020202020202020202020202020202020202020202064696C6176203B2020202020202020202046424531,
  0x455641524720444E412058454C464D5543524943204854495720452052455454454C204C415449504143204E4954414C2020312E3120232020202020202020202031434531203B202020202020202020202020202020202064657070616D203B2020202020202020202030434531,
  0x455641524720444E412058454C464D5543524943204854495720452052455454454C204C4C414D53204E4954414C2020312E3120232020202020202020202020202020202020202020202020202020202020202020202064696C6176203B2020202020202020202031434531,
  0x45564F4241204B4F4F4820444E412058454C464D5543524943204854495720452052455454454C204C415449504143204E4954414C2020312E3120232020202020202020202033434531203B202020202020202020202020202020202064657070616D203B2020202020202020202032434531,
  0x45564F4241204B4F4F4820444E412058454C464D5543524943204854495720452052455454454C204C4C414D53204E4954414C2020312E3120232020202020202020202020202020202020202020202020202020202020202020202064696C6176203B2020202020202020202033434531,
  0x45444C495420444E412058454C464D5543524943204854495720452052455454454C204C415449504143204E4954414C2020312E3120232020202020202020202035434531203B202020202020202020202020202020202064657070616D203B2020202020202020202034434531,
  0x45444C495420444E412058454C464D5543524943204854495720452052455454454C204C4C414D53204E4954414C2020312E3120232020202020202020202020202020202020202020202020202020202020202020202064696C6176203B2020202020202020202035434531,
  0x574F4C454220544F4420444E412058454C464D5543524943204854495720452052455454454C204C415449504143204E4954414C2020312E3120232020202020202020202037434531203B202020202020202020202020202020202064657070616D203B2020202020202020202036434531,
  0x574F4C454220544F4420444E412058454C464D5543524943204854495720452052455454454C204C4C414D53204E4954414C2020312E3120232020202020202020202020202020202020202020202020202020202020202020202064696C6176203B2020202020202020202037434531,
  0x45564F4241204B4F4F48204854495720492052455454454C204C415449504143204E4954414C2020312E3120232020202020202020202039434531203B202020202020202020202020202020202064657070616D203B2020202020202020202038434531,
  0x45564F4241204B4F4F48204854495720492052455454454C204C4C414D53204E4954414C2020312E3120232020202020202020202020202020202020202020202020202020202020202020202064696C6176203B2020202020202020202039434531,
  0x574F4C454220544F44204854495720492052455454454C204C415449504143204E4954414C2020312E3120232020202020202020202042434531203B202020202020202020202020202020202064657070616D203B2020202020202020202041434531,
  0x574F4C454220544F44204854495720492052455454454C204C4C414D53204E4954414C2020312E3120232020202020202020202020202020202020202020202020202020202020202020202064696C6176203B2020202020202020202042434531,
  0x574F4C454220544F442048544957204F2052455454454C204C415449504143204E4954414C2020312E3120232020202020202020202044434531203B202020202020202020202020202020202064657070616D203B2020202020202020202043434531,
  0x574F4C454220544F442048544957204F2052455454454C204C4C414D53204E4954414C2020312E3120232020202020202020202020202020202020202020202020202020202020202020202064696C6176203B2020202020202020202044434531,
  0x45564F4241204B4F4F482048544957204F2052455454454C204C415449504143204E4954414C2020312E3120232020202020202020202046434531203B202020202020202020202020202020202064657070616D203B2020202020202020202045434531,
  0x45564F4241204B4F4F482048544957204F2052455454454C204C4C414D53204E4954414C2020312E3120232020202020202020202020202020202020202020202020202020202020202020202064696C6176203B2020202020202020202046434531,
  0x455455434120444E412058454C464D55435249432048544957204F2052455454454C204C415449504143204E4954414C2020312E3120232020202020202020202031444531203B202020202020202020202020202020202064657070616D203B2020202020202020202030444531,
  0x455455434120444E412058454C464D55435249432048544957204F2052455454454C204C4C414D53204E4954414C2020312E3120232020202020202020202020202020202020202020202020202020202020202020202064696C6176203B2020202020202020202031444531,
  0x455641524720444E412058454C464D55435249432048544957204F2052455454454C204C415449504143204E4954414C2020312E3120232020202020202020202033444531203B202020202020202020202020202020202064657070616D203B2020202020202020202032444531,
  0x455641524720444E412058454C464D55435249432048544957204F2052455454454C204C4C414D53204E4954414C2020312E3120232020202020202020202020202020202020202020202020202020202020202020202064696C6176203B2020202020202020202033444531,
  0x45564F4241204B4F4F4820444E412058454C464D55435249432048544957204F2052455454454C204C415449504143204E4954414C2020312E3120232020202020202020202035444531203B202020202020202020202020202020202064657070616D203B2020202020202020202034444531,
  0x45564F4241204B4F4F4820444E412058454C464D55435249432048544957204F2052455454454C204C4C414D53204E4954414C2020312E3120232020202020202020202020202020202020202020202020202020202020202020202064696C6176203B2020202020202020202035444531,
  0x45444C495420444E412058454C464D55435249432048544957204F2052455454454C204C415449504143204E4954414C2020312E3120232020202020202020202037444531203B202020202020202020202020202020202064657070616D203B2020202020202020202036444531,
  0x45444C495420444E412058454C464D55435249432048544957204F2052455454454C204C4C414D53204E4954414C2020312E3120232020202020202020202020202020202020202020202020202020202020202020202064696C6176203B2020202020202020202037444531,
  0x574F4C454220544F4420444E412058454C464D55435249432048544957204F2052455454454C204C415449504143204E4954414C2020312E3120232020202020202020202039444531203B202020202020202020202020202020202064657070616D203B2020202020202020202038444531,
  0x574F4C454220544F4420444E412058454C464D55435249432048544957204F2052455454454C204C4C414D53204E4954414C2020312E3120232020202020202020202020202020202020202020202020202020202020202020202064696C6176203B2020202020202020202039444531,
  0x455455434120444E41204E524F482048544957204F2052455454454C204C415449504143204E4954414C2020312E3120232020202020202020202042444531203B202020202020202020202020202020202064657070616D203B2020202020202020202041444531,
  0x455455434120444E41204E524F482048544957204F2052455454454C204C4C414D53204E4954414C2020312E3120232020202020202020202020202020202020202020202020202020202020202020202064696C6176203B2020202020202020202042444531,
  0x455641524720444E41204E524F482048544957204F2052455454454C204C415449504143204E4954414C2020312E3120232020202020202020202044444531203B202020202020202020202020202020202064657070616D203B2020202020202020202043444531,
  0x455641524720444E41204E524F482048544957204F2052455454454C204C4C414D53204E4954414C2020312E3120232020202020202020202020202020202020202020202020202020202020202020202064696C6176203B2020202020202020202044444531,
  0x45564F4241204B4F4F4820444E41204E524F482048544957204F2052455454454C204C415449504143204E4954414C2020312E3120232020202020202020202046444531203B202020202020202020202020202020202064657070616D203B2020202020202020202045444531,
  0x45564F4241204B4F4F4820444E41204E524F482048544957204F2052455454454C204C4C414D53204E4954414C2020312E3120232020202020202020202020202020202020202020202020202020202020202020202064696C6176203B2020202020202020202046444531,
  0x45444C495420444E41204E524F482048544957204F2052455454454C204C415449504143204E4954414C2020312E3120232020202020202020202031454531203B202020202020202020202020202020202064657070616D203B2020202020202020202030454531,
  0x45444C495420444E41204E524F482048544957204F2052455454454C204C4C414D53204E4954414C2020312E3120232020202020202020202020202020202020202020202020202020202020202020202064696C6176203B2020202020202020202031454531,
  0x574F4C454220544F4420444E41204E524F482048544957204F2052455454454C204C415449504143204E4954414C2020312E3120232020202020202020202033454531203B202020202020202020202020202020202064657070616D203B2020202020202020202032454531,
  0x574F4C454220544F4420444E41204E524F482048544957204F2052455454454C204C4C414D53204E4954414C2020312E3120232020202020202020202020202020202020202020202020202020202020202020202064696C6176203B2020202020202020202033454531,
  0x574F4C454220544F44204854495720552052455454454C204C415449504143204E4954414C2020312E3120232020202020202020202035454531203B202020202020202020202020202020202064657070616D203B2020202020202020202034454531,
  0x574F4C454220544F44204854495720552052455454454C204C4C414D53204E4954414C2020312E3120232020202020202020202020202020202020202020202020202020202020202020202064696C6176203B2020202020202020202035454531,
  0x45564F4241204B4F4F48204854495720552052455454454C204C415449504143204E4954414C2020312E3120232020202020202020202037454531203B202020202020202020202020202020202064657070616D203B2020202020202020202036454531,
  0x45564F4241204B4F4F48204854495720552052455454454C204C4C414D53204E4954414C2020312E3120232020202020202020202020202020202020202020202020202020202020202020202064696C6176203B2020202020202020202037454531,
  0x455455434120444E41204E524F48204854495720552052455454454C204C415449504143204E4954414C2020312E3120232020202020202020202039454531203B202020202020202020202020202020202064657070616D203B2020202020202020202038454531,
  0x455455434120444E41204E524F48204854495720552052455454454C204C4C414D53204E4954414C2020312E3120232020202020202020202020202020202020202020202020202020202020202020202064696C6176203B2020202020202020202039454531,
  0x455641524720444E41204E524F48204854495720552052455454454C204C415449504143204E4954414C2020312E3120232020202020202020202042454531203B202020202020202020202020202020202064657070616D203B2020202020202020202041454531,
  0x455641524720444E41204E524F48204854495720552052455454454C204C4C414D53204E4954414C2020312E3120232020202020202020202020202020202020202020202020202020202020202020202064696C6176203B2020202020202020202042454531,
  0x45564F4241204B4F4F4820444E41204E524F48204854495720552052455454454C204C415449504143204E4954414C2020312E3120232020202020202020202044454531203B202020202020202020202020202020202064657070616D203B2020202020202020202043454531,
  0x45564F4241204B4F4F4820444E41204E524F48204854495720552052455454454C204C4C414D53204E4954414C2020312E3120232020202020202020202020202020202020202020202020202020202020202020202064696C6176203B2020202020202020202044454531,
  0x45444C495420444E41204E524F48204854495720552052455454454C204C415449504143204E4954414C2020312E3120232020202020202020202046454531203B202020202020202020202020202020202064657070616D203B2020202020202020202045454531,
  0x45444C495420444E41204E524F48204854495720552052455454454C204C4C414D53204E4954414C2020312E3120232020202020202020202020202020202020202020202020202020202020202020202064696C6176203B2020202020202020202046454531,
  0x574F4C454220544F4420444E41204E524F48204854495720552052455454454C204C415449504143204E4954414C2020312E3120232020202020202020202031464531203B202020202020202020202020202020202064657070616D203B2020202020202020202030464531,
  0x574F4C454220544F4420444E41204E524F48204854495720552052455454454C204C4C414D53204E4954414C2020312E3120232020202020202020202020202020202020202020202020202020202020202020202064696C6176203B2020202020202020202031464531,
  0x4556415247204854495720592052455454454C204C415449504143204E4954414C2020312E3120232020202020202020202033464531203B202020202020202020202020202020202064657070616D203B2020202020202020202032464531,
  0x4556415247204854495720592052455454454C204C4C414D53204E4954414C2020312E3120232020202020202020202020202020202020202020202020202020202020202020202064696C6176203B2020202020202020202033464531,
  0x574F4C454220544F44204854495720592052455454454C204C415449504143204E4954414C2020312E3120232020202020202020202035464531203B202020202020202020202020202020202064657070616D203B2020202020202020202034464531,
  0x574F4C454220544F44204854495720592052455454454C204C4C414D53204E4954414C2020312E3120232020202020202020202020202020202020202020202020202020202020202020202064696C6176203B2020202020202020202035464531,
  0x45564F4241204B4F4F48204854495720592052455454454C204C415449504143204E4954414C2020312E3120232020202020202020202037464531203B202020202020202020202020202020202064657070616D203B2020202020202020202036464531,
  0x45564F4241204B4F4F48204854495720592052455454454C204C4C414D53204E4954414C2020312E3120232020202020202020202020202020202020202020202020202020202020202020202064696C6176203B2020202020202020202037464531,
  0x45444C4954204854495720592052455454454C204C415449504143204E4954414C2020312E3120232020202020202020202039464531203B202020202020202020202020202020202064657070616D203B2020202020202020202038464531,
  0x45444C4954204854495720592052455454454C204C4C414D53204E4954414C2020312E3120232020202020202020202020202020202020202020202020202020202020202020202064696C6176203B2020202020202020202039464531,
  0x4C4C2048534C45572D454C4444494D2052455454454C204C415449504143204E4954414C2020312E3520232020202020202020202042464531203B202020202020202020202020202020202064657070616D203B2020202020202020202041464531,
  0x4C4C2048534C45572D454C4444494D2052455454454C204C4C414D53204E4954414C2020312E3520232020202020202020202020202020202020202020202020202020202020202020202064696C6176203B2020202020202020202042464531,
  0x562048534C45572D454C4444494D2052455454454C204C415449504143204E4954414C2020312E3520232020202020202020202044464531203B202020202020202020202020202020202064657070616D203B2020202020202020202043464531,
  0x562048534C45572D454C4444494D2052455454454C204C4C414D53204E4954414C2020312E3520232020202020202020202020202020202020202020202020202020202020202020202064696C6176203B2020202020202020202044464531,
  0x504F4F4C204854495720592052455454454C204C415449504143204E4954414C2020312E3520232020202020202020202046464531203B202020202020202020202020202020202064657070616D203B2020202020202020202045464531,
  0x504F4F4C204854495720592052455454454C204C4C414D53204E4954414C2020312E3520232020202020202020202020202020202020202020202020202020202020202020202064696C6176203B2020202020202020202046464531,
  0x494E454D4F50534952455020444E412041495341442048544957204148504C412052455454454C204C4C414D53204B454552472E2E494C4953502048544957204148504C412052455454454C204C4C414D53204B454552472020312E3120232020202020202020202020202020202020202020202020202020202020202020202064696C6176203B20202020373046312E2E30304631,
  0x494C4953502048544957204148504C412052455454454C204C415449504143204B454552472020312E3120232020202020202020202030304631203B202020202020202020202020202020202064657070616D203B2020202020202020202038304631,
  0x41495341442048544957204148504C412052455454454C204C415449504143204B454552472020312E3120232020202020202020202031304631203B202020202020202020202020202020202064657070616D203B2020202020202020202039304631,
  0x414952415620444E4120494C4953502048544957204148504C412052455454454C204C415449504143204B454552472020312E3120232020202020202020202032304631203B202020202020202020202020202020202064657070616D203B2020202020202020202041304631,
  0x414952415620444E412041495341442048544957204148504C412052455454454C204C415449504143204B454552472020312E3120232020202020202020202033304631203B202020202020202020202020202020202064657070616D203B2020202020202020202042304631,
  0x4149584F20444E4120494C4953502048544957204148504C412052455454454C204C415449504143204B454552472020312E3120232020202020202020202034304631203B202020202020202020202020202020202064657070616D203B2020202020202020202043304631,
  0x4149584F20444E412041495341442048544957204148504C412052455454454C204C415449504143204B454552472020312E3120232020202020202020202035304631203B202020202020202020202020202020202064657070616D203B2020202020202020202044304631,
  0x494E454D4F50534952455020444E4120494C4953502048544957204148504C412052455454454C204C415449504143204B454552472020312E3120232020202020202020202036304631203B202020202020202020202020202020202064657070616D203B2020202020202020202045304631,
  0x494E454D4F50534952455020444E412041495341442048544957204148504C412052455454454C204C415449504143204B454552472020312E3120232020202020202020202037304631203B202020202020202020202020202020202064657070616D203B2020202020202020202046304631,
  0x4149584F20444E412041495341442048544957204E4F4C495350452052455454454C204C4C414D53204B454552472E2E494C4953502048544957204E4F4C495350452052455454454C204C4C414D53204B454552472020312E3120232020202020202020202020202020202020202020202020202020202020202020202064696C6176203B20202020353146312E2E30314631,
  0x3E373146312D64657672657365723C2E2E3E363146312D64657672657365723C202020414E202320202020202020202020202020202020202020202020202020202020206465776F6C6C61736964203B20202020373146312E2E36314631,
  0x494C4953502048544957204E4F4C495350452052455454454C204C415449504143204B454552472020312E3120232020202020202020202030314631203B202020202020202020202020202020202064657070616D203B2020202020202020202038314631,
  0x41495341442048544957204E4F4C495350452052455454454C204C415449504143204B454552472020312E3120232020202020202020202031314631203B202020202020202020202020202020202064657070616D203B2020202020202020202039314631,
  0x414952415620444E4120494C4953502048544957204E4F4C495350452052455454454C204C415449504143204B454552472020312E3120232020202020202020202032314631203B202020202020202020202020202020202064657070616D203B2020202020202020202041314631,
  0x414952415620444E412041495341442048544957204E4F4C495350452052455454454C204C415449504143204B454552472020312E3120232020202020202020202033314631203B202020202020202020202020202020202064657070616D203B2020202020202020202042314631,
  0x4149584F20444E4120494C4953502048544957204E4F4C495350452052455454454C204C415449504143204B454552472020312E3120232020202020202020202034314631203B202020202020202020202020202020202064657070616D203B2020202020202020202043314631,
  0x4149584F20444E412041495341442048544957204E4F4C495350452052455454454C204C415449504143204B454552472020312E3120232020202020202020202035314631203B202020202020202020202020202020202064657070616D203B2020202020202020202044314631,
  0x3E463146312D64657672657365723C2E2E3E453146312D64657672657365723C202020414E202320202020202020202020202020202020202020202020202020202020206465776F6C6C61736964203B20202020463146312E2E45314631,
  0x494E454D4F50534952455020444E412041495341442048544957204154452052455454454C204C4C414D53204B454552472E2E494C4953502048544957204154452052455454454C204C4C414D53204B454552472020312E3120232020202020202020202020202020202020202020202020202020202020202020202064696C6176203B20202020373246312E2E30324631,
  0x494C4953502048544957204154452052455454454C204C415449504143204B454552472020312E3120232020202020202020202030324631203B202020202020202020202020202020202064657070616D203B2020202020202020202038324631,
  0x41495341442048544957204154452052455454454C204C415449504143204B454552472020312E3120232020202020202020202031324631203B202020202020202020202020202020202064657070616D203B2020202020202020202039324631,
  0x414952415620444E4120494C4953502048544957204154452052455454454C204C415449504143204B454552472020312E3120232020202020202020202032324631203B202020202020202020202020202020202064657070616D203B2020202020202020202041324631,
  0x414952415620444E412041495341442048544957204154452052455454454C204C415449504143204B454552472020312E3120232020202020202020202033324631203B202020202020202020202020202020202064657070616D203B2020202020202020202042324631,
  0x4149584F20444E4120494C4953502048544957204154452052455454454C204C415449504143204B454552472020312E3120232020202020202020202034324631203B202020202020202020202020202020202064657070616D203B2020202020202020202043324631,
  0x4149584F20444E412041495341442048544957204154452052455454454C204C415449504143204B454552472020312E3120232020202020202020202035324631203B202020202020202020202020202020202064657070616D203B2020202020202020202044324631,
  0x494E454D4F50534952455020444E4120494C4953502048544957204154452052455454454C204C415449504143204B454552472020312E3120232020202020202020202036324631203B202020202020202020202020202020202064657070616D203B2020202020202020202045324631,
  0x494E454D4F50534952455020444E412041495341442048544957204154452052455454454C204C415449504143204B454552472020312E3120232020202020202020202037324631203B202020202020202020202020202020202064657070616D203B2020202020202020202046324631,
  0x494E454D4F50534952455020444E4120414953414420485449572041544F492052455454454C204C4C414D53204B454552472E2E494C49535020485449572041544F492052455454454C204C4C414D53204B454552472020312E3120232020202020202020202020202020202020202020202020202020202020202020202064696C6176203B20202020373346312E2E30334631,
  0x494C49535020485449572041544F492052455454454C204C415449504143204B454552472020312E3120232020202020202020202030334631203B202020202020202020202020202020202064657070616D203B2020202020202020202038334631,
  0x414953414420485449572041544F492052455454454C204C415449504143204B454552472020312E3120232020202020202020202031334631203B202020202020202020202020202020202064657070616D203B2020202020202020202039334631,
  0x414952415620444E4120494C49535020485449572041544F492052455454454C204C415449504143204B454552472020312E3120232020202020202020202032334631203B202020202020202020202020202020202064657070616D203B2020202020202020202041334631,
  0x414952415620444E4120414953414420485449572041544F492052455454454C204C415449504143204B454552472020312E3120232020202020202020202033334631203B202020202020202020202020202020202064657070616D203B2020202020202020202042334631,
  0x4149584F20444E4120494C49535020485449572041544F492052455454454C204C415449504143204B454552472020312E3120232020202020202020202034334631203B202020202020202020202020202020202064657070616D203B2020202020202020202043334631,
  0x4149584F20444E4120414953414420485449572041544F492052455454454C204C415449504143204B454552472020312E3120232020202020202020202035334631203B202020202020202020202020202020202064657070616D203B2020202020202020202044334631,
  0x494E454D4F50534952455020444E4120494C49535020485449572041544F492052455454454C204C415449504143204B454552472020312E3120232020202020202020202036334631203B202020202020202020202020202020202064657070616D203B2020202020202020202045334631,
  0x494E454D4F50534952455020444E4120414953414420485449572041544F492052455454454C204C415449504143204B454552472020312E3120232020202020202020202037334631203B202020202020202020202020202020202064657070616D203B2020202020202020202046334631,
  0x4149584F20444E412041495341442048544957204E4F5243494D4F2052455454454C204C4C414D53204B454552472E2E494C4953502048544957204E4F5243494D4F2052455454454C204C4C414D53204B454552472020312E3120232020202020202020202020202020202020202020202020202020202020202020202064696C6176203B20202020353446312E2E30344631,
  0x3E373446312D64657672657365723C2E2E3E363446312D64657672657365723C202020414E202320202020202020202020202020202020202020202020202020202020206465776F6C6C61736964203B20202020373446312E2E36344631,
  0x494C4953502048544957204E4F5243494D4F2052455454454C204C415449504143204B454552472020312E3120232020202020202020202030344631203B202020202020202020202020202020202064657070616D203B2020202020202020202038344631,
  0x41495341442048544957204E4F5243494D4F2052455454454C204C415449504143204B454552472020312E3120232020202020202020202031344631203B202020202020202020202020202020202064657070616D203B2020202020202020202039344631,
  0x414952415620444E4120494C4953502048544957204E4F5243494D4F2052455454454C204C415449504143204B454552472020312E3120232020202020202020202032344631203B202020202020202020202020202020202064657070616D203B2020202020202020202041344631,
  0x414952415620444E412041495341442048544957204E4F5243494D4F2052455454454C204C415449504143204B454552472020312E3120232020202020202020202033344631203B202020202020202020202020202020202064657070616D203B2020202020202020202042344631,
  0x4149584F20444E4120494C4953502048544957204E4F5243494D4F2052455454454C204C415449504143204B454552472020312E3120232020202020202020202034344631203B202020202020202020202020202020202064657070616D203B2020202020202020202043344631,
  0x4149584F20444E412041495341442048544957204E4F5243494D4F2052455454454C204C415449504143204B454552472020312E3120232020202020202020202035344631203B202020202020202020202020202020202064657070616D203B2020202020202020202044344631,
  0x3E463446312D64657672657365723C2E2E3E453446312D64657672657365723C202020414E202320202020202020202020202020202020202020202020202020202020206465776F6C6C61736964203B20202020463446312E2E45344631,
  0x494E454D4F50534952455020444E412041495341442048544957204E4F4C495350552052455454454C204C4C414D53204B454552472E2E494C4953502048544957204E4F4C495350552052455454454C204C4C414D53204B454552472020312E3120232020202020202020202020202020202020202020202020202020202020202020202064696C6176203B20202020373546312E2E30354631,
  0x3E383546312D64657672657365723C202020414E202320202020202020202020202020202020202020202020202020202020206465776F6C6C61736964203B2020202020202020202038354631,
  0x41495341442048544957204E4F4C495350552052455454454C204C415449504143204B454552472020312E3120232020202020202020202031354631203B202020202020202020202020202020202064657070616D203B2020202020202020202039354631,
  0x3E413546312D64657672657365723C202020414E202320202020202020202020202020202020202020202020202020202020206465776F6C6C61736964203B2020202020202020202041354631,
  0x414952415620444E412041495341442048544957204E4F4C495350552052455454454C204C415449504143204B454552472020312E3120232020202020202020202033354631203B202020202020202020202020202020202064657070616D203B2020202020202020202042354631,
  0x3E433546312D64657672657365723C202020414E202320202020202020202020202020202020202020202020202020202020206465776F6C6C61736964203B2020202020202020202043354631,
  0x4149584F20444E412041495341442048544957204E4F4C495350552052455454454C204C415449504143204B454552472020312E3120232020202020202020202035354631203B202020202020202020202020202020202064657070616D203B2020202020202020202044354631,
  0x3E453546312D64657672657365723C202020414E202320202020202020202020202020202020202020202020202020202020206465776F6C6C61736964203B2020202020202020202045354631,
  0x494E454D4F50534952455020444E412041495341442048544957204E4F4C495350552052455454454C204C415449504143204B454552472020312E3120232020202020202020202037354631203B202020202020202020202020202020202064657070616D203B2020202020202020202046354631,
  0x494E454D4F50534952455020444E412041495341442048544957204147454D4F2052455454454C204C4C414D53204B454552472E2E494C4953502048544957204147454D4F2052455454454C204C4C414D53204B454552472020312E3120232020202020202020202020202020202020202020202020202020202020202020202064696C6176203B20202020373646312E2E30364631,
  0x494C4953502048544957204147454D4F2052455454454C204C415449504143204B454552472020312E3120232020202020202020202030364631203B202020202020202020202020202020202064657070616D203B2020202020202020202038364631,
  0x41495341442048544957204147454D4F2052455454454C204C415449504143204B454552472020312E3120232020202020202020202031364631203B202020202020202020202020202020202064657070616D203B2020202020202020202039364631,
  0x414952415620444E4120494C4953502048544957204147454D4F2052455454454C204C415449504143204B454552472020312E3120232020202020202020202032364631203B202020202020202020202020202020202064657070616D203B2020202020202020202041364631,
  0x414952415620444E412041495341442048544957204147454D4F2052455454454C204C415449504143204B454552472020312E3120232020202020202020202033364631203B202020202020202020202020202020202064657070616D203B2020202020202020202042364631,
  0x4149584F20444E4120494C4953502048544957204147454D4F2052455454454C204C415449504143204B454552472020312E3120232020202020202020202034364631203B202020202020202020202020202020202064657070616D203B2020202020202020202043364631,
  0x4149584F20444E412041495341442048544957204147454D4F2052455454454C204C415449504143204B454552472020312E3120232020202020202020202035364631203B202020202020202020202020202020202064657070616D203B2020202020202020202044364631,
  0x494E454D4F50534952455020444E4120494C4953502048544957204147454D4F2052455454454C204C415449504143204B454552472020312E3120232020202020202020202036364631203B202020202020202020202020202020202064657070616D203B2020202020202020202045364631,
  0x494E454D4F50534952455020444E412041495341442048544957204147454D4F2052455454454C204C415449504143204B454552472020312E3120232020202020202020202037364631203B202020202020202020202020202020202064657070616D203B2020202020202020202046364631,
  0x41495241562048544957204148504C412052455454454C204C4C414D53204B454552472020312E3120232020202020202020202020202020202020202020202020202020202020202020202064696C6176203B2020202020202020202030374631,
  0x4149584F2048544957204148504C412052455454454C204C4C414D53204B454552472020312E3120232020202020202020202043413330203B202020202020202020202020202020202064657070616D203B2020202020202020202031374631,
  0x41495241562048544957204E4F4C495350452052455454454C204C4C414D53204B454552472020312E3120232020202020202020202020202020202020202020202020202020202020202020202064696C6176203B2020202020202020202032374631,
  0x4149584F2048544957204E4F4C495350452052455454454C204C4C414D53204B454552472020312E3120232020202020202020202044413330203B202020202020202020202020202020202064657070616D203B2020202020202020202033374631,
  0x41495241562048544957204154452052455454454C204C4C414D53204B454552472020312E3120232020202020202020202020202020202020202020202020202020202020202020202064696C6176203B2020202020202020202034374631,
  0x4149584F2048544957204154452052455454454C204C4C414D53204B454552472020312E3120232020202020202020202045413330203B202020202020202020202020202020202064657070616D203B2020202020202020202035374631,
  0x414952415620485449572041544F492052455454454C204C4C414D53204B454552472020312E3120232020202020202020202020202020202020202020202020202020202020202020202064696C6176203B2020202020202020202036374631,
  0x4149584F20485449572041544F492052455454454C204C4C414D53204B454552472020312E3120232020202020202020202046413330203B202020202020202020202020202020202064657070616D203B2020202020202020202037374631,
  0x41495241562048544957204E4F5243494D4F2052455454454C204C4C414D53204B454552472020312E3120232020202020202020202020202020202020202020202020202020202020202020202064696C6176203B2020202020202020202038374631,
  0x4149584F2048544957204E4F5243494D4F2052455454454C204C4C414D53204B454552472020312E3120232020202020202020202043433330203B202020202020202020202020202020202064657070616D203B2020202020202020202039374631,
  0x41495241562048544957204E4F4C495350552052455454454C204C4C414D53204B454552472020312E3120232020202020202020202020202020202020202020202020202020202020202020202064696C6176203B2020202020202020202041374631,
  0x4149584F2048544957204E4F4C495350552052455454454C204C4C414D53204B454552472020312E3120232020202020202020202044433330203B202020202020202020202020202020202064657070616D203B2020202020202020202042374631,
  0x41495241562048544957204147454D4F2052455454454C204C4C414D53204B454552472020312E3120232020202020202020202020202020202020202020202020202020202020202020202064696C6176203B2020202020202020202043374631,
  0x4149584F2048544957204147454D4F2052455454454C204C4C414D53204B454552472020312E3120232020202020202020202045433330203B202020202020202020202020202020202064657070616D203B2020202020202020202044374631,
  0x3E463746312D64657672657365723C2E2E3E453746312D64657672657365723C202020414E202320202020202020202020202020202020202020202020202020202020206465776F6C6C61736964203B20202020463746312E2E45374631,
  0x494E454D4D41524745474F505920444E4120494C4953502048544957204148504C412052455454454C204C4C414D53204B454552472020312E3120232020202020394233302030304631203B202020202020202020202020202020202064657070616D203B2020202020202020202030384631,
  0x494E454D4D41524745474F505920444E412041495341442048544957204148504C412052455454454C204C4C414D53204B454552472020312E3120232020202020394233302031304631203B202020202020202020202020202020202064657070616D203B2020202020202020202031384631,
  0x494E454D4D41524745474F505920444E4120414952415620444E4120494C4953502048544957204148504C412052455454454C204C4C414D53204B454552472020312E3120232020202020394233302032304631203B202020202020202020202020202020202064657070616D203B2020202020202020202032384631,
  0x494E454D4D41524745474F505920444E4120414952415620444E412041495341442048544957204148504C412052455454454C204C4C414D53204B454552472020312E3120232020202020394233302033304631203B202020202020202020202020202020202064657070616D203B2020202020202020202033384631,
  0x494E454D4D41524745474F505920444E41204149584F20444E4120494C4953502048544957204148504C412052455454454C204C4C414D53204B454552472020312E3120232020202020394233302034304631203B202020202020202020202020202020202064657070616D203B2020202020202020202034384631,
  0x494E454D4D41524745474F505920444E41204149584F20444E412041495341442048544957204148504C412052455454454C204C4C414D53204B454552472020312E3120232020202020394233302035304631203B202020202020202020202020202020202064657070616D203B2020202020202020202035384631,
  0x494E454D4D41524745474F505920444E4120494E454D4F50534952455020444E4120494C4953502048544957204148504C412052455454454C204C4C414D53204B454552472020312E3120232020202020394233302036304631203B202020202020202020202020202020202064657070616D203B2020202020202020202036384631,
  0x494E454D4D41524745474F505920444E4120494E454D4F50534952455020444E412041495341442048544957204148504C412052455454454C204C4C414D53204B454552472020312E3120232020202020394233302037304631203B202020202020202020202020202020202064657070616D203B2020202020202020202037384631,
  0x494E454D4D4152474547534F525020444E4120494C4953502048544957204148504C412052455454454C204C415449504143204B454552472020312E3120232020202020394233302030304631203B202020202020202020202020202020202064657070616D203B2020202020202020202038384631,
  0x494E454D4D4152474547534F525020444E412041495341442048544957204148504C412052455454454C204C415449504143204B454552472020312E3120232020202020394233302031304631203B202020202020202020202020202020202064657070616D203B2020202020202020202039384631,
  0x494E454D4D4152474547534F525020444E4120414952415620444E4120494C4953502048544957204148504C412052455454454C204C415449504143204B454552472020312E3120232020202020394233302032304631203B202020202020202020202020202020202064657070616D203B2020202020202020202041384631,
  0x494E454D4D4152474547534F525020444E4120414952415620444E412041495341442048544957204148504C412052455454454C204C415449504143204B454552472020312E3120232020202020394233302033304631203B202020202020202020202020202020202064657070616D203B2020202020202020202042384631,
  0x494E454D4D4152474547534F525020444E41204149584F20444E4120494C4953502048544957204148504C412052455454454C204C415449504143204B454552472020312E3120232020202020394233302034304631203B202020202020202020202020202020202064657070616D203B2020202020202020202043384631,
  0x494E454D4D4152474547534F525020444E41204149584F20444E412041495341442048544957204148504C412052455454454C204C415449504143204B454552472020312E3120232020202020394233302035304631203B202020202020202020202020202020202064657070616D203B2020202020202020202044384631,
  0x494E454D4D4152474547534F525020444E4120494E454D4F50534952455020444E4120494C4953502048544957204148504C412052455454454C204C415449504143204B454552472020312E3120232020202020394233302036304631203B202020202020202020202020202020202064657070616D203B2020202020202020202045384631,
  0x494E454D4D4152474547534F525020444E4120494E454D4F50534952455020444E412041495341442048544957204148504C412052455454454C204C415449504143204B454552472020312E3120232020202020394233302037304631203B202020202020202020202020202020202064657070616D203B2020202020202020202046384631,
  0x494E454D4D41524745474F505920444E4120494C4953502048544957204154452052455454454C204C4C414D53204B454552472020312E3120232020202020394233302030324631203B202020202020202020202020202020202064657070616D203B2020202020202020202030394631,
  0x494E454D4D41524745474F505920444E412041495341442048544957204154452052455454454C204C4C414D53204B454552472020312E3120232020202020394233302031324631203B202020202020202020202020202020202064657070616D203B2020202020202020202031394631,
  0x494E454D4D41524745474F505920444E4120414952415620444E4120494C4953502048544957204154452052455454454C204C4C414D53204B454552472020312E3120232020202020394233302032324631203B202020202020202020202020202020202064657070616D203B2020202020202020202032394631,
  0x494E454D4D41524745474F505920444E4120414952415620444E412041495341442048544957204154452052455454454C204C4C414D53204B454552472020312E3120232020202020394233302033324631203B202020202020202020202020202020202064657070616D203B2020202020202020202033394631,
  0x494E454D4D41524745474F505920444E41204149584F20444E4120494C4953502048544957204154452052455454454C204C4C414D53204B454552472020312E3120232020202020394233302034324631203B202020202020202020202020202020202064657070616D203B2020202020202020202034394631,
  0x494E454D4D41524745474F505920444E41204149584F20444E412041495341442048544957204154452052455454454C204C4C414D53204B454552472020312E3120232020202020394233302035324631203B202020202020202020202020202020202064657070616D203B2020202020202020202035394631,
  0x494E454D4D41524745474F505920444E4120494E454D4F50534952455020444E4120494C4953502048544957204154452052455454454C204C4C414D53204B454552472020312E3120232020202020394233302036324631203B202020202020202020202020202020202064657070616D203B2020202020202020202036394631,
  0x494E454D4D41524745474F505920444E4120494E454D4F50534952455020444E412041495341442048544957204154452052455454454C204C4C414D53204B454552472020312E3120232020202020394233302037324631203B202020202020202020202020202020202064657070616D203B2020202020202020202037394631,
  0x494E454D4D4152474547534F525020444E4120494C4953502048544957204154452052455454454C204C415449504143204B454552472020312E3120232020202020394233302030324631203B202020202020202020202020202020202064657070616D203B2020202020202020202038394631,
  0x494E454D4D4152474547534F525020444E412041495341442048544957204154452052455454454C204C415449504143204B454552472020312E3120232020202020394233302031324631203B202020202020202020202020202020202064657070616D203B2020202020202020202039394631,
  0x494E454D4D4152474547534F525020444E4120414952415620444E4120494C4953502048544957204154452052455454454C204C415449504143204B454552472020312E3120232020202020394233302032324631203B202020202020202020202020202020202064657070616D203B2020202020202020202041394631,
  0x494E454D4D4152474547534F525020444E4120414952415620444E412041495341442048544957204154452052455454454C204C415449504143204B454552472020312E3120232020202020394233302033324631203B202020202020202020202020202020202064657070616D203B2020202020202020202042394631,
  0x494E454D4D4152474547534F525020444E41204149584F20444E4120494C4953502048544957204154452052455454454C204C415449504143204B454552472020312E3120232020202020394233302034324631203B202020202020202020202020202020202064657070616D203B2020202020202020202043394631,
  0x494E454D4D4152474547534F525020444E41204149584F20444E412041495341442048544957204154452052455454454C204C415449504143204B454552472020312E3120232020202020394233302035324631203B202020202020202020202020202020202064657070616D203B2020202020202020202044394631,
  0x494E454D4D4152474547534F525020444E4120494E454D4F50534952455020444E4120494C4953502048544957204154452052455454454C204C415449504143204B454552472020312E3120232020202020394233302036324631203B202020202020202020202020202020202064657070616D203B2020202020202020202045394631,
  0x494E454D4D4152474547534F525020444E4120494E454D4F50534952455020444E412041495341442048544957204154452052455454454C204C415449504143204B454552472020312E3120232020202020394233302037324631203B202020202020202020202020202020202064657070616D203B2020202020202020202046394631,
  0x494E454D4D41524745474F505920444E4120494C4953502048544957204147454D4F2052455454454C204C4C414D53204B454552472020312E3120232020202020394233302030364631203B202020202020202020202020202020202064657070616D203B2020202020202020202030414631,
  0x494E454D4D41524745474F505920444E412041495341442048544957204147454D4F2052455454454C204C4C414D53204B454552472020312E3120232020202020394233302031364631203B202020202020202020202020202020202064657070616D203B2020202020202020202031414631,
  0x494E454D4D41524745474F505920444E4120414952415620444E4120494C4953502048544957204147454D4F2052455454454C204C4C414D53204B454552472020312E3120232020202020394233302032364631203B202020202020202020202020202020202064657070616D203B2020202020202020202032414631,
  0x494E454D4D41524745474F505920444E4120414952415620444E412041495341442048544957204147454D4F2052455454454C204C4C414D53204B454552472020312E3120232020202020394233302033364631203B202020202020202020202020202020202064657070616D203B2020202020202020202033414631,
  0x494E454D4D41524745474F505920444E41204149584F20444E4120494C4953502048544957204147454D4F2052455454454C204C4C414D53204B454552472020312E3120232020202020394233302034364631203B202020202020202020202020202020202064657070616D203B2020202020202020202034414631,
  0x494E454D4D41524745474F505920444E41204149584F20444E412041495341442048544957204147454D4F2052455454454C204C4C414D53204B454552472020312E3120232020202020394233302035364631203B202020202020202020202020202020202064657070616D203B2020202020202020202035414631,
  0x494E454D4D41524745474F505920444E4120494E454D4F50534952455020444E4120494C4953502048544957204147454D4F2052455454454C204C4C414D53204B454552472020312E3120232020202020394233302036364631203B202020202020202020202020202020202064657070616D203B2020202020202020202036414631,
  0x494E454D4D41524745474F505920444E4120494E454D4F50534952455020444E412041495341442048544957204147454D4F2052455454454C204C4C414D53204B454552472020312E3120232020202020394233302037364631203B202020202020202020202020202020202064657070616D203B2020202020202020202037414631,
  0x494E454D4D4152474547534F525020444E4120494C4953502048544957204147454D4F2052455454454C204C415449504143204B454552472020312E3120232020202020394233302030364631203B202020202020202020202020202020202064657070616D203B2020202020202020202038414631,
  0x494E454D4D4152474547534F525020444E412041495341442048544957204147454D4F2052455454454C204C415449504143204B454552472020312E3120232020202020394233302031364631203B202020202020202020202020202020202064657070616D203B2020202020202020202039414631,
  0x494E454D4D4152474547534F525020444E4120414952415620444E4120494C4953502048544957204147454D4F2052455454454C204C415449504143204B454552472020312E3120232020202020394233302032364631203B202020202020202020202020202020202064657070616D203B2020202020202020202041414631,
  0x494E454D4D4152474547534F525020444E4120414952415620444E412041495341442048544957204147454D4F2052455454454C204C415449504143204B454552472020312E3120232020202020394233302033364631203B202020202020202020202020202020202064657070616D203B2020202020202020202042414631,
  0x494E454D4D4152474547534F525020444E41204149584F20444E4120494C4953502048544957204147454D4F2052455454454C204C415449504143204B454552472020312E3120232020202020394233302034364631203B202020202020202020202020202020202064657070616D203B2020202020202020202043414631,
  0x494E454D4D4152474547534F525020444E41204149584F20444E412041495341442048544957204147454D4F2052455454454C204C415449504143204B454552472020312E3120232020202020394233302035364631203B202020202020202020202020202020202064657070616D203B2020202020202020202044414631,
  0x494E454D4D4152474547534F525020444E4120494E454D4F50534952455020444E4120494C4953502048544957204147454D4F2052455454454C204C415449504143204B454552472020312E3120232020202020394233302036364631203B202020202020202020202020202020202064657070616D203B2020202020202020202045414631,
  0x494E454D4D4152474547534F525020444E4120494E454D4F50534952455020444E412041495341442048544957204147454D4F2052455454454C204C415449504143204B454552472020312E3120232020202020394233302037364631203B202020202020202020202020202020202064657070616D203B2020202020202020202046414631,
  0x4E4F5243414D2048544957204148504C412052455454454C204C4C414D53204B454552472E2E5948434152562048544957204148504C412052455454454C204C4C414D53204B454552472020312E3120232020202020202020202020202020202020202020202020202020202020202020202064696C6176203B20202020314246312E2E30424631,
  0x494E454D4D41524745474F505920444E412041495241562048544957204148504C412052455454454C204C4C414D53204B454552472020312E3120232020202020394233302030374631203B202020202020202020202020202020202064657070616D203B2020202020202020202032424631,
  0x494E454D4D41524745474F50592048544957204148504C412052455454454C204C4C414D53204B454552472020312E3120232020202020394233302031423330203B202020202020202020202020202020202064657070616D203B2020202020202020202033424631,
  0x494E454D4D41524745474F505920444E41204149584F2048544957204148504C412052455454454C204C4C414D53204B454552472020312E3120232020202020394233302043413330203B202020202020202020202020202020202064657070616D203B2020202020202020202034424631,
  0x3E354246312D64657672657365723C202020414E202320202020202020202020202020202020202020202020202020202020206465776F6C6C61736964203B2020202020202020202035424631,
  0x494E454D4F5053495245502048544957204148504C412052455454454C204C4C414D53204B454552472020312E3120232020202020202020202020202020202020202020202020202020202020202020202064696C6176203B2020202020202020202036424631]

def mapText9 : List Nat := [
  0x494E454D4D41524745474F505920444E4120494E454D4F5053495245502048544957204148504C412052455454454C204C4C414D53204B454552472020312E3120232020202020394233302036424631203B202020202020202020202020202020202064657070616D203B2020202020202020202037424631,
  0x5948434152562048544957204148504C412052455454454C204C415449504143204B454552472020312E3120232020202020202020202030424631203B202020202020202020202020202020202064657070616D203B2020202020202020202038424631,
  0x4E4F5243414D2048544957204148504C412052455454454C204C415449504143204B454552472020312E3120232020202020202020202031424631203B202020202020202020202020202020202064657070616D203B2020202020202020202039424631,
  0x41495241562048544957204148504C412052455454454C204C415449504143204B454552472020312E3120232020202020202020202030374631203B202020202020202020202020202020202064657070616D203B2020202020202020202041424631,
  0x4149584F2048544957204148504C412052455454454C204C415449504143204B454552472020312E3120232020202020202020202043413330203B202020202020202020202020202020202064657070616D203B2020202020202020202042424631,
  0x494E454D4D4152474547534F52502048544957204148504C412052455454454C204C415449504143204B454552472020312E3120232020202020394233302031423330203B202020202020202020202020202020202064657070616D203B2020202020202020202043424631,
  0x53494E4F524F4B204B454552472020312E3120232020202020333133302030323030203B2064657070616D5F334454535F6465776F6C6C61736964203B2020202020202020202044424631,
  0x494E454D4D4152474547534F5250204B454552472020312E3120232020202020202020202039423330203B202020202020202020202020202020202064657070616D203B2020202020202020202045424631,
  0x494C495350204B454552472020312E3120232020202020333133302030323030203B2064657070616D5F334454535F6465776F6C6C61736964203B2020202020202020202046424631,
  0x494E454D4F505349524550204B454552472020312E3120232020202020323433302030323030203B2064657070616D5F334454535F6465776F6C6C61736964203B2020202020202020202030434631,
  0x494E454D4F50534952455020444E4120414B4954594C414944204B454552472020312E3123203234333020383033302030323030203B2064657070616D5F334454535F6465776F6C6C61736964203B2020202020202020202031434631,
  0x494E454D4D41524745474F505920444E412041495241562048544957204154452052455454454C204C4C414D53204B454552472020312E3120232020202020394233302034374631203B202020202020202020202020202020202064657070616D203B2020202020202020202032434631,
  0x494E454D4D41524745474F50592048544957204154452052455454454C204C4C414D53204B454552472020312E3120232020202020394233302037423330203B202020202020202020202020202020202064657070616D203B2020202020202020202033434631,
  0x494E454D4D41524745474F505920444E41204149584F2048544957204154452052455454454C204C4C414D53204B454552472020312E3120232020202020394233302045413330203B202020202020202020202020202020202064657070616D203B2020202020202020202034434631,
  0x3E354346312D64657672657365723C202020414E202320202020202020202020202020202020202020202020202020202020206465776F6C6C61736964203B2020202020202020202035434631,
  0x494E454D4F5053495245502048544957204154452052455454454C204C4C414D53204B454552472020312E3120232020202020202020202020202020202020202020202020202020202020202020202064696C6176203B2020202020202020202036434631,
  0x494E454D4D41524745474F505920444E4120494E454D4F5053495245502048544957204154452052455454454C204C4C414D53204B454552472020312E3120232020202020394233302036434631203B202020202020202020202020202020202064657070616D203B2020202020202020202037434631,
  0x41495241562048544957204E4F4C495350452052455454454C204C415449504143204B454552472020312E3120232020202020202020202032374631203B202020202020202020202020202020202064657070616D203B2020202020202020202038434631,
  0x4149584F2048544957204E4F4C495350452052455454454C204C415449504143204B454552472020312E3120232020202020202020202044413330203B202020202020202020202020202020202064657070616D203B2020202020202020202039434631,
  0x41495241562048544957204154452052455454454C204C415449504143204B454552472020312E3120232020202020202020202034374631203B202020202020202020202020202020202064657070616D203B2020202020202020202041434631,
  0x4149584F2048544957204154452052455454454C204C415449504143204B454552472020312E3120232020202020202020202045413330203B202020202020202020202020202020202064657070616D203B2020202020202020202042434631,
  0x494E454D4D4152474547534F52502048544957204154452052455454454C204C415449504143204B454552472020312E3120232020202020394233302037423330203B202020202020202020202020202020202064657070616D203B2020202020202020202043434631,
  0x414952415620444E4120494C495350204B454552472020312E3123203030333020333133302030323030203B2064657070616D5F334454535F6465776F6C6C61736964203B2020202020202020202044434631,
  0x4149584F20444E4120494C495350204B454552472020312E3123203130333020333133302030323030203B2064657070616D5F334454535F6465776F6C6C61736964203B2020202020202020202045434631,
  0x494E454D4F50534952455020444E4120494C495350204B454552472020312E3123203234333020333133302030323030203B2064657070616D5F334454535F6465776F6C6C61736964203B2020202020202020202046434631,
  0x414952415620444E4120414B4954594C41494420485449572041544F492052455454454C204C4C414D53204B454552472E2E59484341525620485449572041544F492052455454454C204C4C414D53204B454552472020312E3120232020202020202020202020202020202020202020202020202020202020202020202064696C6176203B20202020324446312E2E30444631,
  0x4149584F20444E4120414B4954594C41494420485449572041544F492052455454454C204C4C414D53204B454552472020312E3120232020202020202020202030393330203B202020202020202020202020202020202064657070616D203B2020202020202020202033444631,
  0x3E354446312D64657672657365723C2E2E3E344446312D64657672657365723C202020414E202320202020202020202020202020202020202020202020202020202020206465776F6C6C61736964203B20202020354446312E2E34444631,
  0x494E454D4F50534952455020444E4120414B4954594C41494420485449572041544F492052455454454C204C4C414D53204B454552472E2E494E454D4F50534952455020485449572041544F492052455454454C204C4C414D53204B454552472020312E3120232020202020202020202020202020202020202020202020202020202020202020202064696C6176203B20202020374446312E2E36444631,
  0x59484341525620485449572041544F492052455454454C204C415449504143204B454552472020312E3120232020202020202020202030444631203B202020202020202020202020202020202064657070616D203B2020202020202020202038444631,
  0x4E4F5243414D20485449572041544F492052455454454C204C415449504143204B454552472020312E3120232020202020202020202031444631203B202020202020202020202020202020202064657070616D203B2020202020202020202039444631,
  0x414952415620485449572041544F492052455454454C204C415449504143204B454552472020312E3120232020202020202020202036374631203B202020202020202020202020202020202064657070616D203B2020202020202020202041444631,
  0x4149584F20485449572041544F492052455454454C204C415449504143204B454552472020312E3120232020202020202020202046413330203B202020202020202020202020202020202064657070616D203B2020202020202020202042444631,
  0x3E434446312D64657672657365723C202020414E202320202020202020202020202020202020202020202020202020202020206465776F6C6C61736964203B2020202020202020202043444631,
  0x414952415620444E41204149534144204B454552472020312E3123203030333020343133302030323030203B2064657070616D5F334454535F6465776F6C6C61736964203B2020202020202020202044444631,
  0x4149584F20444E41204149534144204B454552472020312E3123203130333020343133302030323030203B2064657070616D5F334454535F6465776F6C6C61736964203B2020202020202020202045444631,
  0x494E454D4F50534952455020444E41204149534144204B454552472020312E3123203234333020343133302030323030203B2064657070616D5F334454535F6465776F6C6C61736964203B2020202020202020202046444631,
  0x414952415620444E4120414B4954594C4149442048544957204E4F4C495350552052455454454C204C4C414D53204B454552472E2E5948434152562048544957204E4F4C495350552052455454454C204C4C414D53204B454552472020312E3120232020202020202020202020202020202020202020202020202020202020202020202064696C6176203B20202020324546312E2E30454631,
  0x4149584F20444E4120414B4954594C4149442048544957204E4F4C495350552052455454454C204C4C414D53204B454552472020312E3120232020202020202020202030423330203B202020202020202020202020202020202064657070616D203B2020202020202020202033454631,
  0x494E454D4F50534952455020444E4120414B4954594C4149442048544957204E4F4C495350552052455454454C204C4C414D53204B454552472E2E494C4953502048544957204F48522052455454454C204C4C414D53204B454552472020312E3120232020202020202020202020202020202020202020202020202020202020202020202064696C6176203B20202020374546312E2E34454631,
  0x5948434152562048544957204E4F4C495350552052455454454C204C415449504143204B454552472020312E3120232020202020202020202030454631203B202020202020202020202020202020202064657070616D203B2020202020202020202038454631,
  0x4E4F5243414D2048544957204E4F4C495350552052455454454C204C415449504143204B454552472020312E3120232020202020202020202031454631203B202020202020202020202020202020202064657070616D203B2020202020202020202039454631,
  0x41495241562048544957204E4F4C495350552052455454454C204C415449504143204B454552472020312E3120232020202020202020202041374631203B202020202020202020202020202020202064657070616D203B2020202020202020202041454631,
  0x4149584F2048544957204E4F4C495350552052455454454C204C415449504143204B454552472020312E3120232020202020202020202044433330203B202020202020202020202020202020202064657070616D203B2020202020202020202042454631,
  0x41495341442048544957204F48522052455454454C204C415449504143204B454552472020312E3120232020202020202020202035454631203B202020202020202020202020202020202064657070616D203B2020202020202020202043454631,
  0x414952415620444E4120414B4954594C414944204B454552472020312E3123203030333020383033302030323030203B2064657070616D5F334454535F6465776F6C6C61736964203B2020202020202020202044454631,
  0x4149584F20444E4120414B4954594C414944204B454552472020312E3123203130333020383033302030323030203B2064657070616D5F334454535F6465776F6C6C61736964203B2020202020202020202045454631,
  0x4149524156204B454552472020312E3120232020202020202020202030363030203B2064657070616D5F334454535F6465776F6C6C61736964203B2020202020202020202046454631,
  0x3E314646312D64657672657365723C2E2E3E304646312D64657672657365723C202020414E202320202020202020202020202020202020202020202020202020202020206465776F6C6C61736964203B20202020314646312E2E30464631,
  0x494E454D4D41524745474F505920444E412041495241562048544957204147454D4F2052455454454C204C4C414D53204B454552472020312E3120232020202020394233302043374631203B202020202020202020202020202020202064657070616D203B2020202020202020202032464631,
  0x494E454D4D41524745474F50592048544957204147454D4F2052455454454C204C4C414D53204B454552472020312E3120232020202020394233302039433330203B202020202020202020202020202020202064657070616D203B2020202020202020202033464631,
  0x494E454D4D41524745474F505920444E41204149584F2048544957204147454D4F2052455454454C204C4C414D53204B454552472020312E3120232020202020394233302045433330203B202020202020202020202020202020202064657070616D203B2020202020202020202034464631,
  0x3E354646312D64657672657365723C202020414E202320202020202020202020202020202020202020202020202020202020206465776F6C6C61736964203B2020202020202020202035464631,
  0x494E454D4F5053495245502048544957204147454D4F2052455454454C204C4C414D53204B454552472020312E3120232020202020202020202020202020202020202020202020202020202020202020202064696C6176203B2020202020202020202036464631,
  0x494E454D4D41524745474F505920444E4120494E454D4F5053495245502048544957204147454D4F2052455454454C204C4C414D53204B454552472020312E3120232020202020394233302036464631203B202020202020202020202020202020202064657070616D203B2020202020202020202037464631,
  0x41495241562048544957204E4F5243494D4F2052455454454C204C415449504143204B454552472020312E3120232020202020202020202038374631203B202020202020202020202020202020202064657070616D203B2020202020202020202038464631,
  0x4149584F2048544957204E4F5243494D4F2052455454454C204C415449504143204B454552472020312E3120232020202020202020202043433330203B202020202020202020202020202020202064657070616D203B2020202020202020202039464631,
  0x41495241562048544957204147454D4F2052455454454C204C415449504143204B454552472020312E3120232020202020202020202043374631203B202020202020202020202020202020202064657070616D203B2020202020202020202041464631,
  0x4149584F2048544957204147454D4F2052455454454C204C415449504143204B454552472020312E3120232020202020202020202045433330203B202020202020202020202020202020202064657070616D203B2020202020202020202042464631,
  0x494E454D4D4152474547534F52502048544957204147454D4F2052455454454C204C415449504143204B454552472020312E3120232020202020394233302039433330203B202020202020202020202020202020202064657070616D203B2020202020202020202043464631,
  0x4149584F204B454552472020312E3120232020202020313033302030323030203B2064657070616D5F334454535F6465776F6C6C61736964203B2020202020202020202044464631,
  0x4149534144204B454552472020312E3120232020202020343133302030323030203B2064657070616D5F334454535F6465776F6C6C61736964203B2020202020202020202045464631,
  0x3E464646312D64657672657365723C202020414E202320202020202020202020202020202020202020202020202020202020206465776F6C6C61736964203B2020202020202020202046464631,
  0x454341505320524941482E2E44415551204E452020312E3120232020202020202020202030323030203B2064657070616D5F334454535F6465776F6C6C61736964203B20202020413030322E2E30303032,
  0x4543415053204854444957204F52455A2020312E31202320202020202020202020202020202020202020202020202020202020202020206465726F6E6769203B2020202020202020202042303032,
  0x52454E494F4A204854444957204F52455A2E2E52454E494F4A2D4E4F4E204854444957204F52455A2020312E3120232020202020202020202020202020203B20202020202020202020202020206E6F69746169766564203B20202020443030322E2E43303032,
  0x4B52414D205446454C2D4F542D54484749522E2E4B52414D2054484749522D4F542D5446454C2020312E31202320202020202020202020202020202020202020202020202020202020206465776F6C6C61736964203B20202020463030322E2E45303032,
  0x4E45485059482020312E3120232020202038564E203B2020202020203B20202020202020202020202020202020202064696C6176203B2020202020202020202030313032,
  0x4E454850594820474E494B414552422D4E4F4E2020312E3120232020202020202020202030313032203B202020202020202020202020202020202064657070616D203B2020202020202020202031313032,
  0x454E494C204C4143495452455620454C42554F442E2E48534144204552554749462020312E3120232020202038564E203B2020202020203B20202020202020202020202020202020202064696C6176203B20202020363130322E2E32313032,
  0x454E494C20574F4C20454C42554F442020312E3120232020202020333333302030323030203B2064657070616D5F334454535F6465776F6C6C61736964203B2020202020202020202037313032,
  0x54454C4C55422052414C55474E414952542E2E4B52414D204E4F495441544F555120454C474E4953205446454C2020312E3120232020202038564E203B2020202020203B20202020202020202020202020202020202064696C6176203B20202020333230322E2E38313032,
  0x53495350494C4C45204C41544E4F5A49524F482E2E52454441454C20544F4420454E4F2020312E31202320202020202020202020202020202020202020202020202020202020206465776F6C6C61736964203B20202020363230322E2E34323032,
  0x544E494F50204E4F4954414E45485059482020312E3120232020202038564E203B2020202020203B20202020202020202020202020202020202064696C6176203B2020202020202020202037323032,
  0x454449525245564F205446454C2D4F542D54484749522E2E524F5441524150455320454E494C2020312E31202320202020202020202020202020202020202020202020202020202020206465776F6C6C61736964203B20202020453230322E2E38323032,
  0x4543415053204B414552422D4F4E20574F5252414E2020302E3320232020202020202020202030323030203B2064657070616D5F334454535F6465776F6C6C61736964203B2020202020202020202046323032,
  0x454D4952502E2E4E47495320454C4C494D205245502020312E3120232020202038564E203B2020202020203B20202020202020202020202020202020202064696C6176203B20202020323330322E2E30333032,
  0x454D49525020454C42554F442020312E3120232020202020323330322032333032203B202020202020202020202020202020202064657070616D203B2020202020202020202033333032,
  0x454D49525020454C504952542020312E3123203233303220323330322032333032203B202020202020202020202020202020202064657070616D203B2020202020202020202034333032,
  0x454D4952502044455352455645522020312E3120232020202038564E203B2020202020203B20202020202020202020202020202020202064696C6176203B2020202020202020202035333032,
  0x454D49525020454C42554F442044455352455645522020312E3120232020202020353330322035333032203B202020202020202020202020202020202064657070616D203B2020202020202020202036333032,
  0x454D49525020454C504952542044455352455645522020312E3123203533303220353330322035333032203B202020202020202020202020202020202064657070616D203B2020202020202020202037333032,
  0x4B52414D2045434E4552454645522E2E54455241432020312E3120232020202038564E203B2020202020203B20202020202020202020202020202020202064696C6176203B20202020423330322E2E38333032,
  0x4B52414D204E4F4954414D414C43584520454C42554F442020312E3120232020202020313230302031323030203B2064657070616D5F334454535F6465776F6C6C61736964203B2020202020202020202043333032,
  0x474E41424F525245544E492020312E3120232020202038564E203B2020202020203B20202020202020202020202020202020202064696C6176203B2020202020202020202044333032,
  0x454E494C5245564F2020312E3120232020202020353033302030323030203B2064657070616D5F334454535F6465776F6C6C61736964203B2020202020202020202045333032,
  0x4C4C49555120485449572054454B43415242204552415551532054484749522E2E4549545245444E552020312E3120232020202038564E203B2020202020203B20202020202020202020202020202020202064696C6176203B20202020363430322E2E46333032,
  0x4B52414D204E4F49545345555120454C42554F442020322E3320232020202020463330302046333030203B2064657070616D5F334454535F6465776F6C6C61736964203B2020202020202020202037343032,
  0x4B52414D204E4F4954414D414C435845204E4F4954534555512020302E3320232020202020313230302046333030203B2064657070616D5F334454535F6465776F6C6C61736964203B2020202020202020202038343032,
  0x4B52414D204E4F495453455551204E4F4954414D414C4358452020302E3320232020202020463330302031323030203B2064657070616D5F334454535F6465776F6C6C61736964203B2020202020202020202039343032,
  0x54454C4C55422053445241575448474952204B43414C422E2E5445204E474953204E41494E4F5249542020302E3320232020202038564E203B2020202020203B20202020202020202020202020202020202064696C6176203B20202020443430322E2E41343032,
  0x4E4749532053554E494D204C41494352454D4D4F432E2E4B5349524554534120574F4C2020322E3320232020202038564E203B2020202020203B20202020202020202020202020202020202064696C6176203B20202020323530322E2E45343032,
  0x4549545245444E55204445545245564E492E2E4853414420474E5557532020302E3420232020202038564E203B2020202020203B20202020202020202020202020202020202064696C6176203B20202020343530322E2E33353032,
  0x4E4F4954415554434E555020544F442045455248542E2E4B52414D204E4F4954415554434E5550205245574F4C462020312E3420232020202038564E203B2020202020203B20202020202020202020202020202020202064696C6176203B20202020363530322E2E35353032,
  0x454D49525020454C5055524441555120322E33232032333032203233303220323330322032333032203B202020202020202020202020202020202064657070616D203B2020202020202020202037353032,
  0x53544F442052554F46204C414349545245562E2E4E4F4954415554434E555020544F442052554F462020312E3420232020202038564E203B2020202020203B20202020202020202020202020202020202064696C6176203B20202020453530322E2E38353032,
  0x4543415053204C41434954414D454854414D204D554944454D2020322E3320232020202020202020202030323030203B2064657070616D5F334454535F6465776F6C6C61736964203B2020202020202020202046353032,
  0x52454E494F4A2044524F572020322E33202320202020202020202020202020202020202020202020202020202020202020206465726F6E6769203B2020202020202020202030363032,
  0x524F5441524150455320454C42495349564E492E2E4E4F49544143494C505041204E4F4954434E55462020322E33202320202020202020202020202020202020202020202020202020202020206465776F6C6C61736964203B20202020333630322E2E31363032,
  0x53554C5020454C42495349564E492020312E35202320202020202020202020202020202020202020202020202020202020202020206465726F6E6769203B2020202020202020202034363032,
  0x3E353630322D64657672657365723C202020414E202320202020202020202020202020202020202020202020202020202020206465776F6C6C61736964203B2020202020202020202035363032,
  0x4554414C4F5349204C414E4F4954434552494420504F502E2E4554414C4F53492054484749522D4F542D5446454C2020332E36202320202020202020202020202020202020202020202020202020202020206465776F6C6C61736964203B20202020393630322E2E36363032,
  0x534550414853205449474944204C414E494D4F4E2E2E474E4950504157532043495254454D4D59532054494249484E492020312E31202320202020202020202020202020202020202020202020202020202020206465776F6C6C61736964203B20202020463630322E2E41363032,
  0x4F52455A2054504952435352455055532020312E3120232020202020202020202030333030203B202020202020202020202020202020202064657070616D203B2020202020202020202030373032,
  0x492052455454454C204C4C414D53204E4954414C2054504952435352455055532020322E3320232020202020202020202039363030203B202020202020202020202020202020202064657070616D203B2020202020202020202031373032,
  0x3E333730322D64657672657365723C2E2E3E323730322D64657672657365723C202020414E202320202020202020202020202020202020202020202020202020202020206465776F6C6C61736964203B20202020333730322E2E32373032,
  0x52554F462054504952435352455055532020312E3120232020202020202020202034333030203B202020202020202020202020202020202064657070616D203B2020202020202020202034373032,
  0x455649462054504952435352455055532020312E3120232020202020202020202035333030203B202020202020202020202020202020202064657070616D203B2020202020202020202035373032,
  0x5849532054504952435352455055532020312E3120232020202020202020202036333030203B202020202020202020202020202020202064657070616D203B2020202020202020202036373032,
  0x4E455645532054504952435352455055532020312E3120232020202020202020202037333030203B202020202020202020202020202020202064657070616D203B2020202020202020202037373032,
  0x54484749452054504952435352455055532020312E3120232020202020202020202038333030203B202020202020202020202020202020202064657070616D203B2020202020202020202038373032,
  0x454E494E2054504952435352455055532020312E3120232020202020202020202039333030203B202020202020202020202020202020202064657070616D203B2020202020202020202039373032,
  0x4E4749532053554C502054504952435352455055532020312E3120232020202020202020202042323030203B2064657070616D5F334454535F6465776F6C6C61736964203B2020202020202020202041373032,
  0x53554E494D2054504952435352455055532020312E3120232020202020202020202032313232203B202020202020202020202020202020202064657070616D203B2020202020202020202042373032,
  0x4E47495320534C415551452054504952435352455055532020312E3120232020202020202020202044333030203B2064657070616D5F334454535F6465776F6C6C61736964203B2020202020202020202043373032,
  0x5349534548544E45524150205446454C2054504952435352455055532020312E3120232020202020202020202038323030203B2064657070616D5F334454535F6465776F6C6C61736964203B2020202020202020202044373032,
  0x5349534548544E455241502054484749522054504952435352455055532020312E3120232020202020202020202039323030203B2064657070616D5F334454535F6465776F6C6C61736964203B2020202020202020202045373032,
  0x4E2052455454454C204C4C414D53204E4954414C2054504952435352455055532020312E3120232020202020202020202045363030203B202020202020202020202020202020202064657070616D203B2020202020202020202046373032,
  0x4F52455A205450495243534255532020312E3120232020202020202020202030333030203B202020202020202020202020202020202064657070616D203B2020202020202020202030383032,
  0x454E4F205450495243534255532020312E3120232020202020202020202031333030203B202020202020202020202020202020202064657070616D203B2020202020202020202031383032,
  0x4F5754205450495243534255532020312E3120232020202020202020202032333030203B202020202020202020202020202020202064657070616D203B2020202020202020202032383032,
  0x4545524854205450495243534255532020312E3120232020202020202020202033333030203B202020202020202020202020202020202064657070616D203B2020202020202020202033383032,
  0x52554F46205450495243534255532020312E3120232020202020202020202034333030203B202020202020202020202020202020202064657070616D203B2020202020202020202034383032,
  0x45564946205450495243534255532020312E3120232020202020202020202035333030203B202020202020202020202020202020202064657070616D203B2020202020202020202035383032,
  0x584953205450495243534255532020312E3120232020202020202020202036333030203B202020202020202020202020202020202064657070616D203B2020202020202020202036383032,
  0x4E45564553205450495243534255532020312E3120232020202020202020202037333030203B202020202020202020202020202020202064657070616D203B2020202020202020202037383032,
  0x5448474945205450495243534255532020312E3120232020202020202020202038333030203B202020202020202020202020202020202064657070616D203B2020202020202020202038383032,
  0x454E494E205450495243534255532020312E3120232020202020202020202039333030203B202020202020202020202020202020202064657070616D203B2020202020202020202039383032,
  0x4E4749532053554C50205450495243534255532020312E3120232020202020202020202042323030203B2064657070616D5F334454535F6465776F6C6C61736964203B2020202020202020202041383032,
  0x53554E494D205450495243534255532020312E3120232020202020202020202032313232203B202020202020202020202020202020202064657070616D203B2020202020202020202042383032,
  0x4E47495320534C41555145205450495243534255532020312E3120232020202020202020202044333030203B2064657070616D5F334454535F6465776F6C6C61736964203B2020202020202020202043383032,
  0x5349534548544E45524150205446454C205450495243534255532020312E3120232020202020202020202038323030203B2064657070616D5F334454535F6465776F6C6C61736964203B2020202020202020202044383032,
  0x5349534548544E45524150205448474952205450495243534255532020312E3120232020202020202020202039323030203B2064657070616D5F334454535F6465776F6C6C61736964203B2020202020202020202045383032,
  0x3E463830322D64657672657365723C202020414E202320202020202020202020202020202020202020202020202020202020206465776F6C6C61736964203B2020202020202020202046383032,
  0x412052455454454C204C4C414D5320545049524353425553204E4954414C2020312E3420232020202020202020202031363030203B202020202020202020202020202020202064657070616D203B2020202020202020202030393032,
  0x452052455454454C204C4C414D5320545049524353425553204E4954414C2020312E3420232020202020202020202035363030203B202020202020202020202020202020202064657070616D203B2020202020202020202031393032,
  0x4F2052455454454C204C4C414D5320545049524353425553204E4954414C2020312E3420232020202020202020202046363030203B202020202020202020202020202020202064657070616D203B2020202020202020202032393032,
  0x582052455454454C204C4C414D5320545049524353425553204E4954414C2020312E3420232020202020202020202038373030203B202020202020202020202020202020202064657070616D203B2020202020202020202033393032,
  0x41574843532052455454454C204C4C414D5320545049524353425553204E4954414C2020312E3420232020202020202020202039353230203B202020202020202020202020202020202064657070616D203B2020202020202020202034393032,
  0x482052455454454C204C4C414D5320545049524353425553204E4954414C2020302E3620232020202020202020202038363030203B202020202020202020202020202020202064657070616D203B2020202020202020202035393032,
  0x4B2052455454454C204C4C414D5320545049524353425553204E4954414C2020302E3620232020202020202020202042363030203B202020202020202020202020202020202064657070616D203B2020202020202020202036393032,
  0x4C2052455454454C204C4C414D5320545049524353425553204E4954414C2020302E3620232020202020202020202043363030203B202020202020202020202020202020202064657070616D203B2020202020202020202037393032,
  0x4D2052455454454C204C4C414D5320545049524353425553204E4954414C2020302E3620232020202020202020202044363030203B202020202020202020202020202020202064657070616D203B2020202020202020202038393032,
  0x4E2052455454454C204C4C414D5320545049524353425553204E4954414C2020302E3620232020202020202020202045363030203B202020202020202020202020202020202064657070616D203B2020202020202020202039393032,
  0x502052455454454C204C4C414D5320545049524353425553204E4954414C2020302E3620232020202020202020202030373030203B202020202020202020202020202020202064657070616D203B2020202020202020202041393032,
  0x532052455454454C204C4C414D5320545049524353425553204E4954414C2020302E3620232020202020202020202033373030203B202020202020202020202020202020202064657070616D203B2020202020202020202042393032,
  0x542052455454454C204C4C414D5320545049524353425553204E4954414C2020302E3620232020202020202020202034373030203B202020202020202020202020202020202064657070616D203B2020202020202020202043393032,
  0x3E463930322D64657672657365723C2E2E3E443930322D64657672657365723C202020414E202320202020202020202020202020202020202020202020202020202020206465776F6C6C61736964203B20202020463930322E2E44393032,
  0x4E474953204154455345502E2E4E4749532059434E45525255432D4F5255452020312E3120232020202038564E203B2020202020203B20202020202020202020202020202020202064696C6176203B20202020374130322E2E30413032,
  0x4E4749532045455055522020312E3120232020202020333730302032373030203B202020202020202020202020202020202064657070616D203B2020202020202020202038413032,
  0x4E474953204C45514548532057454E2E2E4E474953204E4F572020312E3120232020202038564E203B2020202020203B20202020202020202020202020202020202064696C6176203B20202020414130322E2E39413032,
  0x4E47495320474E4F442020302E3220232020202038564E203B2020202020203B20202020202020202020202020202020202064696C6176203B2020202020202020202042413032,
  0x4E474953204F5255452020312E3220232020202038564E203B2020202020203B20202020202020202020202020202020202064696C6176203B2020202020202020202043413032,
  0x4E47495320414D48434152442E2E4E4749532050494B2020302E3320232020202038564E203B2020202020203B20202020202020202020202020202020202064696C6176203B20202020464130322E2E44413032,
  0x4E474953204F5345502E2E4E47495320594E4E4550204E414D5245472020322E3320232020202038564E203B2020202020203B20202020202020202020202020202020202064696C6176203B20202020314230322E2E30423032,
  0x4E47495320494445432E2E4E47495320494E41524155472020312E3420232020202038564E203B2020202020203B20202020202020202020202020202020202064696C6176203B20202020354230322E2E32423032,
  0x4E4749532045474E45542E2E4E4749532053494F4E52554F5420455256494C2020322E3520232020202038564E203B2020202020203B20202020202020202020202020202020202064696C6176203B20202020384230322E2E36423032,
  0x4E474953204545505552204E4149444E492020302E3620232020202038564E203B2020202020203B20202020202020202020202020202020202064696C6176203B2020202020202020202039423032,
  0x4E474953204152494C204853494B5255542020322E3620232020202038564E203B2020202020203B20202020202020202020202020202020202064696C6176203B2020202020202020202041423032,
  0x4E47495320454C4255522E2E4E474953204B52414D20434944524F4E2020302E3720232020202038564E203B2020202020203B20202020202020202020202020202020202064696C6176203B20202020444230322E2E42423032,
  0x4E474953204952414C2020302E3820232020202038564E203B2020202020203B20202020202020202020202020202020202064696C6176203B2020202020202020202045423032,
  0x4E474953204E494F4354494220302E303120232020202038564E203B2020202020203B20202020202020202020202020202020202064696C6176203B2020202020202020202046423032,
  0x3E464330322D64657672657365723C2E2E3E304330322D64657672657365723C202020414E202320202020202020202020202020202020202020202020202020202020206465776F6C6C61736964203B20202020464330322E2E30433032,
  0x45564F424120574F525241205448474952205446454C20474E494E49424D4F432E2E45564F4241204E4F4F50524148205446454C20474E494E49424D4F432020312E3120232020202038564E203B2020202020203B20202020202020202020202020202020202064696C6176203B20202020314530322E2E30443032,
  0x50414359454B20474E49534F4C434E4520474E494E49424D4F432E2E4E454552435320474E49534F4C434E4520474E494E49424D4F432020302E3320232020202038564E203B2020202020203B20202020202020202020202020202020202064696C6176203B20202020334530322E2E32453032,
  0x59414C5245564F20574F5252412053445241575446454C20474E494E49424D4F432E2E454C474E4149525420474E49544E494F502044524157505520474E49534F4C434E4520474E494E49424D4F432020322E3320232020202038564E203B2020202020203B20202020202020202020202020202020202064696C6176203B20202020414530322E2E34453032,
  0x59414C5245564F20535544494C4F5320454C42554F4420474E4F4C20474E494E49424D4F432020312E3420232020202038564E203B2020202020203B20202020202020202020202020202020202064696C6176203B2020202020202020202042453032,
  0x574F4C454220574F52524120544847495220474E494E49424D4F432E2E53445241574E574F4420425241422048544957204E4F4F50524148205344524157544847495220474E494E49424D4F432020302E3520232020202038564E203B2020202020203B20202020202020202020202020202020202064696C6176203B20202020464530322E2E43453032,
  0x45564F4241204B5349524554534120474E494E49424D4F432020312E3520232020202038564E203B2020202020203B20202020202020202020202020202020202064696C6176203B2020202020202020202030463032,
  0x3E464630322D64657672657365723C2E2E3E314630322D64657672657365723C202020414E202320202020202020202020202020202020202020202020202020202020206465776F6C6C61736964203B20202020464630322E2E31463032,
  0x464F20544E554F4343412020312E3123203336303020463230302031363030203B2064657070616D5F334454535F6465776F6C6C61736964203B2020202020202020202030303132,
  0x5443454A42555320454854204F54204445535345524444412020312E3123203337303020463230302031363030203B2064657070616D5F334454535F6465776F6C6C61736964203B2020202020202020202031303132,
  0x43204C415449504143204B43555254532D454C42554F442020312E3120232020202020202020202033363030203B202020202020202020202020202020202064657070616D203B2020202020202020202032303132,
  0x535549534C4543204545524745442020312E3120232020202020333630302030423030203B202020202020202020202020202020202064657070616D203B2020202020202020202033303132,
  0x4C4F424D595320454E494C204552544E45432020312E3120232020202038564E203B2020202020203B20202020202020202020202020202020202064696C6176203B2020202020202020202034303132,
  0x464F20455241432020312E3123204636303020463230302033363030203B2064657070616D5F334454535F6465776F6C6C61736964203B2020202020202020202035303132,
  0x414E5520414441432020312E3123203537303020463230302033363030203B2064657070616D5F334454535F6465776F6C6C61736964203B2020202020202020202036303132,
  0x544E4154534E4F432052454C55452020312E3120232020202020202020202042353230203B202020202020202020202020202020202064657070616D203B2020202020202020202037303132,
  0x454C50555243532020312E3120232020202038564E203B2020202020203B20202020202020202020202020202020202064696C6176203B2020202020202020202038303132,
  0x544945484E4552484146204545524745442020312E3120232020202020363630302030423030203B202020202020202020202020202020202064657070616D203B2020202020202020202039303132,
  0x47204C4C414D53205450495243532020312E3120232020202020202020202037363030203B202020202020202020202020202020202064657070616D203B2020202020202020202041303132,
  0x544E4154534E4F43204B434E414C502E2E48204C415449504143205450495243532020312E3120232020202020202020202038363030203B202020202020202020202020202020202064657070616D203B20202020453031322E2E42303132,
  0x4950204F5754205245564F20544E4154534E4F43204B434E414C502020312E3120232020202020202020202037323130203B202020202020202020202020202020202064657070616D203B2020202020202020202046303132,
  0x49204C4154495041432052455454454C2D4B43414C422E2E49204C415449504143205450495243532020312E3120232020202020202020202039363030203B202020202020202020202020202020202064657070616D203B20202020313131322E2E30313132,
  0x4C204C4C414D53205450495243532E2E4C204C415449504143205450495243532020312E3120232020202020202020202043363030203B202020202020202020202020202020202064657070616D203B20202020333131322E2E32313132,
  0x4C4F424D5953205241422042204C2020312E3120232020202038564E203B2020202020203B20202020202020202020202020202020202064696C6176203B2020202020202020202034313132,
  0x4E204C415449504143204B43555254532D454C42554F442020312E3120232020202020202020202045363030203B202020202020202020202020202020202064657070616D203B2020202020202020202035313132,
  0x4E474953204F52454D554E2020312E3120232020202020463630302045363030203B202020202020202020202020202020202064657070616D203B2020202020202020202036313132,
  0x50204C415449504143205450495243532E2E544847495259504F4320474E4944524F43455220444E554F532020312E3120232020202038564E203B2020202020203B20202020202020202020202020202020202064696C6176203B20202020383131322E2E37313132,
  0x50204C415449504143204B43555254532D454C42554F442020312E3120232020202020202020202030373030203B202020202020202020202020202020202064657070616D203B2020202020202020202039313132,
  0x51204C415449504143204B43555254532D454C42554F442020312E3120232020202020202020202031373030203B202020202020202020202020202020202064657070616D203B2020202020202020202041313132,
  0x52204C415449504143204B43555254532D454C42554F442E2E52204C415449504143205450495243532020312E3120232020202020202020202032373030203B202020202020202020202020202020202064657070616D203B20202020443131322E2E42313132,
  0x45534E4F505345522E2E454B4154204E4F495450495243534552502020312E3120232020202038564E203B2020202020203B20202020202020202020202020202020202064696C6176203B20202020463131322E2E45313132,
  0x4B52414D20454349565245532020312E3120232020202020443630302033373030203B202020202020202020202020202020202064657070616D203B2020202020202020202030323132,
  0x4E47495320454E4F4850454C45542020312E3123204336303020353630302034373030203B202020202020202020202020202020202064657070616D203B2020202020202020202031323132,
  0x4E474953204B52414D2045444152542020312E3120232020202020443630302034373030203B202020202020202020202020202020202064657070616D203B2020202020202020202032323132,
  0x454C4349535245562020312E3120232020202038564E203B2020202020203B20202020202020202020202020202020202064696C6176203B2020202020202020202033323132,
  0x5A204C415449504143204B43555254532D454C42554F442020312E3120232020202020202020202041373030203B202020202020202020202020202020202064657070616D203B2020202020202020202034323132,
  0x4E4749532045434E554F2020312E3120232020202038564E203B2020202020203B20202020202020202020202020202020202064696C6176203B2020202020202020202035323132,
  0x4E474953204D484F2020312E3120232020202020202020202039433330203B202020202020202020202020202020202064657070616D203B2020202020202020202036323132,
  0x4E474953204D484F204445545245564E492020312E3120232020202038564E203B2020202020203B20202020202020202020202020202020202064696C6176203B2020202020202020202037323132,
  0x5A204C4154495041432052455454454C2D4B43414C422020312E3120232020202020202020202041373030203B202020202020202020202020202020202064657070616D203B2020202020202020202038323132,
  0x41544F492052455454454C204C4C414D53204B454552472044454E5255542020312E3120232020202038564E203B2020202020203B20202020202020202020202020202020202064696C6176203B2020202020202020202039323132,
  0x4E474953204E49564C454B2020312E3120232020202020202020202042363030203B202020202020202020202020202020202064657070616D203B2020202020202020202041323132,
  0x4E474953204D4F525453474E412020312E3120232020202020202020202035453030203B202020202020202020202020202020202064657070616D203B2020202020202020202042323132,
  0x42204C415449504143205450495243532020312E3120232020202020202020202032363030203B202020202020202020202020202020202064657070616D203B2020202020202020202043323132,
  0x43204C4154495041432052455454454C2D4B43414C422020312E3120232020202020202020202033363030203B202020202020202020202020202020202064657070616D203B2020202020202020202044323132,
  0x4C4F424D595320444554414D495453452020312E3120232020202038564E203B2020202020203B20202020202020202020202020202020202064696C6176203B2020202020202020202045323132,
  0x45204C415449504143205450495243532E2E45204C4C414D53205450495243532020312E3120232020202020202020202035363030203B202020202020202020202020202020202064657070616D203B20202020303331322E2E46323132,
  0x46204C415449504143205450495243532020312E3120232020202020202020202036363030203B202020202020202020202020202020202064657070616D203B2020202020202020202031333132,
  0x46204C4154495041432044454E5255542020312E31202320202020202020202020202020202020202020202020202020202020206465776F6C6C61736964203B2020202020202020202032333132,
  0x4D204C415449504143205450495243532020312E3120232020202020202020202044363030203B202020202020202020202020202020202064657070616D203B2020202020202020202033333132,
  0x4F204C4C414D53205450495243532020312E3120232020202020202020202046363030203B202020202020202020202020202020202064657070616D203B2020202020202020202034333132,
  0x4C4F424D59532046454C412020312E3120232020202020202020202030443530203B202020202020202020202020202020202064657070616D203B2020202020202020202035333132,
  0x4C4F424D5953205445422020312E3120232020202020202020202031443530203B202020202020202020202020202020202064657070616D203B2020202020202020202036333132,
  0x4C4F424D5953204C454D49472020312E3120232020202020202020202032443530203B202020202020202020202020202020202064657070616D203B2020202020202020202037333132,
  0x4C4F424D59532054454C41442020312E3120232020202020202020202033443530203B202020202020202020202020202020202064657070616D203B2020202020202020202038333132,
  0x454352554F53204E4F4954414D524F464E492020302E3320232020202020202020202039363030203B202020202020202020202020202020202064657070616D203B2020202020202020202039333132,
  0x51204C4154495041432044455441544F522020302E3320232020202038564E203B2020202020203B20202020202020202020202020202020202064696C6176203B2020202020202020202041333132,
  0x4E47495320454C494D49534341462020302E3423203837303020313630302036363030203B202020202020202020202020202020202064657070616D203B2020202020202020202042333132,
  0x4950204C4C414D53204B43555254532D454C42554F442020312E3420232020202020202020202030433330203B202020202020202020202020202020202064657070616D203B2020202020202020202043333132,
  0x414D4D4147204C415449504143204B43555254532D454C42554F442E2E414D4D4147204C4C414D53204B43555254532D454C42554F442020322E3320232020202020202020202033423330203B202020202020202020202020202020202064657070616D203B20202020453331322E2E44333132,
  0x4950204C415449504143204B43555254532D454C42554F442020322E3320232020202020202020202030433330203B202020202020202020202020202020202064657070616D203B2020202020202020202046333132,
  0x4E4F4954414D4D5553205952412D4E204B43555254532D454C42554F442020322E3320232020202020202020202031313232203B202020202020202020202020202020202064657070616D203B2020202020202020202030343132,
  0x59204C4154495041432046495245532D534E41532044454E5255542E2E47204C4154495041432046495245532D534E41532044454E5255542020322E3320232020202038564E203B2020202020203B20202020202020202020202020202020202064696C6176203B20202020343431322E2E31343132,
  0x44204C4C414D532043494C415449204B43555254532D454C42554F442E2E44204C4154495041432043494C415449204B43555254532D454C42554F442020322E3320232020202020202020202034363030203B202020202020202020202020202020202064657070616D203B20202020363431322E2E35343132,
  0x45204C4C414D532043494C415449204B43555254532D454C42554F442020322E3320232020202020202020202035363030203B202020202020202020202020202020202064657070616D203B2020202020202020202037343132,
  0x49204C4C414D532043494C415449204B43555254532D454C42554F442020322E3320232020202020202020202039363030203B202020202020202020202020202020202064657070616D203B2020202020202020202038343132,
  0x4A204C4C414D532043494C415449204B43555254532D454C42554F442020322E3320232020202020202020202041363030203B202020202020202020202020202020202064657070616D203B2020202020202020202039343132,
  0x444E41535245504D412044454E5255542E2E454E494C2059545245504F52502020322E3320232020202038564E203B2020202020203B20202020202020202020202020202020202064696C6176203B20202020423431322E2E41343132,
  0x4E474953205245502020312E3420232020202038564E203B2020202020203B20202020202020202020202020202020202064696C6176203B2020202020202020202043343132,
  0x42414B534C45534549544B412020302E3520232020202038564E203B2020202020203B20202020202020202020202020202020202064696C6176203B2020202020202020202044343132,
  0x46204C4C414D532044454E5255542020302E3520232020202020202020202020202020202020202020202020202020202020202020202064696C6176203B2020202020202020202045343132,
  0x454352554F53204E41544952414D415320524F46204C4F424D59532020312E3520232020202038564E203B2020202020203B20202020202020202020202020202020202064696C6176203B2020202020202020202046343132,
  0x48544E4556455320454E4F204E4F495443415246205241474C55562020322E3523203733303020343430322031333030203B202020202020202020202020202020202064657070616D203B2020202020202020202030353132,
  0x48544E494E20454E4F204E4F495443415246205241474C55562020322E3523203933303020343430322031333030203B202020202020202020202020202020202064657070616D203B2020202020202020202031353132,
  0x48544E455420454E4F204E4F495443415246205241474C555620322E35232030333030203133303020343430322031333030203B202020202020202020202020202020202064657070616D203B2020202020202020202032353132,
  0x445249485420454E4F204E4F495443415246205241474C55562020312E3123203333303020343430322031333030203B202020202020202020202020202020202064657070616D203B2020202020202020202033353132,
  0x534452494854204F5754204E4F495443415246205241474C55562020312E3123203333303020343430322032333030203B202020202020202020202020202020202064657070616D203B2020202020202020202034353132,
  0x485446494620454E4F204E4F495443415246205241474C55562020312E3123203533303020343430322031333030203B202020202020202020202020202020202064657070616D203B2020202020202020202035353132,
  0x534854464946204F5754204E4F495443415246205241474C55562020312E3123203533303020343430322032333030203B202020202020202020202020202020202064657070616D203B2020202020202020202036353132,
  0x534854464946204545524854204E4F495443415246205241474C55562020312E3123203533303020343430322033333030203B202020202020202020202020202020202064657070616D203B2020202020202020202037353132,
  0x5348544649462052554F46204E4F495443415246205241474C55562020312E3123203533303020343430322034333030203B202020202020202020202020202020202064657070616D203B2020202020202020202038353132,
  0x485458495320454E4F204E4F495443415246205241474C55562020312E3123203633303020343430322031333030203B202020202020202020202020202020202064657070616D203B2020202020202020202039353132,
  0x5348545849532045564946204E4F495443415246205241474C55562020312E3123203633303020343430322035333030203B202020202020202020202020202020202064657070616D203B2020202020202020202041353132,
  0x48544847494520454E4F204E4F495443415246205241474C55562020312E3123203833303020343430322031333030203B202020202020202020202020202020202064657070616D203B2020202020202020202042353132,
  0x53485448474945204545524854204E4F495443415246205241474C55562020312E3123203833303020343430322033333030203B202020202020202020202020202020202064657070616D203B2020202020202020202043353132,
  0x534854484749452045564946204E4F495443415246205241474C55562020312E3123203833303020343430322035333030203B202020202020202020202020202020202064657070616D203B2020202020202020202044353132,
  0x53485448474945204E45564553204E4F495443415246205241474C55562020312E3123203833303020343430322037333030203B202020202020202020202020202020202064657070616D203B2020202020202020202045353132,
  0x454E4F20524F544152454D554E204E4F4954434152462020312E3120232020202020343430322031333030203B202020202020202020202020202020202064657070616D203B2020202020202020202046353132]

def mapText10 : List Nat := [
  0x454E4F204C4152454D554E204E414D4F522020312E3120232020202020202020202039363030203B202020202020202020202020202020202064657070616D203B2020202020202020202030363132,
  0x4F5754204C4152454D554E204E414D4F522020312E3120232020202020393630302039363030203B202020202020202020202020202020202064657070616D203B2020202020202020202031363132,
  0x4545524854204C4152454D554E204E414D4F522020312E3123203936303020393630302039363030203B202020202020202020202020202020202064657070616D203B2020202020202020202032363132,
  0x52554F46204C4152454D554E204E414D4F522020312E3120232020202020363730302039363030203B202020202020202020202020202020202064657070616D203B2020202020202020202033363132,
  0x45564946204C4152454D554E204E414D4F522020312E3120232020202020202020202036373030203B202020202020202020202020202020202064657070616D203B2020202020202020202034363132,
  0x584953204C4152454D554E204E414D4F522020312E3120232020202020393630302036373030203B202020202020202020202020202020202064657070616D203B2020202020202020202035363132,
  0x4E45564553204C4152454D554E204E414D4F522020312E3123203936303020393630302036373030203B202020202020202020202020202020202064657070616D203B2020202020202020202036363132,
  0x5448474945204C4152454D554E204E414D4F5220312E31232039363030203936303020393630302036373030203B202020202020202020202020202020202064657070616D203B2020202020202020202037363132,
  0x454E494E204C4152454D554E204E414D4F522020312E3120232020202020383730302039363030203B202020202020202020202020202020202064657070616D203B2020202020202020202038363132,
  0x4E4554204C4152454D554E204E414D4F522020312E3120232020202020202020202038373030203B202020202020202020202020202020202064657070616D203B2020202020202020202039363132,
  0x4E4556454C45204C4152454D554E204E414D4F522020312E3120232020202020393630302038373030203B202020202020202020202020202020202064657070616D203B2020202020202020202041363132,
  0x45564C455754204C4152454D554E204E414D4F522020312E3123203936303020393630302038373030203B202020202020202020202020202020202064657070616D203B2020202020202020202042363132,
  0x5954464946204C4152454D554E204E414D4F522020312E3120232020202020202020202043363030203B202020202020202020202020202020202064657070616D203B2020202020202020202043363132,
  0x444552444E554820454E4F204C4152454D554E204E414D4F522020312E3120232020202020202020202033363030203B202020202020202020202020202020202064657070616D203B2020202020202020202044363132,
  0x444552444E55482045564946204C4152454D554E204E414D4F522020312E3120232020202020202020202034363030203B202020202020202020202020202020202064657070616D203B2020202020202020202045363132,
  0x444E4153554F485420454E4F204C4152454D554E204E414D4F522020312E3120232020202020202020202044363030203B202020202020202020202020202020202064657070616D203B2020202020202020202046363132,
  0x454E4F204C4152454D554E204E414D4F52204C4C414D532020312E3120232020202020202020202039363030203B202020202020202020202020202020202064657070616D203B2020202020202020202030373132,
  0x4F5754204C4152454D554E204E414D4F52204C4C414D532020312E3120232020202020393630302039363030203B202020202020202020202020202020202064657070616D203B2020202020202020202031373132,
  0x4545524854204C4152454D554E204E414D4F52204C4C414D532020312E3123203936303020393630302039363030203B202020202020202020202020202020202064657070616D203B2020202020202020202032373132,
  0x52554F46204C4152454D554E204E414D4F52204C4C414D532020312E3120232020202020363730302039363030203B202020202020202020202020202020202064657070616D203B2020202020202020202033373132,
  0x45564946204C4152454D554E204E414D4F52204C4C414D532020312E3120232020202020202020202036373030203B202020202020202020202020202020202064657070616D203B2020202020202020202034373132,
  0x584953204C4152454D554E204E414D4F52204C4C414D532020312E3120232020202020393630302036373030203B202020202020202020202020202020202064657070616D203B2020202020202020202035373132,
  0x4E45564553204C4152454D554E204E414D4F52204C4C414D532020312E3123203936303020393630302036373030203B202020202020202020202020202020202064657070616D203B2020202020202020202036373132,
  0x5448474945204C4152454D554E204E414D4F52204C4C414D5320312E31232039363030203936303020393630302036373030203B202020202020202020202020202020202064657070616D203B2020202020202020202037373132,
  0x454E494E204C4152454D554E204E414D4F52204C4C414D532020312E3120232020202020383730302039363030203B202020202020202020202020202020202064657070616D203B2020202020202020202038373132,
  0x4E4554204C4152454D554E204E414D4F52204C4C414D532020312E3120232020202020202020202038373030203B202020202020202020202020202020202064657070616D203B2020202020202020202039373132,
  0x4E4556454C45204C4152454D554E204E414D4F52204C4C414D532020312E3120232020202020393630302038373030203B202020202020202020202020202020202064657070616D203B2020202020202020202041373132,
  0x45564C455754204C4152454D554E204E414D4F52204C4C414D532020312E3123203936303020393630302038373030203B202020202020202020202020202020202064657070616D203B2020202020202020202042373132,
  0x5954464946204C4152454D554E204E414D4F52204C4C414D532020312E3120232020202020202020202043363030203B202020202020202020202020202020202064657070616D203B2020202020202020202043373132,
  0x444552444E554820454E4F204C4152454D554E204E414D4F52204C4C414D532020312E3120232020202020202020202033363030203B202020202020202020202020202020202064657070616D203B2020202020202020202044373132,
  0x444552444E55482045564946204C4152454D554E204E414D4F52204C4C414D532020312E3120232020202020202020202034363030203B202020202020202020202020202020202064657070616D203B2020202020202020202045373132,
  0x444E4153554F485420454E4F204C4152454D554E204E414D4F52204C4C414D532020312E3120232020202020202020202044363030203B202020202020202020202020202020202064657070616D203B2020202020202020202046373132,
  0x444E4153554F4854204E4554204C4152454D554E204E414D4F522E2E44204320444E4153554F485420454E4F204C4152454D554E204E414D4F522020312E3120232020202038564E203B2020202020203B20202020202020202020202020202020202064696C6176203B20202020323831322E2E30383132,
  0x444552444E554820454E4F204445535245564552204C4152454D554E204E414D4F522020302E33202320202020202020202020202020202020202020202020202020202020206465776F6C6C61736964203B2020202020202020202033383132,
  0x432044455352455645522052455454454C204C4C414D53204E4954414C2020302E3520232020202020202020202020202020202020202020202020202020202020202020202064696C6176203B2020202020202020202034383132,
  0x444E4153554F485420444552444E554820454E4F204C4152454D554E204E414D4F522E2E4D524F46204554414C20584953204C4152454D554E204E414D4F522020312E3520232020202038564E203B2020202020203B20202020202020202020202020202020202064696C6176203B20202020383831322E2E35383132,
  0x534452494854204F52455A204E4F495443415246205241474C55562020322E3523203333303020343430322030333030203B202020202020202020202020202020202064657070616D203B2020202020202020202039383132,
  0x45455248542054494749442044454E5255542E2E4F57542054494749442044454E5255542020302E3820232020202038564E203B2020202020203B20202020202020202020202020202020202064696C6176203B20202020423831322E2E41383132,
  0x3E463831322D64657672657365723C2E2E3E433831322D64657672657365723C202020414E202320202020202020202020202020202020202020202020202020202020206465776F6C6C61736964203B20202020463831322E2E43383132,
  0x524142204D4F524620574F52524120455449485720534452415750552E2E574F5252412053445241575446454C2020312E3120232020202038564E203B2020202020203B20202020202020202020202020202020202064696C6176203B20202020414531322E2E30393132,
  0x574F525241204554494857204E574F442050552E2E4C41545345444550204E4F20574F52524120455449485720534452415750552020302E3320232020202038564E203B2020202020203B20202020202020202020202020202020202064696C6176203B20202020334631322E2E42453132,
  0x574F525241204445444145482D4E45504F205448474952205446454C2E2E454C43524943204C4C414D53204854495720574F5252412054484749522020322E3320232020202038564E203B2020202020203B20202020202020202020202020202020202064696C6176203B20202020464631322E2E34463132,
  0x4C41524745544E492E2E4C4C4120524F462020312E3120232020202038564E203B2020202020203B20202020202020202020202020202020202064696C6176203B20202020423232322E2E30303232,
  0x4C41524745544E4920454C42554F442020312E3120232020202020423232322042323232203B202020202020202020202020202020202064657070616D203B2020202020202020202043323232,
  0x4C41524745544E4920454C504952542020312E3123204232323220423232322042323232203B202020202020202020202020202020202064657070616D203B2020202020202020202044323232,
  0x4C41524745544E492052554F544E4F432020312E3120232020202038564E203B2020202020203B20202020202020202020202020202020202064696C6176203B2020202020202020202045323232,
  0x4C41524745544E4920454341465255532020312E3120232020202020453232322045323232203B202020202020202020202020202020202064657070616D203B2020202020202020202046323232,
  0x4C41524745544E4920454D554C4F562020312E3123204532323220453232322045323232203B202020202020202020202020202020202064657070616D203B2020202020202020202030333232,
  0x4F54204C415551452044454E4F4954534555512E2E4C41524745544E4920455349574B434F4C432020312E3120232020202038564E203B2020202020203B20202020202020202020202020202020202064696C6176203B20202020463532322E2E31333232,
  0x4F54204C4155514520544F4E2020312E31202320202020202020202020202020202020202064696C61765F334454535F6465776F6C6C61736964203B2020202020202020202030363232,
  0x4F5420544E454C41564955514520544F4E2E2E4F54204C414349544E4544492020312E3120232020202038564E203B2020202020203B20202020202020202020202020202020202064696C6176203B20202020443632322E2E31363232,
  0x4E4148542D5245544145524720544F4E2E2E4E4148542D5353454C20544F4E2020312E31202320202020202020202020202020202020202064696C61765F334454535F6465776F6C6C61736964203B20202020463632322E2E45363232,
  0x53495350494C4C45204C414E4F47414944205448474952204E574F442E2E4F54204C4155514520524F4E204E4148542D5353454C205245485449454E2020312E3120232020202038564E203B2020202020203B20202020202020202020202020202020202064696C6176203B20202020314632322E2E30373232,
  0x504948535245424D454D20474142204E4F495441544F4E205A2E2E454B4F525453204C41544E4F5A49524F4820474E4F4C204854495720464F20544E454D454C452020322E3320232020202038564E203B2020202020203B20202020202020202020202020202020202064696C6176203B20202020464632322E2E32463232,
  0x4E47495320524554454D4149442020312E3120232020202038564E203B2020202020203B20202020202020202020202020202020202064696C6176203B2020202020202020202030303332,
  0x574F525241204349525443454C452020302E3320232020202038564E203B2020202020203B20202020202020202020202020202020202064696C6176203B2020202020202020202031303332,
  0x4452414F4259454B2E2E4553554F482020312E3120232020202038564E203B2020202020203B20202020202020202020202020202020202064696C6176203B20202020383233322E2E32303332,
  0x54454B4341524220454C474E4120474E49544E494F502D5446454C2020312E3120232020202020202020202038303033203B202020202020202020202020202020202064657070616D203B2020202020202020202039323332,
  0x54454B4341524220454C474E4120474E49544E494F502D54484749522020312E3120232020202020202020202039303033203B202020202020202020202020202020202064657070616D203B2020202020202020202041323332,
  0x4148504C41204C4F424D5953204C414E4F4954434E5546204C50412E2E5446454C20454854204F542045534152452020312E3120232020202038564E203B2020202020203B20202020202020202020202020202020202064696C6176203B20202020413733322E2E42323332,
  0x4B52414D204B4345484320544F4E2020302E3320232020202038564E203B2020202020203B20202020202020202020202020202020202064696C6176203B2020202020202020202042373332,
  0x574F5252412047415A47495A2053445241574E574F44204854495720454C474E412054484749522020322E3320232020202038564E203B2020202020203B20202020202020202020202020202020202064696C6176203B2020202020202020202043373332,
  0x4C4F424D5953204E4545524353205241454C432E2E584F42204E45504F2044455245444C554F48532020302E3320232020202038564E203B2020202020203B20202020202020202020202020202020202064696C6176203B20202020413933322E2E44373332,
  0x4C4F424D5953204E52555445522E2E4B4F4F48205245505055205349534548544E45524150205446454C2020322E3320232020202038564E203B2020202020203B20202020202020202020202020202020202064696C6176203B20202020454333322E2E42393332,
  0x4E4F49534E4554584520454E494C204C414349545245562E2E4C4F424D5953205443454A452020302E3420232020202038564E203B2020202020203B20202020202020202020202020202020202064696C6176203B20202020304433322E2E46433332,
  0x455355462E2E4556455242204C4143495254454D2020312E3420232020202038564E203B2020202020203B20202020202020202020202020202020202064696C6176203B20202020424433322E2E31443332,
  0x4E4F49544345535245544E49204C414349525443454C452E2E5349534548544E4552415020504F542020302E3520232020202038564E203B2020202020203B20202020202020202020202020202020202064696C6176203B20202020374533322E2E43443332,
  0x4C4F424D595320544E454E4F505845204C414D494345442020322E3520232020202038564E203B2020202020203B20202020202020202020202020202020202064696C6176203B2020202020202020202038453332,
  0x444E415320474E49574F4C462048544957205353414C4752554F482E2E454C474E4149525420454C42554F4420474E49544E494F502D5448474952204B43414C422020302E3620232020202038564E203B2020202020203B20202020202020202020202020202020202064696C6176203B20202020334633322E2E39453332,
  0x44524F43455220524F4620454C43524943204B43414C422E2E454C474E4149525420474E49544E494F502D5446454C204D554944454D204B43414C422020302E3720232020202038564E203B2020202020203B20202020202020202020202020202020202064696C6176203B20202020414633322E2E34463332,
  0x4C4F424D5953205045454C53205245574F502E2E4C4F424D5953205245574F502020302E3920232020202038564E203B2020202020203B20202020202020202020202020202020202064696C6176203B20202020454633322E2E42463332,
  0x4C4F424D59532045594520524556524553424F20302E303120232020202038564E203B2020202020203B20202020202020202020202020202020202064696C6176203B2020202020202020202046463332,
  0x454E494C57454E20524F46204C4F424D59532E2E4C4C554E20524F46204C4F424D59532020312E3120232020202038564E203B2020202020203B20202020202020202020202020202020202064696C6176203B20202020343234322E2E30303432,
  0x4F5754204D524F46204554555449545342555320524F46204C4F424D59532E2E4F5754204D524F46204554454C454420524F46204C4F424D59532020302E3320232020202038564E203B2020202020203B20202020202020202020202020202020202064696C6176203B20202020363234322E2E35323432,
  0x3E463334322D64657672657365723C2E2E3E373234322D64657672657365723C202020414E202320202020202020202020202020202020202020202020202020202020206465776F6C6C61736964203B20202020463334322E2E37323432,
  0x4853414C534B43414220454C42554F442052434F2E2E4B4F4F482052434F2020312E3120232020202038564E203B2020202020203B20202020202020202020202020202020202064696C6176203B20202020413434322E2E30343432,
  0x3E463534322D64657672657365723C2E2E3E423434322D64657672657365723C202020414E202320202020202020202020202020202020202020202020202020202020206465776F6C6C61736964203B20202020463534322E2E42343432,
  0x454E4F2054494749442044454C435249432020312E3120232020202020202020202031333030203B202020202020202020202020202020202064657070616D203B2020202020202020202030363432,
  0x4F57542054494749442044454C435249432020312E3120232020202020202020202032333030203B202020202020202020202020202020202064657070616D203B2020202020202020202031363432,
  0x45455248542054494749442044454C435249432020312E3120232020202020202020202033333030203B202020202020202020202020202020202064657070616D203B2020202020202020202032363432,
  0x52554F462054494749442044454C435249432020312E3120232020202020202020202034333030203B202020202020202020202020202020202064657070616D203B2020202020202020202033363432,
  0x455649462054494749442044454C435249432020312E3120232020202020202020202035333030203B202020202020202020202020202020202064657070616D203B2020202020202020202034363432,
  0x5849532054494749442044454C435249432020312E3120232020202020202020202036333030203B202020202020202020202020202020202064657070616D203B2020202020202020202035363432,
  0x4E455645532054494749442044454C435249432020312E3120232020202020202020202037333030203B202020202020202020202020202020202064657070616D203B2020202020202020202036363432,
  0x54484749452054494749442044454C435249432020312E3120232020202020202020202038333030203B202020202020202020202020202020202064657070616D203B2020202020202020202037363432,
  0x454E494E2054494749442044454C435249432020312E3120232020202020202020202039333030203B202020202020202020202020202020202064657070616D203B2020202020202020202038363432,
  0x4E4554205245424D554E2044454C435249432020312E3120232020202020303330302031333030203B202020202020202020202020202020202064657070616D203B2020202020202020202039363432,
  0x4E4556454C45205245424D554E2044454C435249432020312E3120232020202020313330302031333030203B202020202020202020202020202020202064657070616D203B2020202020202020202041363432,
  0x45564C455754205245424D554E2044454C435249432020312E3120232020202020323330302031333030203B202020202020202020202020202020202064657070616D203B2020202020202020202042363432,
  0x4E45455452494854205245424D554E2044454C435249432020312E3120232020202020333330302031333030203B202020202020202020202020202020202064657070616D203B2020202020202020202043363432,
  0x4E45455452554F46205245424D554E2044454C435249432020312E3120232020202020343330302031333030203B202020202020202020202020202020202064657070616D203B2020202020202020202044363432,
  0x4E454554464946205245424D554E2044454C435249432020312E3120232020202020353330302031333030203B202020202020202020202020202020202064657070616D203B2020202020202020202045363432,
  0x4E454554584953205245424D554E2044454C435249432020312E3120232020202020363330302031333030203B202020202020202020202020202020202064657070616D203B2020202020202020202046363432,
  0x4E4545544E45564553205245424D554E2044454C435249432020312E3120232020202020373330302031333030203B202020202020202020202020202020202064657070616D203B2020202020202020202030373432,
  0x4E45455448474945205245424D554E2044454C435249432020312E3120232020202020383330302031333030203B202020202020202020202020202020202064657070616D203B2020202020202020202031373432,
  0x4E454554454E494E205245424D554E2044454C435249432020312E3120232020202020393330302031333030203B202020202020202020202020202020202064657070616D203B2020202020202020202032373432,
  0x59544E455754205245424D554E2044454C435249432020312E3120232020202020303330302032333030203B202020202020202020202020202020202064657070616D203B2020202020202020202033373432,
  0x454E4F2054494749442044455A49534548544E455241502020312E3123203932303020313330302038323030203B2064657070616D5F334454535F6465776F6C6C61736964203B2020202020202020202034373432,
  0x4F57542054494749442044455A49534548544E455241502020312E3123203932303020323330302038323030203B2064657070616D5F334454535F6465776F6C6C61736964203B2020202020202020202035373432,
  0x45455248542054494749442044455A49534548544E455241502020312E3123203932303020333330302038323030203B2064657070616D5F334454535F6465776F6C6C61736964203B2020202020202020202036373432,
  0x52554F462054494749442044455A49534548544E455241502020312E3123203932303020343330302038323030203B2064657070616D5F334454535F6465776F6C6C61736964203B2020202020202020202037373432,
  0x455649462054494749442044455A49534548544E455241502020312E3123203932303020353330302038323030203B2064657070616D5F334454535F6465776F6C6C61736964203B2020202020202020202038373432,
  0x5849532054494749442044455A49534548544E455241502020312E3123203932303020363330302038323030203B2064657070616D5F334454535F6465776F6C6C61736964203B2020202020202020202039373432,
  0x4E455645532054494749442044455A49534548544E455241502020312E3123203932303020373330302038323030203B2064657070616D5F334454535F6465776F6C6C61736964203B2020202020202020202041373432,
  0x54484749452054494749442044455A49534548544E455241502020312E3123203932303020383330302038323030203B2064657070616D5F334454535F6465776F6C6C61736964203B2020202020202020202042373432,
  0x454E494E2054494749442044455A49534548544E455241502020312E3123203932303020393330302038323030203B2064657070616D5F334454535F6465776F6C6C61736964203B2020202020202020202043373432,
  0x4E4554205245424D554E2044455A49534548544E4552415020312E31232039323030203033303020313330302038323030203B2064657070616D5F334454535F6465776F6C6C61736964203B2020202020202020202044373432,
  0x4E4556454C45205245424D554E2044455A49534548544E4552415020312E31232039323030203133303020313330302038323030203B2064657070616D5F334454535F6465776F6C6C61736964203B2020202020202020202045373432,
  0x45564C455754205245424D554E2044455A49534548544E4552415020312E31232039323030203233303020313330302038323030203B2064657070616D5F334454535F6465776F6C6C61736964203B2020202020202020202046373432,
  0x4E45455452494854205245424D554E2044455A49534548544E4552415020312E31232039323030203333303020313330302038323030203B2064657070616D5F334454535F6465776F6C6C61736964203B2020202020202020202030383432,
  0x4E45455452554F46205245424D554E2044455A49534548544E4552415020312E31232039323030203433303020313330302038323030203B2064657070616D5F334454535F6465776F6C6C61736964203B2020202020202020202031383432,
  0x4E454554464946205245424D554E2044455A49534548544E4552415020312E31232039323030203533303020313330302038323030203B2064657070616D5F334454535F6465776F6C6C61736964203B2020202020202020202032383432,
  0x4E454554584953205245424D554E2044455A49534548544E4552415020312E31232039323030203633303020313330302038323030203B2064657070616D5F334454535F6465776F6C6C61736964203B2020202020202020202033383432,
  0x4E4545544E45564553205245424D554E2044455A49534548544E4552415020312E31232039323030203733303020313330302038323030203B2064657070616D5F334454535F6465776F6C6C61736964203B2020202020202020202034383432,
  0x4E45455448474945205245424D554E2044455A49534548544E4552415020312E31232039323030203833303020313330302038323030203B2064657070616D5F334454535F6465776F6C6C61736964203B2020202020202020202035383432,
  0x4E454554454E494E205245424D554E2044455A49534548544E4552415020312E31232039323030203933303020313330302038323030203B2064657070616D5F334454535F6465776F6C6C61736964203B2020202020202020202036383432,
  0x59544E455754205245424D554E2044455A49534548544E4552415020312E31232039323030203033303020323330302038323030203B2064657070616D5F334454535F6465776F6C6C61736964203B2020202020202020202037383432,
  0x504F5453204C4C55462059544E455754205245424D554E2E2E504F5453204C4C554620454E4F2054494749442020312E31202320202020202020202020202020202020202020202020202020202020206465776F6C6C61736964203B20202020423934322E2E38383432,
  0x412052455454454C204C4C414D53204E4954414C2044455A49534548544E455241502020312E3123203932303020313630302038323030203B2064657070616D5F334454535F6465776F6C6C61736964203B2020202020202020202043393432,
  0x422052455454454C204C4C414D53204E4954414C2044455A49534548544E455241502020312E3123203932303020323630302038323030203B2064657070616D5F334454535F6465776F6C6C61736964203B2020202020202020202044393432,
  0x432052455454454C204C4C414D53204E4954414C2044455A49534548544E455241502020312E3123203932303020333630302038323030203B2064657070616D5F334454535F6465776F6C6C61736964203B2020202020202020202045393432,
  0x442052455454454C204C4C414D53204E4954414C2044455A49534548544E455241502020312E3123203932303020343630302038323030203B2064657070616D5F334454535F6465776F6C6C61736964203B2020202020202020202046393432,
  0x452052455454454C204C4C414D53204E4954414C2044455A49534548544E455241502020312E3123203932303020353630302038323030203B2064657070616D5F334454535F6465776F6C6C61736964203B2020202020202020202030413432,
  0x462052455454454C204C4C414D53204E4954414C2044455A49534548544E455241502020312E3123203932303020363630302038323030203B2064657070616D5F334454535F6465776F6C6C61736964203B2020202020202020202031413432,
  0x472052455454454C204C4C414D53204E4954414C2044455A49534548544E455241502020312E3123203932303020373630302038323030203B2064657070616D5F334454535F6465776F6C6C61736964203B2020202020202020202032413432,
  0x482052455454454C204C4C414D53204E4954414C2044455A49534548544E455241502020312E3123203932303020383630302038323030203B2064657070616D5F334454535F6465776F6C6C61736964203B2020202020202020202033413432,
  0x492052455454454C204C4C414D53204E4954414C2044455A49534548544E455241502020312E3123203932303020393630302038323030203B2064657070616D5F334454535F6465776F6C6C61736964203B2020202020202020202034413432,
  0x4A2052455454454C204C4C414D53204E4954414C2044455A49534548544E455241502020312E3123203932303020413630302038323030203B2064657070616D5F334454535F6465776F6C6C61736964203B2020202020202020202035413432,
  0x4B2052455454454C204C4C414D53204E4954414C2044455A49534548544E455241502020312E3123203932303020423630302038323030203B2064657070616D5F334454535F6465776F6C6C61736964203B2020202020202020202036413432,
  0x4C2052455454454C204C4C414D53204E4954414C2044455A49534548544E455241502020312E3123203932303020433630302038323030203B2064657070616D5F334454535F6465776F6C6C61736964203B2020202020202020202037413432,
  0x4D2052455454454C204C4C414D53204E4954414C2044455A49534548544E455241502020312E3123203932303020443630302038323030203B2064657070616D5F334454535F6465776F6C6C61736964203B2020202020202020202038413432,
  0x4E2052455454454C204C4C414D53204E4954414C2044455A49534548544E455241502020312E3123203932303020453630302038323030203B2064657070616D5F334454535F6465776F6C6C61736964203B2020202020202020202039413432,
  0x4F2052455454454C204C4C414D53204E4954414C2044455A49534548544E455241502020312E3123203932303020463630302038323030203B2064657070616D5F334454535F6465776F6C6C61736964203B2020202020202020202041413432,
  0x502052455454454C204C4C414D53204E4954414C2044455A49534548544E455241502020312E3123203932303020303730302038323030203B2064657070616D5F334454535F6465776F6C6C61736964203B2020202020202020202042413432,
  0x512052455454454C204C4C414D53204E4954414C2044455A49534548544E455241502020312E3123203932303020313730302038323030203B2064657070616D5F334454535F6465776F6C6C61736964203B2020202020202020202043413432,
  0x522052455454454C204C4C414D53204E4954414C2044455A49534548544E455241502020312E3123203932303020323730302038323030203B2064657070616D5F334454535F6465776F6C6C61736964203B2020202020202020202044413432,
  0x532052455454454C204C4C414D53204E4954414C2044455A49534548544E455241502020312E3123203932303020333730302038323030203B2064657070616D5F334454535F6465776F6C6C61736964203B2020202020202020202045413432,
  0x542052455454454C204C4C414D53204E4954414C2044455A49534548544E455241502020312E3123203932303020343730302038323030203B2064657070616D5F334454535F6465776F6C6C61736964203B2020202020202020202046413432,
  0x552052455454454C204C4C414D53204E4954414C2044455A49534548544E455241502020312E3123203932303020353730302038323030203B2064657070616D5F334454535F6465776F6C6C61736964203B2020202020202020202030423432,
  0x562052455454454C204C4C414D53204E4954414C2044455A49534548544E455241502020312E3123203932303020363730302038323030203B2064657070616D5F334454535F6465776F6C6C61736964203B2020202020202020202031423432,
  0x572052455454454C204C4C414D53204E4954414C2044455A49534548544E455241502020312E3123203932303020373730302038323030203B2064657070616D5F334454535F6465776F6C6C61736964203B2020202020202020202032423432,
  0x582052455454454C204C4C414D53204E4954414C2044455A49534548544E455241502020312E3123203932303020383730302038323030203B2064657070616D5F334454535F6465776F6C6C61736964203B2020202020202020202033423432,
  0x592052455454454C204C4C414D53204E4954414C2044455A49534548544E455241502020312E3123203932303020393730302038323030203B2064657070616D5F334454535F6465776F6C6C61736964203B2020202020202020202034423432,
  0x5A2052455454454C204C4C414D53204E4954414C2044455A49534548544E455241502020312E3123203932303020413730302038323030203B2064657070616D5F334454535F6465776F6C6C61736964203B2020202020202020202035423432,
  0x412052455454454C204C415449504143204E4954414C2044454C435249432020312E3120232020202020202020202031363030203B202020202020202020202020202020202064657070616D203B2020202020202020202036423432,
  0x422052455454454C204C415449504143204E4954414C2044454C435249432020312E3120232020202020202020202032363030203B202020202020202020202020202020202064657070616D203B2020202020202020202037423432,
  0x432052455454454C204C415449504143204E4954414C2044454C435249432020312E3120232020202020202020202033363030203B202020202020202020202020202020202064657070616D203B2020202020202020202038423432,
  0x442052455454454C204C415449504143204E4954414C2044454C435249432020312E3120232020202020202020202034363030203B202020202020202020202020202020202064657070616D203B2020202020202020202039423432,
  0x452052455454454C204C415449504143204E4954414C2044454C435249432020312E3120232020202020202020202035363030203B202020202020202020202020202020202064657070616D203B2020202020202020202041423432,
  0x462052455454454C204C415449504143204E4954414C2044454C435249432020312E3120232020202020202020202036363030203B202020202020202020202020202020202064657070616D203B2020202020202020202042423432,
  0x472052455454454C204C415449504143204E4954414C2044454C435249432020312E3120232020202020202020202037363030203B202020202020202020202020202020202064657070616D203B2020202020202020202043423432,
  0x482052455454454C204C415449504143204E4954414C2044454C435249432020312E3120232020202020202020202038363030203B202020202020202020202020202020202064657070616D203B2020202020202020202044423432,
  0x492052455454454C204C415449504143204E4954414C2044454C435249432020312E3120232020202020202020202039363030203B202020202020202020202020202020202064657070616D203B2020202020202020202045423432,
  0x4A2052455454454C204C415449504143204E4954414C2044454C435249432020312E3120232020202020202020202041363030203B202020202020202020202020202020202064657070616D203B2020202020202020202046423432,
  0x4B2052455454454C204C415449504143204E4954414C2044454C435249432020312E3120232020202020202020202042363030203B202020202020202020202020202020202064657070616D203B2020202020202020202030433432,
  0x4C2052455454454C204C415449504143204E4954414C2044454C435249432020312E3120232020202020202020202043363030203B202020202020202020202020202020202064657070616D203B2020202020202020202031433432,
  0x4D2052455454454C204C415449504143204E4954414C2044454C435249432020312E3120232020202020202020202044363030203B202020202020202020202020202020202064657070616D203B2020202020202020202032433432,
  0x4E2052455454454C204C415449504143204E4954414C2044454C435249432020312E3120232020202020202020202045363030203B202020202020202020202020202020202064657070616D203B2020202020202020202033433432,
  0x4F2052455454454C204C415449504143204E4954414C2044454C435249432020312E3120232020202020202020202046363030203B202020202020202020202020202020202064657070616D203B2020202020202020202034433432,
  0x502052455454454C204C415449504143204E4954414C2044454C435249432020312E3120232020202020202020202030373030203B202020202020202020202020202020202064657070616D203B2020202020202020202035433432,
  0x512052455454454C204C415449504143204E4954414C2044454C435249432020312E3120232020202020202020202031373030203B202020202020202020202020202020202064657070616D203B2020202020202020202036433432,
  0x522052455454454C204C415449504143204E4954414C2044454C435249432020312E3120232020202020202020202032373030203B202020202020202020202020202020202064657070616D203B2020202020202020202037433432,
  0x532052455454454C204C415449504143204E4954414C2044454C435249432020312E3120232020202020202020202033373030203B202020202020202020202020202020202064657070616D203B2020202020202020202038433432,
  0x542052455454454C204C415449504143204E4954414C2044454C435249432020312E3120232020202020202020202034373030203B202020202020202020202020202020202064657070616D203B2020202020202020202039433432,
  0x552052455454454C204C415449504143204E4954414C2044454C435249432020312E3120232020202020202020202035373030203B202020202020202020202020202020202064657070616D203B2020202020202020202041433432,
  0x562052455454454C204C415449504143204E4954414C2044454C435249432020312E3120232020202020202020202036373030203B202020202020202020202020202020202064657070616D203B2020202020202020202042433432,
  0x572052455454454C204C415449504143204E4954414C2044454C435249432020312E3120232020202020202020202037373030203B202020202020202020202020202020202064657070616D203B2020202020202020202043433432,
  0x582052455454454C204C415449504143204E4954414C2044454C435249432020312E3120232020202020202020202038373030203B202020202020202020202020202020202064657070616D203B2020202020202020202044433432,
  0x592052455454454C204C415449504143204E4954414C2044454C435249432020312E3120232020202020202020202039373030203B202020202020202020202020202020202064657070616D203B2020202020202020202045433432,
  0x5A2052455454454C204C415449504143204E4954414C2044454C435249432020312E3120232020202020202020202041373030203B202020202020202020202020202020202064657070616D203B2020202020202020202046433432,
  0x412052455454454C204C4C414D53204E4954414C2044454C435249432020312E3120232020202020202020202031363030203B202020202020202020202020202020202064657070616D203B2020202020202020202030443432,
  0x422052455454454C204C4C414D53204E4954414C2044454C435249432020312E3120232020202020202020202032363030203B202020202020202020202020202020202064657070616D203B2020202020202020202031443432,
  0x432052455454454C204C4C414D53204E4954414C2044454C435249432020312E3120232020202020202020202033363030203B202020202020202020202020202020202064657070616D203B2020202020202020202032443432,
  0x442052455454454C204C4C414D53204E4954414C2044454C435249432020312E3120232020202020202020202034363030203B202020202020202020202020202020202064657070616D203B2020202020202020202033443432,
  0x452052455454454C204C4C414D53204E4954414C2044454C435249432020312E3120232020202020202020202035363030203B202020202020202020202020202020202064657070616D203B2020202020202020202034443432,
  0x462052455454454C204C4C414D53204E4954414C2044454C435249432020312E3120232020202020202020202036363030203B202020202020202020202020202020202064657070616D203B2020202020202020202035443432,
  0x472052455454454C204C4C414D53204E4954414C2044454C435249432020312E3120232020202020202020202037363030203B202020202020202020202020202020202064657070616D203B2020202020202020202036443432,
  0x482052455454454C204C4C414D53204E4954414C2044454C435249432020312E3120232020202020202020202038363030203B202020202020202020202020202020202064657070616D203B2020202020202020202037443432,
  0x492052455454454C204C4C414D53204E4954414C2044454C435249432020312E3120232020202020202020202039363030203B202020202020202020202020202020202064657070616D203B2020202020202020202038443432,
  0x4A2052455454454C204C4C414D53204E4954414C2044454C435249432020312E3120232020202020202020202041363030203B202020202020202020202020202020202064657070616D203B2020202020202020202039443432,
  0x4B2052455454454C204C4C414D53204E4954414C2044454C435249432020312E3120232020202020202020202042363030203B202020202020202020202020202020202064657070616D203B2020202020202020202041443432,
  0x4C2052455454454C204C4C414D53204E4954414C2044454C435249432020312E3120232020202020202020202043363030203B202020202020202020202020202020202064657070616D203B2020202020202020202042443432,
  0x4D2052455454454C204C4C414D53204E4954414C2044454C435249432020312E3120232020202020202020202044363030203B202020202020202020202020202020202064657070616D203B2020202020202020202043443432,
  0x4E2052455454454C204C4C414D53204E4954414C2044454C435249432020312E3120232020202020202020202045363030203B202020202020202020202020202020202064657070616D203B2020202020202020202044443432,
  0x4F2052455454454C204C4C414D53204E4954414C2044454C435249432020312E3120232020202020202020202046363030203B202020202020202020202020202020202064657070616D203B2020202020202020202045443432,
  0x502052455454454C204C4C414D53204E4954414C2044454C435249432020312E3120232020202020202020202030373030203B202020202020202020202020202020202064657070616D203B2020202020202020202046443432,
  0x512052455454454C204C4C414D53204E4954414C2044454C435249432020312E3120232020202020202020202031373030203B202020202020202020202020202020202064657070616D203B2020202020202020202030453432,
  0x522052455454454C204C4C414D53204E4954414C2044454C435249432020312E3120232020202020202020202032373030203B202020202020202020202020202020202064657070616D203B2020202020202020202031453432,
  0x532052455454454C204C4C414D53204E4954414C2044454C435249432020312E3120232020202020202020202033373030203B202020202020202020202020202020202064657070616D203B2020202020202020202032453432,
  0x542052455454454C204C4C414D53204E4954414C2044454C435249432020312E3120232020202020202020202034373030203B202020202020202020202020202020202064657070616D203B2020202020202020202033453432,
  0x552052455454454C204C4C414D53204E4954414C2044454C435249432020312E3120232020202020202020202035373030203B202020202020202020202020202020202064657070616D203B2020202020202020202034453432,
  0x562052455454454C204C4C414D53204E4954414C2044454C435249432020312E3120232020202020202020202036373030203B202020202020202020202020202020202064657070616D203B2020202020202020202035453432,
  0x572052455454454C204C4C414D53204E4954414C2044454C435249432020312E3120232020202020202020202037373030203B202020202020202020202020202020202064657070616D203B2020202020202020202036453432,
  0x582052455454454C204C4C414D53204E4954414C2044454C435249432020312E3120232020202020202020202038373030203B202020202020202020202020202020202064657070616D203B2020202020202020202037453432,
  0x592052455454454C204C4C414D53204E4954414C2044454C435249432020312E3120232020202020202020202039373030203B202020202020202020202020202020202064657070616D203B2020202020202020202038453432,
  0x5A2052455454454C204C4C414D53204E4954414C2044454C435249432020312E3120232020202020202020202041373030203B202020202020202020202020202020202064657070616D203B2020202020202020202039453432,
  0x4F52455A2054494749442044454C435249432020312E3120232020202020202020202030333030203B202020202020202020202020202020202064657070616D203B2020202020202020202041453432,
  0x4E4554205245424D554E2044454C4352494320454C42554F442E2E4E4556454C45205245424D554E2044454C4352494320455649544147454E2020322E3320232020202038564E203B2020202020203B20202020202020202020202020202020202064696C6176203B20202020454634322E2E42453432,
  0x4F52455A2054494749442044454C4352494320455649544147454E2020302E3420232020202038564E203B2020202020203B20202020202020202020202020202020202064696C6176203B2020202020202020202046463432,
  0x4B434F4C422048544847494520454E4F2054484749522E2E4C41544E4F5A49524F4820544847494C2053474E495741524420584F422020312E3120232020202038564E203B2020202020203B20202020202020202020202020202020202064696C6176203B20202020353935322E2E30303532,
  0x5448474952205245574F4C20444E41205446454C205245574F4C20444E4120544847495220524550505520544E4152444155512E2E5446454C205245574F4C20544E4152444155512020322E3320232020202038564E203B2020202020203B20202020202020202020202020202020202064696C6176203B20202020463935322E2E36393532,
  0x454C4352494320454752414C2E2E455241555153204B43414C422020312E3120232020202038564E203B2020202020203B20202020202020202020202020202020202064696C6176203B20202020464535322E2E30413532,
  0x544E415244415551205448474952205245505055204854495720454C435249432045544948572E2E544E415244415551205446454C2052455050552048544957204552415551532045544948572020302E3320232020202038564E203B2020202020203B20202020202020202020202020202020202064696C6176203B20202020374635322E2E30463532,
  0x454C474E41495254205448474952205245574F4C2E2E454C474E41495254205446454C2052455050552020322E3320232020202038564E203B2020202020203B20202020202020202020202020202020202064696C6176203B20202020464635322E2E38463532,
  0x455249544C41532E2E535941522048544957204E5553204B43414C422020312E3120232020202038564E203B2020202020203B20202020202020202020202020202020202064696C6176203B20202020333136322E2E30303632,
  0x454741524556454220544F482E2E53504F5244204E494152204854495720414C4C4552424D552020302E3420232020202038564E203B2020202020203B20202020202020202020202020202020202064696C6176203B20202020353136322E2E34313632,
  0x45434549502049474F4853204B43414C422E2E45434549502049474F48532045544948572020322E3320232020202038564E203B2020202020203B20202020202020202020202020202020202064696C6176203B20202020373136322E2E36313632,
  0x4B434F524D4148532020312E3420232020202038564E203B2020202020203B20202020202020202020202020202020202064696C6176203B2020202020202020202038313632,
  0x54454C4C5542205452414548204C41524F4C462044455441544F522044455352455645522020302E3320232020202038564E203B2020202020203B20202020202020202020202020202020202064696C6176203B2020202020202020202039313632,
  0x4E47495320505241485320434953554D2E2E5845444E4920474E49544E494F50205446454C204B43414C422020312E3120232020202038564E203B2020202020203B20202020202020202020202020202020202064696C6176203B20202020463636322E2E41313632,
  0x53534F52432043414952595320545341452E2E53534F52432043414952595320545345572020302E3320232020202038564E203B2020202020203B20202020202020202020202020202020202064696C6176203B20202020313736322E2E30373632,
  0x4C4F424D59532052455041502044454C43594345522D594C4C4149545241502E2E4C4F424D595320474E494C4359434552204C4153524556494E552020322E3320232020202038564E203B2020202020203B20202020202020202020202020202020202064696C6176203B20202020443736322E2E32373632,
  0x4C4F424D59532052494148434C454548572E2E4E47495320524550415020544E454E414D5245502020312E3420232020202038564E203B2020202020203B20202020202020202020202020202020202064696C6176203B20202020463736322E2E45373632,
  0x53544F44204554494857204F5754204854495720454C43524943204B43414C422E2E312D45434146204549442020322E3320232020202038564E203B2020202020203B20202020202020202020202020202020202064696C6176203B20202020393836322E2E30383632,
  0x47414C46204B43414C422E2E474E415920524F46204D4152474F4E4F4D2020302E3420232020202038564E203B2020202020203B20202020202020202020202020202020202064696C6176203B20202020313936322E2E41383632,
  0x53494C2D45442D5255454C462E2E4B43495020444E412052454D4D41482020312E3420232020202038564E203B2020202020203B20202020202020202020202020202020202064696C6176203B20202020433936322E2E32393632,
  0x524154532045544948572044454E494C54554F2020312E3520232020202038564E203B2020202020203B20202020202020202020202020202020202064696C6176203B2020202020202020202044393632,
  0x5446454C20474E49475245564E4F432053454E494C2045455248542E2E544847495220474E49475245564E4F432053454E494C2045455248542020322E3520232020202038564E203B2020202020203B20202020202020202020202020202020202064696C6176203B20202020463936322E2E45393632,
  0x4E47495320454741544C4F5620484749482E2E4E47495320474E494E5241572020302E3420232020202038564E203B2020202020203B20202020202020202020202020202020202064696C6176203B20202020314136322E2E30413632,
  0x4E5255204C4152454E55462E2E4E47495320454C414D45462044454C42554F442020312E3420232020202038564E203B2020202020203B20202020202020202020202020202020202064696C6176203B20202020314236322E2E32413632,
  0x52455455454E2020302E3520232020202038564E203B2020202020203B20202020202020202020202020202020202064696C6176203B2020202020202020202032423632,
  0x45544152444155514955515345532E2E53455245432020312E3520232020202038564E203B2020202020203B20202020202020202020202020202020202064696C6176203B20202020434236322E2E33423632,
  0x59454B20444552415551532E2E4C4C414220524543434F532020322E3520232020202038564E203B2020202020203B20202020202020202020202020202020202064696C6176203B20202020464236322E2E44423632,
  0x474E494B205354484755415244204B43414C422E2E4E414D2053544847554152442045544948572020312E3520232020202038564E203B2020202020203B20202020202020202020202020202020202064696C6176203B20202020334336322E2E30433632,
  0x5241432044454C42415349442E2E574F4E532054554F48544957204E414D574F4E532020322E3520232020202038564E203B2020202020203B20202020202020202020202020202020202064696C6176203B20202020444336322E2E34433632,
  0x53554843554948504F2020302E3620232020202038564E203B2020202020203B20202020202020202020202020202020202064696C6176203B2020202020202020202045433632,
  0x322D5952544E45205446454C20444554434952545345522E2E4B4349502020322E3520232020202038564E203B2020202020203B20202020202020202020202020202020202064696C6176203B20202020314536322E2E46433632,
  0x53554E41525520524F46204C4F424D5953204C4143494D4F4E4F525453412020302E3620232020202038564E203B2020202020203B20202020202020202020202020202020202064696C6176203B2020202020202020202032453632,
  0x45564F42412053544F44204F575420444E4120454B4F525453204854495720454C435249432059564145482020322E3520232020202038564E203B2020202020203B20202020202020202020202020202020202064696C6176203B2020202020202020202033453632,
  0x4D41524741544E4550204445545245564E492E2E4D41524741544E45502020302E3620232020202038564E203B2020202020203B20202020202020202020202020202020202064696C6176203B20202020374536322E2E34453632,
  0x455049525453204B43414C4220454C4444494D204C41544E4F5A49524F4820485449572047414C462045544948572E2E444C45494853204E4F2053534F5243204B43414C422020322E3520232020202038564E203B2020202020203B20202020202020202020202020202020202064696C6176203B20202020464636322E2E38453632,
  0x53524F535349435320595445464153204B43414C422020302E3720232020202038564E203B2020202020203B20202020202020202020202020202020202064696C6176203B2020202020202020202030303732,
  0x53524F53534943532045544948572E2E53524F5353494353204544414C422052455050552020312E3120232020202038564E203B2020202020203B20202020202020202020202020202020202064696C6176203B20202020343037322E2E31303732,
  0x4B52414D204B434548432059564145482045544948572020302E3620232020202038564E203B2020202020203B20202020202020202020202020202020202064696C6176203B2020202020202020202035303732,
  0x45504F4C45564E452E2E4E474953204E4F495441434F4C20454E4F4850454C45542020312E3120232020202038564E203B2020202020203B20202020202020202020202020202020202064696C6176203B20202020393037322E2E36303732,
  0x444E4148204445534941522E2E54534946204445534941522020302E3620232020202038564E203B2020202020203B20202020202020202020202020202020202064696C6176203B20202020423037322E2E41303732,
  0x52415453204445544E494F502052554F462045544948572E2E444E41482059524F544349562020312E3120232020202038564E203B2020202020203B20202020202020202020202020202020202064696C6176203B20202020373237322E2E43303732,
  0x53454C4B524150532020302E3620232020202038564E203B2020202020203B20202020202020202020202020202020202064696C6176203B2020202020202020202038323732,
  0x4B534952455453412052454C4C45504F52502044454B4F50532D504F5244524145542054484749452059564145482E2E524154532045544948572044454E494C54554F205353455254532020312E3120232020202038564E203B2020202020203B20202020202020202020202020202020202064696C6176203B20202020423437322E2E39323732,
  0x4B52414D2053534F52432020302E3620232020202038564E203B2020202020203B20202020202020202020202020202020202064696C6176203B2020202020202020202043343732,
  0x454C43524943204554494857204445574F444148532020312E3120232020202038564E203B2020202020203B20202020202020202020202020202020202064696C6176203B2020202020202020202044343732,
  0x4B52414D2053534F5243204445524155515320455649544147454E2020302E3620232020202038564E203B2020202020203B20202020202020202020202020202020202064696C6176203B2020202020202020202045343732,
  0x455241555153204554494857204445574F444148532054484749522052455050552E2E455241555153204554494857204445574F444148532D504F5244205448474952205245574F4C2020312E3120232020202038564E203B2020202020203B20202020202020202020202020202020202064696C6176203B20202020323537322E2E46343732,
  0x544E454D414E524F204B52414D204E4F4954414D414C4358452045544948572E2E544E454D414E524F204B52414D204E4F495453455551204B43414C422020302E3620232020202038564E203B2020202020203B20202020202020202020202020202020202064696C6176203B20202020353537322E2E33353732,
  0x582045544948572053554E494D20444E4F4D414944204B43414C422020312E3120232020202038564E203B2020202020203B20202020202020202020202020202020202064696C6176203B2020202020202020202036353732,
  0x4C4F424D5953204B52414D204E4F4954414D414C4358452059564145482020322E3520232020202038564E203B2020202020203B20202020202020202020202020202020202064696C6176203B2020202020202020202037353732,
  0x544E454D414E524F204B52414D204E4F495441544F555120414D4D4F4320454C42554F442059564145482E2E524142204C4143495452455620544847494C2020312E3120232020202038564E203B2020202020203B20202020202020202020202020202020202064696C6176203B20202020453537322E2E38353732,
  0x544E454D414E524F204B52414D204E4F495441544F555120414D4D4F4320454C42554F4420574F4C2059564145482E2E544E454D414E524F204B52414D204E4F495441544F555120414D4D4F4320454C474E495320574F4C2059564145482020302E3620232020202038564E203B2020202020203B20202020202020202020202020202020202064696C6176203B20202020303637322E2E46353732,
  0x54454C4C5542205452414548204C41524F4C462044455441544F522E2E544E454D414E524F204E47495320485041524741524150204D455453204445565255432020312E3120232020202038564E203B2020202020203B20202020202020202020202020202020202064696C6176203B20202020373637322E2E31363732,
  0x544E454D414E524F2054454B4341524220594C525543205448474952204D554944454D2E2E544E454D414E524F205349534548544E45524150205446454C204D554944454D2020322E3320232020202038564E203B2020202020203B20202020202020202020202020202020202064696C6176203B20202020353737322E2E38363732]

def mapText11 : List Nat := [
  0x574F5252412053445241575448474952204445444145482D454449572059564145482E2E454E4F2054494749442044454C4352494320455649544147454E20544142474E49442020312E3120232020202038564E203B2020202020203B20202020202020202020202020202020202064696C6176203B20202020343937322E2E36373732,
  0x4E474953204E4F4953495649442059564145482E2E4E4749532053554C502059564145482020302E3620232020202038564E203B2020202020203B20202020202020202020202020202020202064696C6176203B20202020373937322E2E35393732,
  0x574F5252412053445241575448474952204554494857204445574F444148532D5448474952205245574F4C2044454843544F4E2E2E574F5252412054534145204854554F532059564145482020312E3120232020202038564E203B2020202020203B20202020202020202020202020202020202064696C6176203B20202020464137322E2E38393732,
  0x504F4F4C20594C5255432020302E3620232020202038564E203B2020202020203B20202020202020202020202020202020202064696C6176203B2020202020202020202030423732,
  0x574F52524120534452415754484749522044454E494C54554F2D4E45504F2E2E574F5252412053445241575448474952204554494857204445574F444148532D54484749522052455050552044454843544F4E2020312E3120232020202038564E203B2020202020203B20202020202020202020202020202020202064696C6176203B20202020454237322E2E31423732,
  0x504F4F4C20594C52554320454C42554F442020302E3620232020202038564E203B2020202020203B20202020202020202020202020202020202064696C6176203B2020202020202020202046423732,
  0x524554494D494C454420474142204445504148532D532054484749522E2E454C474E41204C414E4F49534E454D49442045455248542020312E3420232020202038564E203B2020202020203B20202020202020202020202020202020202064696C6176203B20202020364337322E2E30433732,
  0x454B4F525453204C41544E4F5A49524F48204854495720524142204C414349545245562E2E454449534E4920544F44204854495720524F2020302E3520232020202038564E203B2020202020203B20202020202020202020202020202020202064696C6176203B20202020414337322E2E37433732,
  0x4C414E4F4741494420474E49534952204C41434954414D454854414D2020312E3620232020202038564E203B2020202020203B20202020202020202020202020202020202064696C6176203B2020202020202020202042433732,
  0x4E4F49534956494420474E4F4C2020312E3520232020202038564E203B2020202020203B20202020202020202020202020202020202064696C6176203B2020202020202020202043433732,
  0x4C414E4F4741494420474E494C4C4146204C41434954414D454854414D2020312E3620232020202038564E203B2020202020203B20202020202020202020202020202020202064696C6176203B2020202020202020202044433732,
  0x524F204C414349474F4C20444552415551532E2E444E41204C414349474F4C20444552415551532020302E3620232020202038564E203B2020202020203B20202020202020202020202020202020202064696C6176203B20202020464337322E2E45433732,
  0x54454B4341524220454C474E4120454C42554F44205448474952204C41434954414D454854414D2E2E544F4420444552544E4543204854495720444E4F4D4149442045544948572020322E3320232020202038564E203B2020202020203B20202020202020202020202020202020202064696C6176203B20202020424537322E2E30443732,
  0x5349534548544E455241502044454E455454414C46205448474952204C41434954414D454854414D2E2E54454B43415242204C4C454853204553494F54524F54204554494857205446454C204C41434954414D454854414D2020312E3520232020202038564E203B2020202020203B20202020202020202020202020202020202064696C6176203B20202020464537322E2E43453732,
  0x574F52524120454C474749555153205344524157544847495220474E4F4C2E2E574F52524120454C5055524441555120534452415750552020322E3320232020202038564E203B2020202020203B20202020202020202020202020202020202064696C6176203B20202020464637322E2E30463732,
  0x38373635343332312D53544F44204E52455454415020454C4C494152422E2E4B4E414C42204E52455454415020454C4C494152422020302E3320232020202038564E203B2020202020203B20202020202020202020202020202020202064696C6176203B20202020464638322E2E30303832,
  0x4C41524745544E492048544957204E4F4954414D4D55532E2E454B4F525453204C41434954524556204854495720574F525241204445444145482D4F575420534452415754484749522020322E3320232020202038564E203B2020202020203B20202020202020202020202020202020202064696C6176203B20202020423041322E2E30303932,
  0x524F54415245504F204C41524745544E4920454C5055524441555120322E33232042323232204232323220423232322042323232203B202020202020202020202020202020202064657070616D203B2020202020202020202043304132,
  0x524F54415245504F2045444C49542045564F4241204E47495320534C415551452E2E4C41524745544E492054524150204554494E49462020322E3320232020202038564E203B2020202020203B20202020202020202020202020202020202064696C6176203B20202020333741322E2E44304132,
  0x4C41555145204E4F4C4F4320454C42554F442020322E3323204433303020413330302041333030203B2064657070616D5F334454535F6465776F6C6C61736964203B2020202020202020202034374132,
  0x534E47495320534C415551452045564954554345534E4F43204F57542020322E3320232020202020443330302044333030203B2064657070616D5F334454535F6465776F6C6C61736964203B2020202020202020202035374132,
  0x534E47495320534C415551452045564954554345534E4F432045455248542020322E3323204433303020443330302044333030203B2064657070616D5F334454535F6465776F6C6C61736964203B2020202020202020202036374132,
  0x4E4F49544345535245544E49204C4153524556534E4152542E2E574F4C45422053544F44204F575420444E412045564F42412053544F44204F57542048544957204E47495320534C415551452020322E3320232020202038564E203B2020202020203B20202020202020202020202020202020202064696C6176203B20202020424441322E2E37374132,
  0x474E494B524F462020322E3320232020202020383333302044444132203B202020202020202020202020202020202064657070616D203B2020202020202020202043444132,
  0x524142204C41434954524556204554494857205952412D4E2E2E474E494B524F464E4F4E2020322E3320232020202038564E203B2020202020203B20202020202020202020202020202020202064696C6176203B20202020464641322E2E44444132,
  0x574F525241204B43414C42204E574F442050552E2E574F5252412045544948572054534145204854524F4E2020302E3420232020202038564E203B2020202020203B20202020202020202020202020202020202064696C6176203B20202020443042322E2E30304232,
  0x4B43414C4220464C4148204D4F54544F422048544957204552415551532E2E53445241574E574F4420504954204854495720574F52524120534452415754484749522020312E3420232020202038564E203B2020202020203B20202020202020202020202020202020202064696C6176203B20202020333142322E2E45304232,
  0x45524155515320444554544F442E2E4B43414C4220464C4148204C414E4F474149442054484749522052455050552048544957204552415551532020302E3520232020202038564E203B2020202020203B20202020202020202020202020202020202064696C6176203B20202020413142322E2E34314232,
  0x4E4F4741544E4550204B43414C422E2E45524155515320454752414C204B43414C422020312E3520232020202038564E203B2020202020203B20202020202020202020202020202020202064696C6176203B20202020463142322E2E42314232,
  0x4E4F4741584548204B43414C42204C41544E4F5A49524F482E2E4E4F4741544E45502045544948572020302E3520232020202038564E203B2020202020203B20202020202020202020202020202020202064696C6176203B20202020333242322E2E30324232,
  0x524F54415245504F2045444C495420455352455645522045564F424120574F52524120534452415754484749522E2E454C4352494320454752414C204B43414C422020312E3520232020202038564E203B2020202020203B20202020202020202020202020202020202064696C6176203B20202020433442322E2E34324232,
  0x574F525241204854554F53204445544E414C534B4341422054524F48532E2E574F5252412047415A47495A204445444145482D454C474E414952542053445241574E574F442020302E3720232020202038564E203B2020202020203B20202020202020202020202020202020202064696C6176203B20202020463442322E2E44344232,
  0x4E4F4741544E455020474E49544E494F502D54484749522045544948572E2E52415453204D554944454D2045544948572020312E3520232020202038564E203B2020202020203B20202020202020202020202020202020202064696C6176203B20202020343542322E2E30354232,
  0x455249544C41532044454C435249432059564145482E2E454C4352494320454752414C2059564145482020322E3520232020202038564E203B2020202020203B20202020202020202020202020202020202064696C6176203B20202020393542322E2E35354232,
  0x524142204F5420574F525241204445444145482D454C474E414952542053445241574E574F442E2E444145482044454B4F4F48204854495720574F525241204854524F4E204445544E414C532020302E3720232020202038564E203B2020202020203B20202020202020202020202020202020202064696C6176203B20202020333742322E2E41354232,
  0x3E353742322D64657672657365723C2E2E3E343742322D64657672657365723C202020414E202320202020202020202020202020202020202020202020202020202020206465776F6C6C61736964203B20202020353742322E2E34374232,
  0x574F525241204B43414C4220534452415754484749522E2E524142204F5420574F525241204445444145482D454C474E414952542054534557204854524F4E2020302E3720232020202038564E203B2020202020203B20202020202020202020202020202020202064696C6176203B20202020353942322E2E36374232,
  0x3E363942322D64657672657365723C202020414E202320202020202020202020202020202020202020202020202020202020206465776F6C6C61736964203B2020202020202020202036394232,
  0x5343494E4F525443454C452041204550595420524F46204C4F424D595320302E333120232020202038564E203B2020202020203B20202020202020202020202020202020202064696C6176203B2020202020202020202037394232,
  0x584F4220454C474E41544345522041204E492044414548574F5252412050552E2E44414548574F525241204C41524554414C495551452053445241575446454C204445544847494C2D504F5420442D45455248542020302E3720232020202038564E203B2020202020203B20202020202020202020202020202020202064696C6176203B20202020394242322E2E38394232,
  0x53455241555153204B43414C4220474E495050414C5245564F2E2E5345524155515320455449485720474E495050414C5245564F20302E313120232020202038564E203B2020202020203B20202020202020202020202020202020202064696C6176203B20202020434242322E2E41424232,
  0x444552544E454320454C474E4149525420474E49544E494F502D5448474952204D554944454D204B43414C422E2E5820544847494C204854495720584F4220544F4C4C41422020302E3720232020202038564E203B2020202020203B20202020202020202020202020202020202064696C6176203B20202020384342322E2E44424232,
  0x4F5754204D524F4620454E555450454E20302E323120232020202038564E203B2020202020203B20202020202020202020202020202020202064696C6176203B2020202020202020202039434232,
  0x4E4749532059544E4941545245434E552E2E454C43524943204B43414C4220464C414820504F542020302E3720232020202038564E203B2020202020203B20202020202020202020202020202020202064696C6176203B20202020314442322E2E41434232,
  0x4B52414D2050554F524720302E303120232020202038564E203B2020202020203B20202020202020202020202020202020202064696C6176203B2020202020202020202032444232,
  0x4B43414C4220464C4148205448474952204854495720524154532E2E4F5754204D524F46204F54554C5020302E313120232020202038564E203B2020202020203B20202020202020202020202020202020202064696C6176203B20202020424542322E2E33444232,
  0x5344414548574F52524120454C474E41495254204854495720574F525241204445444145482D4F57542053445241574E574F442E2E5344414548574F52524120454C474E41495254204854495720574F525241204445444145482D4F57542053445241575446454C2020302E3820232020202038564E203B2020202020203B20202020202020202020202020202020202064696C6176203B20202020464542322E2E43454232,
  0x454C474E412054484749522044455352455645522E2E454E4F204D524F46205349524520302E313120232020202038564E203B2020202020203B20202020202020202020202020202020202064696C6176203B20202020454642322E2E30464232,
  0x4C4F424D5953204553554150205245424945524843534C4C454820302E323120232020202038564E203B2020202020203B20202020202020202020202020202020202064696C6176203B2020202020202020202046464232,
  0x555A412052455454454C204C41544950414320434954494C4F47414C472020312E3420232020202020202020202030334332203B202020202020202020202020202020202064657070616D203B2020202020202020202030304332,
  0x594B55422052455454454C204C41544950414320434954494C4F47414C472020312E3420232020202020202020202031334332203B202020202020202020202020202020202064657070616D203B2020202020202020202031304332,
  0x454445562052455454454C204C41544950414320434954494C4F47414C472020312E3420232020202020202020202032334332203B202020202020202020202020202020202064657070616D203B2020202020202020202032304332,
  0x494C4F47414C472052455454454C204C41544950414320434954494C4F47414C472020312E3420232020202020202020202033334332203B202020202020202020202020202020202064657070616D203B2020202020202020202033304332,
  0x4F52424F442052455454454C204C41544950414320434954494C4F47414C472020312E3420232020202020202020202034334332203B202020202020202020202020202020202064657070616D203B2020202020202020202034304332,
  0x55545345592052455454454C204C41544950414320434954494C4F47414C472020312E3420232020202020202020202035334332203B202020202020202020202020202020202064657070616D203B2020202020202020202035304332,
  0x4554455649485A2052455454454C204C41544950414320434954494C4F47414C472020312E3420232020202020202020202036334332203B202020202020202020202020202020202064657070616D203B2020202020202020202036304332,
  0x4F4C455A442052455454454C204C41544950414320434954494C4F47414C472020312E3420232020202020202020202037334332203B202020202020202020202020202020202064657070616D203B2020202020202020202037304332,
  0x414A4C4D455A2052455454454C204C41544950414320434954494C4F47414C472020312E3420232020202020202020202038334332203B202020202020202020202020202020202064657070616D203B2020202020202020202038304332,
  0x45485A492052455454454C204C41544950414320434954494C4F47414C472020312E3420232020202020202020202039334332203B202020202020202020202020202020202064657070616D203B2020202020202020202039304332,
  0x45485A49204C414954494E492052455454454C204C41544950414320434954494C4F47414C472020312E3420232020202020202020202041334332203B202020202020202020202020202020202064657070616D203B2020202020202020202041304332,
  0x492052455454454C204C41544950414320434954494C4F47414C472020312E3420232020202020202020202042334332203B202020202020202020202020202020202064657070616D203B2020202020202020202042304332,
  0x495652454A442052455454454C204C41544950414320434954494C4F47414C472020312E3420232020202020202020202043334332203B202020202020202020202020202020202064657070616D203B2020202020202020202043304332,
  0x4F4B414B2052455454454C204C41544950414320434954494C4F47414C472020312E3420232020202020202020202044334332203B202020202020202020202020202020202064657070616D203B2020202020202020202044304332,
  0x454A4944554A4C2052455454454C204C41544950414320434954494C4F47414C472020312E3420232020202020202020202045334332203B202020202020202020202020202020202064657070616D203B2020202020202020202045304332,
  0x4554494C53594D2052455454454C204C41544950414320434954494C4F47414C472020312E3420232020202020202020202046334332203B202020202020202020202020202020202064657070616D203B2020202020202020202046304332,
  0x494853414E2052455454454C204C41544950414320434954494C4F47414C472020312E3420232020202020202020202030344332203B202020202020202020202020202020202064657070616D203B2020202020202020202030314332,
  0x554E4F2052455454454C204C41544950414320434954494C4F47414C472020312E3420232020202020202020202031344332203B202020202020202020202020202020202064657070616D203B2020202020202020202031314332,
  0x494A4F4B4F502052455454454C204C41544950414320434954494C4F47414C472020312E3420232020202020202020202032344332203B202020202020202020202020202020202064657070616D203B2020202020202020202032314332,
  0x49535449522052455454454C204C41544950414320434954494C4F47414C472020312E3420232020202020202020202033344332203B202020202020202020202020202020202064657070616D203B2020202020202020202033314332,
  0x4F564F4C532052455454454C204C41544950414320434954494C4F47414C472020312E3420232020202020202020202034344332203B202020202020202020202020202020202064657070616D203B2020202020202020202034314332,
  0x4F44495256542052455454454C204C41544950414320434954494C4F47414C472020312E3420232020202020202020202035344332203B202020202020202020202020202020202064657070616D203B2020202020202020202035314332,
  0x554B552052455454454C204C41544950414320434954494C4F47414C472020312E3420232020202020202020202036344332203B202020202020202020202020202020202064657070616D203B2020202020202020202036314332,
  0x55544952462052455454454C204C41544950414320434954494C4F47414C472020312E3420232020202020202020202037344332203B202020202020202020202020202020202064657070616D203B2020202020202020202037314332,
  0x555245482052455454454C204C41544950414320434954494C4F47414C472020312E3420232020202020202020202038344332203B202020202020202020202020202020202064657070616D203B2020202020202020202038314332,
  0x55544F2052455454454C204C41544950414320434954494C4F47414C472020312E3420232020202020202020202039344332203B202020202020202020202020202020202064657070616D203B2020202020202020202039314332,
  0x45502052455454454C204C41544950414320434954494C4F47414C472020312E3420232020202020202020202041344332203B202020202020202020202020202020202064657070616D203B2020202020202020202041314332,
  0x415448532052455454454C204C41544950414320434954494C4F47414C472020312E3420232020202020202020202042344332203B202020202020202020202020202020202064657070616D203B2020202020202020202042314332,
  0x4953542052455454454C204C41544950414320434954494C4F47414C472020312E3420232020202020202020202043344332203B202020202020202020202020202020202064657070616D203B2020202020202020202043314332,
  0x4956495248432052455454454C204C41544950414320434954494C4F47414C472020312E3420232020202020202020202044344332203B202020202020202020202020202020202064657070616D203B2020202020202020202044314332,
  0x4148532052455454454C204C41544950414320434954494C4F47414C472020312E3420232020202020202020202045344332203B202020202020202020202020202020202064657070616D203B2020202020202020202045314332,
  0x555245592052455454454C204C41544950414320434954494C4F47414C472020312E3420232020202020202020202046344332203B202020202020202020202020202020202064657070616D203B2020202020202020202046314332,
  0x495245592052455454454C204C41544950414320434954494C4F47414C472020312E3420232020202020202020202030354332203B202020202020202020202020202020202064657070616D203B2020202020202020202030324332,
  0x495441592052455454454C204C41544950414320434954494C4F47414C472020312E3420232020202020202020202031354332203B202020202020202020202020202020202064657070616D203B2020202020202020202031324332,
  0x414820595245444950532052455454454C204C41544950414320434954494C4F47414C472020312E3420232020202020202020202032354332203B202020202020202020202020202020202064657070616D203B2020202020202020202032324332,
  0x55592052455454454C204C41544950414320434954494C4F47414C472020312E3420232020202020202020202033354332203B202020202020202020202020202020202064657070616D203B2020202020202020202033324332,
  0x535559204C4C414D532052455454454C204C41544950414320434954494C4F47414C472020312E3420232020202020202020202034354332203B202020202020202020202020202020202064657070616D203B2020202020202020202034324332,
  0x4C494154204854495720535559204C4C414D532052455454454C204C41544950414320434954494C4F47414C472020312E3420232020202020202020202035354332203B202020202020202020202020202020202064657070616D203B2020202020202020202035324332,
  0x4F592052455454454C204C41544950414320434954494C4F47414C472020312E3420232020202020202020202036354332203B202020202020202020202020202020202064657070616D203B2020202020202020202036324332,
  0x535559204C4C414D532044455441544F492052455454454C204C41544950414320434954494C4F47414C472020312E3420232020202020202020202037354332203B202020202020202020202020202020202064657070616D203B2020202020202020202037324332,
  0x535559204749422052455454454C204C41544950414320434954494C4F47414C472020312E3420232020202020202020202038354332203B202020202020202020202020202020202064657070616D203B2020202020202020202038324332,
  0x535559204749422044455441544F492052455454454C204C41544950414320434954494C4F47414C472020312E3420232020202020202020202039354332203B202020202020202020202020202020202064657070616D203B2020202020202020202039324332,
  0x415449462052455454454C204C41544950414320434954494C4F47414C472020312E3420232020202020202020202041354332203B202020202020202020202020202020202064657070616D203B2020202020202020202041324332,
  0x41535449485A492052455454454C204C41544950414320434954494C4F47414C472020312E3420232020202020202020202042354332203B202020202020202020202020202020202064657070616D203B2020202020202020202042324332,
  0x434950415448532052455454454C204C41544950414320434954494C4F47414C472020312E3420232020202020202020202043354332203B202020202020202020202020202020202064657070616D203B2020202020202020202043324332,
  0x41204954534154554B4F52542052455454454C204C41544950414320434954494C4F47414C472020312E3420232020202020202020202044354332203B202020202020202020202020202020202064657070616D203B2020202020202020202044324332,
  0x4554494C53594D204554414E4954414C2052455454454C204C41544950414320434954494C4F47414C472020312E3420232020202020202020202045354332203B202020202020202020202020202020202064657070616D203B2020202020202020202045324332,
  0x3E463243322D64657672657365723C202020414E202320202020202020202020202020202020202020202020202020202020206465776F6C6C61736964203B2020202020202020202046324332,
  0x4554494C53594D204554414E4954414C2052455454454C204C4C414D5320434954494C4F47414C472E2E555A412052455454454C204C4C414D5320434954494C4F47414C472020312E3420232020202020202020202020202020202020202020202020202020202020202020202064696C6176203B20202020453543322E2E30334332,
  0x3E463543322D64657672657365723C202020414E202320202020202020202020202020202020202020202020202020202020206465776F6C6C61736964203B2020202020202020202046354332,
  0x52414220454C42554F442048544957204C2052455454454C204C415449504143204E4954414C2020302E3520232020202020202020202031364332203B202020202020202020202020202020202064657070616D203B2020202020202020202030364332,
  0x52414220454C42554F442048544957204C2052455454454C204C4C414D53204E4954414C2020302E3520232020202020202020202020202020202020202020202020202020202020202020202064696C6176203B2020202020202020202031364332,
  0x45444C495420454C4444494D2048544957204C2052455454454C204C415449504143204E4954414C2020302E3520232020202020202020202042363230203B202020202020202020202020202020202064657070616D203B2020202020202020202032364332,
  0x454B4F525453204854495720502052455454454C204C415449504143204E4954414C2020302E3520232020202020202020202044374431203B202020202020202020202020202020202064657070616D203B2020202020202020202033364332,
  0x4C494154204854495720522052455454454C204C415449504143204E4954414C2020302E3520232020202020202020202044373230203B202020202020202020202020202020202064657070616D203B2020202020202020202034364332,
  0x454B4F525453204C414E4F47414944204854495720542052455454454C204C4C414D53204E4954414C2E2E454B4F525453204854495720412052455454454C204C4C414D53204E4954414C2020302E3520232020202020202020202020202020202020202020202020202020202020202020202064696C6176203B20202020363643322E2E35364332,
  0x5245444E4543534544204854495720482052455454454C204C415449504143204E4954414C2020302E3520232020202020202020202038364332203B202020202020202020202020202020202064657070616D203B2020202020202020202037364332,
  0x5245444E4543534544204854495720482052455454454C204C4C414D53204E4954414C2020302E3520232020202020202020202020202020202020202020202020202020202020202020202064696C6176203B2020202020202020202038364332,
  0x5245444E45435345442048544957204B2052455454454C204C415449504143204E4954414C2020302E3520232020202020202020202041364332203B202020202020202020202020202020202064657070616D203B2020202020202020202039364332,
  0x5245444E45435345442048544957204B2052455454454C204C4C414D53204E4954414C2020302E3520232020202020202020202020202020202020202020202020202020202020202020202064696C6176203B2020202020202020202041364332,
  0x5245444E45435345442048544957205A2052455454454C204C415449504143204E4954414C2020302E3520232020202020202020202043364332203B202020202020202020202020202020202064657070616D203B2020202020202020202042364332,
  0x5245444E45435345442048544957205A2052455454454C204C4C414D53204E4954414C2020302E3520232020202020202020202020202020202020202020202020202020202020202020202064696C6176203B2020202020202020202043364332,
  0x4148504C412052455454454C204C415449504143204E4954414C2020312E3520232020202020202020202031353230203B202020202020202020202020202020202064657070616D203B2020202020202020202044364332,
  0x4B4F4F482048544957204D2052455454454C204C415449504143204E4954414C2020312E3520232020202020202020202031373230203B202020202020202020202020202020202064657070616D203B2020202020202020202045364332,
  0x412044454E5255542052455454454C204C415449504143204E4954414C2020312E3520232020202020202020202030353230203B202020202020202020202020202020202064657070616D203B2020202020202020202046364332,
  0x4148504C412044454E5255542052455454454C204C415449504143204E4954414C2020322E3520232020202020202020202032353230203B202020202020202020202020202020202064657070616D203B2020202020202020202030374332,
  0x4B4F4F48205448474952204854495720562052455454454C204C4C414D53204E4954414C2020312E3520232020202020202020202020202020202020202020202020202020202020202020202064696C6176203B2020202020202020202031374332,
  0x4B4F4F48204854495720572052455454454C204C415449504143204E4954414C2020312E3520232020202020202020202033374332203B202020202020202020202020202020202064657070616D203B2020202020202020202032374332,
  0x4B4F4F48204854495720572052455454454C204C4C414D53204E4954414C2020312E3520232020202020202020202020202020202020202020202020202020202020202020202064696C6176203B2020202020202020202033374332,
  0x4C525543204854495720562052455454454C204C4C414D53204E4954414C2020302E3520232020202020202020202020202020202020202020202020202020202020202020202064696C6176203B2020202020202020202034374332,
  0x4820464C41482052455454454C204C415449504143204E4954414C2020302E3520232020202020202020202036374332203B202020202020202020202020202020202064657070616D203B2020202020202020202035374332,
  0x494850205353454C4C4941542052455454454C204C4C414D53204E4954414C2E2E4820464C41482052455454454C204C4C414D53204E4954414C2020302E3520232020202020202020202020202020202020202020202020202020202020202020202064696C6176203B20202020373743322E2E36374332,
  0x452044454E525554204C415449504143204C4C414D532052455454454C204E4954414C2E2E4843544F4E204854495720452052455454454C204C4C414D53204E4954414C2020312E3520232020202020202020202020202020202020202020202020202020202020202020202064696C6176203B20202020423743322E2E38374332,
  0x4A2052455454454C204C4C414D5320545049524353425553204E4954414C2020312E3520232020202020202020202041363030203B202020202020202020202020202020202064657070616D203B2020202020202020202043374332,
  0x56204C4154495041432052455454454C205245494649444F4D2020312E3520232020202020202020202036373030203B202020202020202020202020202020202064657070616D203B2020202020202020202044374332,
  0x4C494154204853415753204854495720532052455454454C204C415449504143204E4954414C2020322E3520232020202020202020202046333230203B202020202020202020202020202020202064657070616D203B2020202020202020202045374332,
  0x4C4941542048534157532048544957205A2052455454454C204C415449504143204E4954414C2020322E3520232020202020202020202030343230203B202020202020202020202020202020202064657070616D203B2020202020202020202046374332,
  0x41464C412052455454454C204C41544950414320434954504F432020312E3420232020202020202020202031384332203B202020202020202020202020202020202064657070616D203B2020202020202020202030384332,
  0x41464C412052455454454C204C4C414D5320434954504F432020312E3420232020202020202020202020202020202020202020202020202020202020202020202064696C6176203B2020202020202020202031384332,
  0x414449562052455454454C204C41544950414320434954504F432020312E3420232020202020202020202033384332203B202020202020202020202020202020202064657070616D203B2020202020202020202032384332,
  0x414449562052455454454C204C4C414D5320434954504F432020312E3420232020202020202020202020202020202020202020202020202020202020202020202064696C6176203B2020202020202020202033384332,
  0x414D4D41472052455454454C204C41544950414320434954504F432020312E3420232020202020202020202035384332203B202020202020202020202020202020202064657070616D203B2020202020202020202034384332,
  0x414D4D41472052455454454C204C4C414D5320434954504F432020312E3420232020202020202020202020202020202020202020202020202020202020202020202064696C6176203B2020202020202020202035384332,
  0x41444C41442052455454454C204C41544950414320434954504F432020312E3420232020202020202020202037384332203B202020202020202020202020202020202064657070616D203B2020202020202020202036384332,
  0x41444C41442052455454454C204C4C414D5320434954504F432020312E3420232020202020202020202020202020202020202020202020202020202020202020202064696C6176203B2020202020202020202037384332,
  0x4549452052455454454C204C41544950414320434954504F432020312E3420232020202020202020202039384332203B202020202020202020202020202020202064657070616D203B2020202020202020202038384332,
  0x4549452052455454454C204C4C414D5320434954504F432020312E3420232020202020202020202020202020202020202020202020202020202020202020202064696C6176203B2020202020202020202039384332,
  0x554F532052455454454C204C41544950414320434954504F432020312E3420232020202020202020202042384332203B202020202020202020202020202020202064657070616D203B2020202020202020202041384332,
  0x554F532052455454454C204C4C414D5320434954504F432020312E3420232020202020202020202020202020202020202020202020202020202020202020202064696C6176203B2020202020202020202042384332,
  0x4154415A2052455454454C204C41544950414320434954504F432020312E3420232020202020202020202044384332203B202020202020202020202020202020202064657070616D203B2020202020202020202043384332,
  0x4154415A2052455454454C204C4C414D5320434954504F432020312E3420232020202020202020202020202020202020202020202020202020202020202020202064696C6176203B2020202020202020202044384332,
  0x455441482052455454454C204C41544950414320434954504F432020312E3420232020202020202020202046384332203B202020202020202020202020202020202064657070616D203B2020202020202020202045384332,
  0x455441482052455454454C204C4C414D5320434954504F432020312E3420232020202020202020202020202020202020202020202020202020202020202020202064696C6176203B2020202020202020202046384332,
  0x4548544548542052455454454C204C41544950414320434954504F432020312E3420232020202020202020202031394332203B202020202020202020202020202020202064657070616D203B2020202020202020202030394332,
  0x4548544548542052455454454C204C4C414D5320434954504F432020312E3420232020202020202020202020202020202020202020202020202020202020202020202064696C6176203B2020202020202020202031394332,
  0x41445541492052455454454C204C41544950414320434954504F432020312E3420232020202020202020202033394332203B202020202020202020202020202020202064657070616D203B2020202020202020202032394332,
  0x41445541492052455454454C204C4C414D5320434954504F432020312E3420232020202020202020202020202020202020202020202020202020202020202020202064696C6176203B2020202020202020202033394332,
  0x4150414B2052455454454C204C41544950414320434954504F432020312E3420232020202020202020202035394332203B202020202020202020202020202020202064657070616D203B2020202020202020202034394332,
  0x4150414B2052455454454C204C4C414D5320434954504F432020312E3420232020202020202020202020202020202020202020202020202020202020202020202064696C6176203B2020202020202020202035394332,
  0x414C55414C2052455454454C204C41544950414320434954504F432020312E3420232020202020202020202037394332203B202020202020202020202020202020202064657070616D203B2020202020202020202036394332,
  0x414C55414C2052455454454C204C4C414D5320434954504F432020312E3420232020202020202020202020202020202020202020202020202020202020202020202064696C6176203B2020202020202020202037394332,
  0x494D2052455454454C204C41544950414320434954504F432020312E3420232020202020202020202039394332203B202020202020202020202020202020202064657070616D203B2020202020202020202038394332,
  0x494D2052455454454C204C4C414D5320434954504F432020312E3420232020202020202020202020202020202020202020202020202020202020202020202064696C6176203B2020202020202020202039394332,
  0x494E2052455454454C204C41544950414320434954504F432020312E3420232020202020202020202042394332203B202020202020202020202020202020202064657070616D203B2020202020202020202041394332,
  0x494E2052455454454C204C4C414D5320434954504F432020312E3420232020202020202020202020202020202020202020202020202020202020202020202064696C6176203B2020202020202020202042394332,
  0x49534B2052455454454C204C41544950414320434954504F432020312E3420232020202020202020202044394332203B202020202020202020202020202020202064657070616D203B2020202020202020202043394332,
  0x49534B2052455454454C204C4C414D5320434954504F432020312E3420232020202020202020202020202020202020202020202020202020202020202020202064696C6176203B2020202020202020202044394332,
  0x4F2052455454454C204C41544950414320434954504F432020312E3420232020202020202020202046394332203B202020202020202020202020202020202064657070616D203B2020202020202020202045394332,
  0x4F2052455454454C204C4C414D5320434954504F432020312E3420232020202020202020202020202020202020202020202020202020202020202020202064696C6176203B2020202020202020202046394332,
  0x49502052455454454C204C41544950414320434954504F432020312E3420232020202020202020202031414332203B202020202020202020202020202020202064657070616D203B2020202020202020202030414332,
  0x49502052455454454C204C4C414D5320434954504F432020312E3420232020202020202020202020202020202020202020202020202020202020202020202064696C6176203B2020202020202020202031414332,
  0x4F522052455454454C204C41544950414320434954504F432020312E3420232020202020202020202033414332203B202020202020202020202020202020202064657070616D203B2020202020202020202032414332,
  0x4F522052455454454C204C4C414D5320434954504F432020312E3420232020202020202020202020202020202020202020202020202020202020202020202064696C6176203B2020202020202020202033414332,
  0x414D49532052455454454C204C41544950414320434954504F432020312E3420232020202020202020202035414332203B202020202020202020202020202020202064657070616D203B2020202020202020202034414332,
  0x414D49532052455454454C204C4C414D5320434954504F432020312E3420232020202020202020202020202020202020202020202020202020202020202020202064696C6176203B2020202020202020202035414332,
  0x5541542052455454454C204C41544950414320434954504F432020312E3420232020202020202020202037414332203B202020202020202020202020202020202064657070616D203B2020202020202020202036414332,
  0x5541542052455454454C204C4C414D5320434954504F432020312E3420232020202020202020202020202020202020202020202020202020202020202020202064696C6176203B2020202020202020202037414332,
  0x41552052455454454C204C41544950414320434954504F432020312E3420232020202020202020202039414332203B202020202020202020202020202020202064657070616D203B2020202020202020202038414332,
  0x41552052455454454C204C4C414D5320434954504F432020312E3420232020202020202020202020202020202020202020202020202020202020202020202064696C6176203B2020202020202020202039414332,
  0x49462052455454454C204C41544950414320434954504F432020312E3420232020202020202020202042414332203B202020202020202020202020202020202064657070616D203B2020202020202020202041414332,
  0x49462052455454454C204C4C414D5320434954504F432020312E3420232020202020202020202020202020202020202020202020202020202020202020202064696C6176203B2020202020202020202042414332,
  0x49484B2052455454454C204C41544950414320434954504F432020312E3420232020202020202020202044414332203B202020202020202020202020202020202064657070616D203B2020202020202020202043414332,
  0x49484B2052455454454C204C4C414D5320434954504F432020312E3420232020202020202020202020202020202020202020202020202020202020202020202064696C6176203B2020202020202020202044414332,
  0x4953502052455454454C204C41544950414320434954504F432020312E3420232020202020202020202046414332203B202020202020202020202020202020202064657070616D203B2020202020202020202045414332,
  0x4953502052455454454C204C4C414D5320434954504F432020312E3420232020202020202020202020202020202020202020202020202020202020202020202064696C6176203B2020202020202020202046414332,
  0x554F4F2052455454454C204C41544950414320434954504F432020312E3420232020202020202020202031424332203B202020202020202020202020202020202064657070616D203B2020202020202020202030424332,
  0x554F4F2052455454454C204C4C414D5320434954504F432020312E3420232020202020202020202020202020202020202020202020202020202020202020202064696C6176203B2020202020202020202031424332,
  0x46454C4120502D5443454C4149442052455454454C204C41544950414320434954504F432020312E3420232020202020202020202033424332203B202020202020202020202020202020202064657070616D203B2020202020202020202032424332,
  0x46454C4120502D5443454C4149442052455454454C204C4C414D5320434954504F432020312E3420232020202020202020202020202020202020202020202020202020202020202020202064696C6176203B2020202020202020202033424332,
  0x4E494120434954504F4320444C4F2052455454454C204C41544950414320434954504F432020312E3420232020202020202020202035424332203B202020202020202020202020202020202064657070616D203B2020202020202020202034424332,
  0x4E494120434954504F4320444C4F2052455454454C204C4C414D5320434954504F432020312E3420232020202020202020202020202020202020202020202020202020202020202020202064696C6176203B2020202020202020202035424332,
  0x4549452043494D4D4152474F54505952432052455454454C204C41544950414320434954504F432020312E3420232020202020202020202037424332203B202020202020202020202020202020202064657070616D203B2020202020202020202036424332,
  0x4549452043494D4D4152474F54505952432052455454454C204C4C414D5320434954504F432020312E3420232020202020202020202020202020202020202020202020202020202020202020202064696C6176203B2020202020202020202037424332,
  0x4150414B20502D5443454C4149442052455454454C204C41544950414320434954504F432020312E3420232020202020202020202039424332203B202020202020202020202020202020202064657070616D203B2020202020202020202038424332,
  0x4150414B20502D5443454C4149442052455454454C204C4C414D5320434954504F432020312E3420232020202020202020202020202020202020202020202020202020202020202020202064696C6176203B2020202020202020202039424332,
  0x494E20502D5443454C4149442052455454454C204C41544950414320434954504F432020312E3420232020202020202020202042424332203B202020202020202020202020202020202064657070616D203B2020202020202020202041424332,
  0x494E20502D5443454C4149442052455454454C204C4C414D5320434954504F432020312E3420232020202020202020202020202020202020202020202020202020202020202020202064696C6176203B2020202020202020202042424332,
  0x494E2043494D4D4152474F54505952432052455454454C204C41544950414320434954504F432020312E3420232020202020202020202044424332203B202020202020202020202020202020202064657070616D203B2020202020202020202043424332,
  0x494E2043494D4D4152474F54505952432052455454454C204C4C414D5320434954504F432020312E3420232020202020202020202020202020202020202020202020202020202020202020202064696C6176203B2020202020202020202044424332,
  0x554F4F20434954504F4320444C4F2052455454454C204C41544950414320434954504F432020312E3420232020202020202020202046424332203B202020202020202020202020202020202064657070616D203B2020202020202020202045424332,
  0x554F4F20434954504F4320444C4F2052455454454C204C4C414D5320434954504F432020312E3420232020202020202020202020202020202020202020202020202020202020202020202064696C6176203B2020202020202020202046424332,
  0x49504D41532052455454454C204C41544950414320434954504F432020312E3420232020202020202020202031434332203B202020202020202020202020202020202064657070616D203B2020202020202020202030434332,
  0x49504D41532052455454454C204C4C414D5320434954504F432020312E3420232020202020202020202020202020202020202020202020202020202020202020202064696C6176203B2020202020202020202031434332,
  0x4945485320444553534F52432052455454454C204C41544950414320434954504F432020312E3420232020202020202020202033434332203B202020202020202020202020202020202064657070616D203B2020202020202020202032434332,
  0x4945485320444553534F52432052455454454C204C4C414D5320434954504F432020312E3420232020202020202020202020202020202020202020202020202020202020202020202064696C6176203B2020202020202020202033434332,
  0x4945485320434954504F4320444C4F2052455454454C204C41544950414320434954504F432020312E3420232020202020202020202035434332203B202020202020202020202020202020202064657070616D203B2020202020202020202034434332,
  0x4945485320434954504F4320444C4F2052455454454C204C4C414D5320434954504F432020312E3420232020202020202020202020202020202020202020202020202020202020202020202064696C6176203B2020202020202020202035434332,
  0x48534520434954504F4320444C4F2052455454454C204C41544950414320434954504F432020312E3420232020202020202020202037434332203B202020202020202020202020202020202064657070616D203B2020202020202020202036434332,
  0x48534520434954504F4320444C4F2052455454454C204C4C414D5320434954504F432020312E3420232020202020202020202020202020202020202020202020202020202020202020202064696C6176203B2020202020202020202037434332,
  0x4945484B2043494D494D484B412052455454454C204C41544950414320434954504F432020312E3420232020202020202020202039434332203B202020202020202020202020202020202064657070616D203B2020202020202020202038434332,
  0x4945484B2043494D494D484B412052455454454C204C4C414D5320434954504F432020312E3420232020202020202020202020202020202020202020202020202020202020202020202064696C6176203B2020202020202020202039434332,
  0x49524F4820502D5443454C4149442052455454454C204C41544950414320434954504F432020312E3420232020202020202020202042434332203B202020202020202020202020202020202064657070616D203B2020202020202020202041434332,
  0x49524F4820502D5443454C4149442052455454454C204C4C414D5320434954504F432020312E3420232020202020202020202020202020202020202020202020202020202020202020202064696C6176203B2020202020202020202042434332,
  0x49524F4820434954504F4320444C4F2052455454454C204C41544950414320434954504F432020312E3420232020202020202020202044434332203B202020202020202020202020202020202064657070616D203B2020202020202020202043434332,
  0x49524F4820434954504F4320444C4F2052455454454C204C4C414D5320434954504F432020312E3420232020202020202020202020202020202020202020202020202020202020202020202064696C6176203B2020202020202020202044434332,
  0x414820434954504F4320444C4F2052455454454C204C41544950414320434954504F432020312E3420232020202020202020202046434332203B202020202020202020202020202020202064657070616D203B2020202020202020202045434332,
  0x414820434954504F4320444C4F2052455454454C204C4C414D5320434954504F432020312E3420232020202020202020202020202020202020202020202020202020202020202020202064696C6176203B2020202020202020202046434332,
  0x4148204445504148532D4C2052455454454C204C41544950414320434954504F432020312E3420232020202020202020202031444332203B202020202020202020202020202020202064657070616D203B2020202020202020202030444332,
  0x4148204445504148532D4C2052455454454C204C4C414D5320434954504F432020312E3420232020202020202020202020202020202020202020202020202020202020202020202064696C6176203B2020202020202020202031444332,
  0x49454820434954504F4320444C4F2052455454454C204C41544950414320434954504F432020312E3420232020202020202020202033444332203B202020202020202020202020202020202064657070616D203B2020202020202020202032444332,
  0x49454820434954504F4320444C4F2052455454454C204C4C414D5320434954504F432020312E3420232020202020202020202020202020202020202020202020202020202020202020202064696C6176203B2020202020202020202033444332,
  0x54414820434954504F4320444C4F2052455454454C204C41544950414320434954504F432020312E3420232020202020202020202035444332203B202020202020202020202020202020202064657070616D203B2020202020202020202034444332,
  0x54414820434954504F4320444C4F2052455454454C204C4C414D5320434954504F432020312E3420232020202020202020202020202020202020202020202020202020202020202020202064696C6176203B2020202020202020202035444332,
  0x4149474E414720434954504F4320444C4F2052455454454C204C41544950414320434954504F432020312E3420232020202020202020202037444332203B202020202020202020202020202020202064657070616D203B2020202020202020202036444332,
  0x4149474E414720434954504F4320444C4F2052455454454C204C4C414D5320434954504F432020312E3420232020202020202020202020202020202020202020202020202020202020202020202064696C6176203B2020202020202020202037444332,
  0x414A4420434954504F4320444C4F2052455454454C204C41544950414320434954504F432020312E3420232020202020202020202039444332203B202020202020202020202020202020202064657070616D203B2020202020202020202038444332,
  0x414A4420434954504F4320444C4F2052455454454C204C4C414D5320434954504F432020312E3420232020202020202020202020202020202020202020202020202020202020202020202064696C6176203B2020202020202020202039444332,
  0x414D49485320434954504F4320444C4F2052455454454C204C41544950414320434954504F432020312E3420232020202020202020202042444332203B202020202020202020202020202020202064657070616D203B2020202020202020202041444332,
  0x414D49485320434954504F4320444C4F2052455454454C204C4C414D5320434954504F432020312E3420232020202020202020202020202020202020202020202020202020202020202020202064696C6176203B2020202020202020202042444332,
  0x414D494853204E414942554E20444C4F2052455454454C204C41544950414320434954504F432020312E3420232020202020202020202044444332203B202020202020202020202020202020202064657070616D203B2020202020202020202043444332,
  0x414D494853204E414942554E20444C4F2052455454454C204C4C414D5320434954504F432020312E3420232020202020202020202020202020202020202020202020202020202020202020202064696C6176203B2020202020202020202044444332,
  0x49474E204E414942554E20444C4F2052455454454C204C41544950414320434954504F432020312E3420232020202020202020202046444332203B202020202020202020202020202020202064657070616D203B2020202020202020202045444332,
  0x49474E204E414942554E20444C4F2052455454454C204C4C414D5320434954504F432020312E3420232020202020202020202020202020202020202020202020202020202020202020202064696C6176203B2020202020202020202046444332,
  0x49594E204E414942554E20444C4F2052455454454C204C41544950414320434954504F432020312E3420232020202020202020202031454332203B202020202020202020202020202020202064657070616D203B2020202020202020202030454332,
  0x49594E204E414942554E20444C4F2052455454454C204C4C414D5320434954504F432020312E3420232020202020202020202020202020202020202020202020202020202020202020202064696C6176203B2020202020202020202031454332,
  0x554157204E414942554E20444C4F2052455454454C204C41544950414320434954504F432020312E3420232020202020202020202033454332203B202020202020202020202020202020202064657070616D203B2020202020202020202032454332,
  0x49414B204C4F424D595320434954504F432E2E554157204E414942554E20444C4F2052455454454C204C4C414D5320434954504F432020312E3420232020202020202020202020202020202020202020202020202020202020202020202064696C6176203B20202020344543322E2E33454332,
  0x414D495320414D494853204C4F424D595320434954504F432E2E4F5220494D204C4F424D595320434954504F432020312E3420232020202038564E203B2020202020203B20202020202020202020202020202020202064696C6176203B20202020414543322E2E35454332,
  0x494548532043494D4D4152474F54505952432052455454454C204C41544950414320434954504F432020322E3520232020202020202020202043454332203B202020202020202020202020202020202064657070616D203B2020202020202020202042454332,
  0x494548532043494D4D4152474F54505952432052455454454C204C4C414D5320434954504F432020322E3520232020202020202020202020202020202020202020202020202020202020202020202064696C6176203B2020202020202020202043454332,
  0x4149474E41472043494D4D4152474F54505952432052455454454C204C41544950414320434954504F432020322E3520232020202020202020202045454332203B202020202020202020202020202020202064657070616D203B2020202020202020202044454332,
  0x53494E454C20535554495249505320474E494E49424D4F4320434954504F432E2E4149474E41472043494D4D4152474F54505952432052455454454C204C4C414D5320434954504F432020322E3520232020202020202020202020202020202020202020202020202020202020202020202064696C6176203B20202020314643322E2E45454332,
  0x4945484B204349524941484F422052455454454C204C41544950414320434954504F432020312E3620232020202020202020202033464332203B202020202020202020202020202020202064657070616D203B2020202020202020202032464332,
  0x4945484B204349524941484F422052455454454C204C4C414D5320434954504F432020312E3620232020202020202020202020202020202020202020202020202020202020202020202064696C6176203B2020202020202020202033464332,
  0x3E384643322D64657672657365723C2E2E3E344643322D64657672657365723C202020414E202320202020202020202020202020202020202020202020202020202020206465776F6C6C61736964203B20202020384643322E2E34464332,
  0x52454449564944204C414349474F4C4F4850524F4D20434954504F432E2E504F5453204C4C5546204E414942554E20444C4F20434954504F432020312E3420232020202038564E203B2020202020203B20202020202020202020202020202020202064696C6176203B20202020464643322E2E39464332,
  0x454F482052455454454C204C4C414D53204E414947524F45472E2E4E412052455454454C204C4C414D53204E414947524F45472020312E3420232020202020202020202020202020202020202020202020202020202020202020202064696C6176203B20202020353244322E2E30304432,
  0x3E363244322D64657672657365723C202020414E202320202020202020202020202020202020202020202020202020202020206465776F6C6C61736964203B2020202020202020202036324432,
  0x4E592052455454454C204C4C414D53204E414947524F45472020312E3620232020202020202020202020202020202020202020202020202020202020202020202064696C6176203B2020202020202020202037324432,
  0x3E433244322D64657672657365723C2E2E3E383244322D64657672657365723C202020414E202320202020202020202020202020202020202020202020202020202020206465776F6C6C61736964203B20202020433244322E2E38324432,
  0x4E45412052455454454C204C4C414D53204E414947524F45472020312E3620232020202020202020202020202020202020202020202020202020202020202020202064696C6176203B2020202020202020202044324432,
  0x3E463244322D64657672657365723C2E2E3E453244322D64657672657365723C202020414E202320202020202020202020202020202020202020202020202020202020206465776F6C6C61736964203B20202020463244322E2E45324432,
  0x5A5A41592052455454454C204847414E494649542E2E41592052455454454C204847414E494649542020312E3420232020202020202020202020202020202020202020202020202020202020202020202064696C6176203B20202020353644322E2E30334432,
  0x4F592052455454454C204847414E494649542E2E45592052455454454C204847414E494649542020312E3620232020202020202020202020202020202020202020202020202020202020202020202064696C6176203B20202020373644322E2E36364432,
  0x3E453644322D64657672657365723C2E2E3E383644322D64657672657365723C202020414E202320202020202020202020202020202020202020202020202020202020206465776F6C6C61736964203B20202020453644322E2E38364432,
  0x4B52414D204E4F4954415A494C414942414C2052455454454C205245494649444F4D204847414E494649542020312E3420232020202020202020202031364432203B202020202020202020202020202020202064657070616D203B2020202020202020202046364432,
  0x4B52414D20524F54415241504553204847414E494649542020302E3620232020202038564E203B2020202020203B20202020202020202020202020202020202064696C6176203B2020202020202020202030374432,
  0x3E453744322D64657672657365723C2E2E3E313744322D64657672657365723C202020414E202320202020202020202020202020202020202020202020202020202020206465776F6C6C61736964203B20202020453744322E2E31374432,
  0x52454E494F4A20544E414E4F534E4F43204847414E494649542020302E3620232020202020202020202020202020202020202020202020202020202020202020202064696C6176203B2020202020202020202046374432,
  0x4557474720454C42414C4C5953204349504F494854452E2E414F4C20454C42414C4C5953204349504F494854452020312E3420232020202020202020202020202020202020202020202020202020202020202020202064696C6176203B20202020363944322E2E30384432,
  0x3E463944322D64657672657365723C2E2E3E373944322D64657672657365723C202020414E202320202020202020202020202020202020202020202020202020202020206465776F6C6C61736964203B20202020463944322E2E37394432]

def mapText12 : List Nat := [
  0x4F535320454C42414C4C5953204349504F494854452E2E41535320454C42414C4C5953204349504F494854452020312E3420232020202020202020202020202020202020202020202020202020202020202020202064696C6176203B20202020364144322E2E30414432,
  0x3E374144322D64657672657365723C202020414E202320202020202020202020202020202020202020202020202020202020206465776F6C6C61736964203B2020202020202020202037414432,
  0x4F434320454C42414C4C5953204349504F494854452E2E41434320454C42414C4C5953204349504F494854452020312E3420232020202020202020202020202020202020202020202020202020202020202020202064696C6176203B20202020454144322E2E38414432,
  0x3E464144322D64657672657365723C202020414E202320202020202020202020202020202020202020202020202020202020206465776F6C6C61736964203B2020202020202020202046414432,
  0x4F5A5A20454C42414C4C5953204349504F494854452E2E415A5A20454C42414C4C5953204349504F494854452020312E3420232020202020202020202020202020202020202020202020202020202020202020202064696C6176203B20202020364244322E2E30424432,
  0x3E374244322D64657672657365723C202020414E202320202020202020202020202020202020202020202020202020202020206465776F6C6C61736964203B2020202020202020202037424432,
  0x4F48434320454C42414C4C5953204349504F494854452E2E4148434320454C42414C4C5953204349504F494854452020312E3420232020202020202020202020202020202020202020202020202020202020202020202064696C6176203B20202020454244322E2E38424432,
  0x3E464244322D64657672657365723C202020414E202320202020202020202020202020202020202020202020202020202020206465776F6C6C61736964203B2020202020202020202046424432,
  0x4F595120454C42414C4C5953204349504F494854452E2E41595120454C42414C4C5953204349504F494854452020312E3420232020202020202020202020202020202020202020202020202020202020202020202064696C6176203B20202020364344322E2E30434432,
  0x3E374344322D64657672657365723C202020414E202320202020202020202020202020202020202020202020202020202020206465776F6C6C61736964203B2020202020202020202037434432,
  0x4F594B20454C42414C4C5953204349504F494854452E2E41594B20454C42414C4C5953204349504F494854452020312E3420232020202020202020202020202020202020202020202020202020202020202020202064696C6176203B20202020454344322E2E38434432,
  0x3E464344322D64657672657365723C202020414E202320202020202020202020202020202020202020202020202020202020206465776F6C6C61736964203B2020202020202020202046434432,
  0x4F595820454C42414C4C5953204349504F494854452E2E41595820454C42414C4C5953204349504F494854452020312E3420232020202020202020202020202020202020202020202020202020202020202020202064696C6176203B20202020364444322E2E30444432,
  0x3E374444322D64657672657365723C202020414E202320202020202020202020202020202020202020202020202020202020206465776F6C6C61736964203B2020202020202020202037444432,
  0x4F594720454C42414C4C5953204349504F494854452E2E41594720454C42414C4C5953204349504F494854452020312E3420232020202020202020202020202020202020202020202020202020202020202020202064696C6176203B20202020454444322E2E38444432,
  0x3E464444322D64657672657365723C202020414E202320202020202020202020202020202020202020202020202020202020206465776F6C6C61736964203B2020202020202020202046444432,
  0x53555920474942204445494649544F492052455454454C2043494C4C4952594320474E494E49424D4F432E2E45422052455454454C2043494C4C4952594320474E494E49424D4F432020312E3520232020202020202020202020202020202020202020202020202020202020202020202064696C6176203B20202020464644322E2E30454432,
  0x4E454850594820455551494C424F20454C42554F442E2E52454B52414D204E4F4954555449545342555320454C474E412054484749522020312E3420232020202038564E203B2020202020203B20202020202020202020202020202020202064696C6176203B20202020373145322E2E30304532,
  0x45564F424120474E495220485449572045444C49542E2E474E41424F525245544E49204445545245564E492020312E3520232020202038564E203B2020202020203B20202020202020202020202020202020202064696C6176203B20202020423145322E2E38314532,
  0x54454B43415242204553415248504152415020574F4C2054484749522E2E54454B43415242204553415248504152415020574F4C205446454C2020312E3420232020202038564E203B2020202020203B20202020202020202020202020202020202064696C6176203B20202020443145322E2E43314532,
  0x4B52414D204E4F4954534555512044455352455645522E2E45564F424120544F4420485449572045444C49542020312E3520232020202038564E203B2020202020203B20202020202020202020202020202020202064696C6176203B20202020453245322E2E45314532,
  0x45444C4954204C414349545245562020312E3520232020202020202020202020202020202020202020202020202020202020202020202064696C6176203B2020202020202020202046324532,
  0x544E494F5020474E49522020312E3520232020202038564E203B2020202020203B20202020202020202020202020202020202064696C6176203B2020202020202020202030334532,
  0x544F4420454C4444494D20524F544152415045532044524F572020322E3520232020202038564E203B2020202020203B20202020202020202020202020202020202064696C6176203B2020202020202020202031334532,
  0x48534144204D452D45455248542E2E414D4D4F432044454E5255542020312E3620232020202038564E203B2020202020203B20202020202020202020202020202020202064696C6176203B20202020423345322E2E32334532,
  0x4B52414D204E4F495441544F555120392D44455352455645522D574F4C20454C42554F442E2E504F5453204C4C554620434948504152474F4E4554532020302E3720232020202038564E203B2020202020203B20202020202020202020202020202020202064696C6176203B20202020323445322E2E43334532,
  0x4B52414D204E4F49534E455053555320454C42554F442E2E4E5255545055205446454C204854495720485341442020302E3920232020202038564E203B2020202020203B20202020202020202020202020202020202064696C6176203B20202020343445322E2E33344532,
  0x414D4D4F432044454B4341545320454C42554F442E2E414B5956414B20574F4C204445545245564E4920302E303120232020202038564E203B2020202020203B20202020202020202020202020202020202064696C6176203B20202020393445322E2E35344532,
  0x4B52414D205355544156454C4520535554434E55502E2E535544494C4F5320444554544F4420302E313120232020202038564E203B2020202020203B20202020202020202020202020202020202064696C6176203B20202020453445322E2E41344532,
  0x52454449564944204553524556204853494E524F4320302E323120232020202038564E203B2020202020203B20202020202020202020202020202020202064696C6176203B2020202020202020202046344532,
  0x5445204C415449504143204E474953204E41494E4F5249542E2E52414253534F524320544847495220485449572059545441502053534F524320302E333120232020202038564E203B2020202020203B20202020202020202020202020202020202064696C6176203B20202020323545322E2E30354532,
  0x3E463745322D64657672657365723C2E2E3E333545322D64657672657365723C202020414E202320202020202020202020202020202020202020202020202020202020206465776F6C6C61736964203B20202020463745322E2E33354532,
  0x504152204C414349444152204B4A432E2E544145504552204C414349444152204B4A432020302E3320232020202038564E203B2020202020203B20202020202020202020202020202020202064696C6176203B20202020393945322E2E30384532,
  0x3E413945322D64657672657365723C202020414E202320202020202020202020202020202020202020202020202020202020206465776F6C6C61736964203B2020202020202020202041394532,
  0x4854414544204C414349444152204B4A432E2E454B4F4843204C414349444152204B4A432020302E3320232020202038564E203B2020202020203B20202020202020202020202020202020202064696C6176203B20202020453945322E2E42394532,
  0x524548544F4D204C414349444152204B4A432020302E3320232020202020202020202044434236203B202020202020202020202020202020202064657070616D203B2020202020202020202046394532,
  0x454C545255542044454946494C504D49532D4A204C414349444152204B4A432E2E4E41494C49564943204C414349444152204B4A432020302E3320232020202038564E203B2020202020203B20202020202020202020202020202020202064696C6176203B20202020324645322E2E30414532,
  0x454C545255542044454946494C504D49532D43204C414349444152204B4A432020302E3320232020202020202020202046394639203B202020202020202020202020202020202064657070616D203B2020202020202020202033464532,
  0x3E464645322D64657672657365723C2E2E3E344645322D64657672657365723C202020414E202320202020202020202020202020202020202020202020202020202020206465776F6C6C61736964203B20202020464645322E2E34464532,
  0x454E4F204C414349444152204958474E414B2020302E3320232020202020202020202030304534203B202020202020202020202020202020202064657070616D203B2020202020202020202030304632,
  0x454E494C204C414349444152204958474E414B2020302E3320232020202020202020202038324534203B202020202020202020202020202020202064657070616D203B2020202020202020202031304632,
  0x544F44204C414349444152204958474E414B2020302E3320232020202020202020202036334534203B202020202020202020202020202020202064657070616D203B2020202020202020202032304632,
  0x4853414C53204C414349444152204958474E414B2020302E3320232020202020202020202046334534203B202020202020202020202020202020202064657070616D203B2020202020202020202033304632,
  0x444E4F434553204C414349444152204958474E414B2020302E3320232020202020202020202039354534203B202020202020202020202020202020202064657070616D203B2020202020202020202034304632,
  0x4B4F4F48204C414349444152204958474E414B2020302E3320232020202020202020202035384534203B202020202020202020202020202020202064657070616D203B2020202020202020202035304632,
  0x4F5754204C414349444152204958474E414B2020302E3320232020202020202020202043384534203B202020202020202020202020202020202064657070616D203B2020202020202020202036304632,
  0x44494C204C414349444152204958474E414B2020302E3320232020202020202020202030414534203B202020202020202020202020202020202064657070616D203B2020202020202020202037304632,
  0x4E414D204C414349444152204958474E414B2020302E3320232020202020202020202041424534203B202020202020202020202020202020202064657070616D203B2020202020202020202038304632,
  0x5347454C204C414349444152204958474E414B2020302E3320232020202020202020202046333135203B202020202020202020202020202020202064657070616D203B2020202020202020202039304632,
  0x5245544E45204C414349444152204958474E414B2020302E3320232020202020202020202035363135203B202020202020202020202020202020202064657070616D203B2020202020202020202041304632,
  0x5448474945204C414349444152204958474E414B2020302E3320232020202020202020202042363135203B202020202020202020202020202020202064657070616D203B2020202020202020202042304632,
  0x584F42204E574F44204C414349444152204958474E414B2020302E3320232020202020202020202032383135203B202020202020202020202020202020202064657070616D203B2020202020202020202043304632,
  0x5245564F43204C414349444152204958474E414B2020302E3320232020202020202020202036393135203B202020202020202020202020202020202064657070616D203B2020202020202020202044304632,
  0x454349204C414349444152204958474E414B2020302E3320232020202020202020202042413135203B202020202020202020202020202020202064657070616D203B2020202020202020202045304632,
  0x454C424154204C414349444152204958474E414B2020302E3320232020202020202020202030453135203B202020202020202020202020202020202064657070616D203B2020202020202020202046304632,
  0x584F42204E45504F204C414349444152204958474E414B2020302E3320232020202020202020202035463135203B202020202020202020202020202020202064657070616D203B2020202020202020202030314632,
  0x4546494E4B204C414349444152204958474E414B2020302E3320232020202020202020202030303235203B202020202020202020202020202020202064657070616D203B2020202020202020202031314632,
  0x5245574F50204C414349444152204958474E414B2020302E3320232020202020202020202042393235203B202020202020202020202020202020202064657070616D203B2020202020202020202032314632,
  0x50415257204C414349444152204958474E414B2020302E3320232020202020202020202039463235203B202020202020202020202020202020202064657070616D203B2020202020202020202033314632,
  0x4E4F4F5053204C414349444152204958474E414B2020302E3320232020202020202020202035313335203B202020202020202020202020202020202064657070616D203B2020202020202020202034314632,
  0x584F42204E45504F205448474952204C414349444152204958474E414B2020302E3320232020202020202020202041313335203B202020202020202020202020202020202064657070616D203B2020202020202020202035314632,
  0x455255534F4C434E4520474E49444948204C414349444152204958474E414B2020302E3320232020202020202020202038333335203B202020202020202020202020202020202064657070616D203B2020202020202020202036314632,
  0x4E4554204C414349444152204958474E414B2020302E3320232020202020202020202031343335203B202020202020202020202020202020202064657070616D203B2020202020202020202037314632,
  0x4E4F4954414E49564944204C414349444152204958474E414B2020302E3320232020202020202020202043353335203B202020202020202020202020202020202064657070616D203B2020202020202020202038314632,
  0x4C414553204C414349444152204958474E414B2020302E3320232020202020202020202039363335203B202020202020202020202020202020202064657070616D203B2020202020202020202039314632,
  0x4646494C43204C414349444152204958474E414B2020302E3320232020202020202020202032383335203B202020202020202020202020202020202064657070616D203B2020202020202020202041314632,
  0x45544156495250204C414349444152204958474E414B2020302E3320232020202020202020202036423335203B202020202020202020202020202020202064657070616D203B2020202020202020202042314632,
  0x4E49414741204C414349444152204958474E414B2020302E3320232020202020202020202038433335203B202020202020202020202020202020202064657070616D203B2020202020202020202043314632,
  0x4854554F4D204C414349444152204958474E414B2020302E3320232020202020202020202033453335203B202020202020202020202020202020202064657070616D203B2020202020202020202044314632,
  0x455255534F4C434E45204C414349444152204958474E414B2020302E3320232020202020202020202037443635203B202020202020202020202020202020202064657070616D203B2020202020202020202045314632,
  0x4854524145204C414349444152204958474E414B2020302E3320232020202020202020202046313735203B202020202020202020202020202020202064657070616D203B2020202020202020202046314632,
  0x52414C4F484353204C414349444152204958474E414B2020302E3320232020202020202020202042453835203B202020202020202020202020202020202064657070616D203B2020202020202020202030324632,
  0x4F47204C414349444152204958474E414B2020302E3320232020202020202020202032303935203B202020202020202020202020202020202064657070616D203B2020202020202020202031324632,
  0x594C574F4C53204F47204C414349444152204958474E414B2020302E3320232020202020202020202041303935203B202020202020202020202020202020202064657070616D203B2020202020202020202032324632,
  0x474E494E455645204C414349444152204958474E414B2020302E3320232020202020202020202035313935203B202020202020202020202020202020202064657070616D203B2020202020202020202033324632,
  0x474942204C414349444152204958474E414B2020302E3320232020202020202020202037323935203B202020202020202020202020202020202064657070616D203B2020202020202020202034324632,
  0x4E414D4F57204C414349444152204958474E414B2020302E3320232020202020202020202033373935203B202020202020202020202020202020202064657070616D203B2020202020202020202035324632,
  0x444C494843204C414349444152204958474E414B2020302E3320232020202020202020202030354235203B202020202020202020202020202020202064657070616D203B2020202020202020202036324632,
  0x464F4F52204C414349444152204958474E414B2020302E3320232020202020202020202030384235203B202020202020202020202020202020202064657070616D203B2020202020202020202037324632,
  0x48434E49204C414349444152204958474E414B2020302E3320232020202020202020202038464235203B202020202020202020202020202020202064657070616D203B2020202020202020202038324632,
  0x4C4C414D53204C414349444152204958474E414B2020302E3320232020202020202020202046304335203B202020202020202020202020202020202064657070616D203B2020202020202020202039324632,
  0x454D414C204C414349444152204958474E414B2020302E3320232020202020202020202032324335203B202020202020202020202020202020202064657070616D203B2020202020202020202041324632,
  0x455350524F43204C414349444152204958474E414B2020302E3320232020202020202020202038334335203B202020202020202020202020202020202064657070616D203B2020202020202020202042324632,
  0x54554F525053204C414349444152204958474E414B2020302E3320232020202020202020202045364335203B202020202020202020202020202020202064657070616D203B2020202020202020202043324632,
  0x4E4941544E554F4D204C414349444152204958474E414B2020302E3320232020202020202020202031374335203B202020202020202020202020202020202064657070616D203B2020202020202020202044324632,
  0x5245564952204C414349444152204958474E414B2020302E3320232020202020202020202042444435203B202020202020202020202020202020202064657070616D203B2020202020202020202045324632,
  0x4B524F57204C414349444152204958474E414B2020302E3320232020202020202020202035454435203B202020202020202020202020202020202064657070616D203B2020202020202020202046324632,
  0x464C4553454E4F204C414349444152204958474E414B2020302E3320232020202020202020202031464435203B202020202020202020202020202020202064657070616D203B2020202020202020202030334632,
  0x4E4142525554204C414349444152204958474E414B2020302E3320232020202020202020202045464435203B202020202020202020202020202020202064657070616D203B2020202020202020202031334632,
  0x595244204C414349444152204958474E414B2020302E3320232020202020202020202032374535203B202020202020202020202020202020202064657070616D203B2020202020202020202032334632,
  0x4441455248542054524F4853204C414349444152204958474E414B2020302E3320232020202020202020202041374535203B202020202020202020202020202020202064657070616D203B2020202020202020202033334632,
  0x4646494C4320444554544F44204C414349444152204958474E414B2020302E3320232020202020202020202046374535203B202020202020202020202020202020202064657070616D203B2020202020202020202034334632,
  0x45444952545320474E4F4C204C414349444152204958474E414B2020302E3320232020202020202020202034464535203B202020202020202020202020202020202064657070616D203B2020202020202020202035334632,
  0x53444E4148204F5754204C414349444152204958474E414B2020302E3320232020202020202020202045464535203B202020202020202020202020202020202064657070616D203B2020202020202020202036334632,
  0x544F4F4853204C414349444152204958474E414B2020302E3320232020202020202020202042304635203B202020202020202020202020202020202064657070616D203B2020202020202020202037334632,
  0x574F42204C414349444152204958474E414B2020302E3320232020202020202020202033314635203B202020202020202020202020202020202064657070616D203B2020202020202020202038334632,
  0x54554F4E53204C414349444152204958474E414B2020302E3320232020202020202020202030354635203B202020202020202020202020202020202064657070616D203B2020202020202020202039334632,
  0x454C5453495242204C414349444152204958474E414B2020302E3320232020202020202020202031364635203B202020202020202020202020202020202064657070616D203B2020202020202020202041334632,
  0x50455453204C414349444152204958474E414B2020302E3320232020202020202020202033374635203B202020202020202020202020202020202064657070616D203B2020202020202020202042334632,
  0x5452414548204C414349444152204958474E414B2020302E3320232020202020202020202033434635203B202020202020202020202020202020202064657070616D203B2020202020202020202043334632,
  0x445245424C4148204C414349444152204958474E414B2020302E3320232020202020202020202038303236203B202020202020202020202020202020202064657070616D203B2020202020202020202044334632,
  0x524F4F44204C414349444152204958474E414B2020302E3320232020202020202020202036333236203B202020202020202020202020202020202064657070616D203B2020202020202020202045334632,
  0x444E4148204C414349444152204958474E414B2020302E3320232020202020202020202042343236203B202020202020202020202020202020202064657070616D203B2020202020202020202046334632,
  0x48434E415242204C414349444152204958474E414B2020302E3320232020202020202020202046323536203B202020202020202020202020202020202064657070616D203B2020202020202020202030344632,
  0x504152204C414349444152204958474E414B2020302E3320232020202020202020202034333536203B202020202020202020202020202020202064657070616D203B2020202020202020202031344632,
  0x545049524353204C414349444152204958474E414B2020302E3320232020202020202020202037383536203B202020202020202020202020202020202064657070616D203B2020202020202020202032344632,
  0x524550504944204C414349444152204958474E414B2020302E3320232020202020202020202037393536203B202020202020202020202020202020202064657070616D203B2020202020202020202033344632,
  0x455841204C414349444152204958474E414B2020302E3320232020202020202020202034413536203B202020202020202020202020202020202064657070616D203B2020202020202020202034344632,
  0x455241555153204C414349444152204958474E414B2020302E3320232020202020202020202039423536203B202020202020202020202020202020202064657070616D203B2020202020202020202035344632,
  0x544F4E204C414349444152204958474E414B2020302E3320232020202020202020202030453536203B202020202020202020202020202020202064657070616D203B2020202020202020202036344632,
  0x4E5553204C414349444152204958474E414B2020302E3320232020202020202020202035453536203B202020202020202020202020202020202064657070616D203B2020202020202020202037344632,
  0x594153204C414349444152204958474E414B2020302E3320232020202020202020202030463636203B202020202020202020202020202020202064657070616D203B2020202020202020202038344632,
  0x4E4F4F4D204C414349444152204958474E414B2020302E3320232020202020202020202038303736203B202020202020202020202020202020202064657070616D203B2020202020202020202039344632,
  0x45455254204C414349444152204958474E414B2020302E3320232020202020202020202038323736203B202020202020202020202020202020202064657070616D203B2020202020202020202041344632,
  0x4B43414C204C414349444152204958474E414B2020302E3320232020202020202020202030324236203B202020202020202020202020202020202064657070616D203B2020202020202020202042344632,
  0x504F5453204C414349444152204958474E414B2020302E3320232020202020202020202032364236203B202020202020202020202020202020202064657070616D203B2020202020202020202043344632,
  0x4854414544204C414349444152204958474E414B2020302E3320232020202020202020202039374236203B202020202020202020202020202020202064657070616D203B2020202020202020202044344632,
  0x4E4F50414557204C414349444152204958474E414B2020302E3320232020202020202020202033424236203B202020202020202020202020202020202064657070616D203B2020202020202020202045344632,
  0x544F4E204F44204C414349444152204958474E414B2020302E3320232020202020202020202042434236203B202020202020202020202020202020202064657070616D203B2020202020202020202046344632,
  0x455241504D4F43204C414349444152204958474E414B2020302E3320232020202020202020202034444236203B202020202020202020202020202020202064657070616D203B2020202020202020202030354632,
  0x525546204C414349444152204958474E414B2020302E3320232020202020202020202042444236203B202020202020202020202020202020202064657070616D203B2020202020202020202031354632,
  0x4E414C43204C414349444152204958474E414B2020302E3320232020202020202020202046304336203B202020202020202020202020202020202064657070616D203B2020202020202020202032354632,
  0x4D41455453204C414349444152204958474E414B2020302E3320232020202020202020202034314336203B202020202020202020202020202020202064657070616D203B2020202020202020202033354632,
  0x5245544157204C414349444152204958474E414B2020302E3320232020202020202020202034334336203B202020202020202020202020202020202064657070616D203B2020202020202020202034354632,
  0x45524946204C414349444152204958474E414B2020302E3320232020202020202020202042363037203B202020202020202020202020202020202064657070616D203B2020202020202020202035354632,
  0x57414C43204C414349444152204958474E414B2020302E3320232020202020202020202041323237203B202020202020202020202020202020202064657070616D203B2020202020202020202036354632,
  0x524548544146204C414349444152204958474E414B2020302E3320232020202020202020202036333237203B202020202020202020202020202020202064657070616D203B2020202020202020202037354632,
  0x5820454C42554F44204C414349444152204958474E414B2020302E3320232020202020202020202042333237203B202020202020202020202020202020202064657070616D203B2020202020202020202038354632,
  0x4B4E555254204545525420464C4148204C414349444152204958474E414B2020302E3320232020202020202020202046333237203B202020202020202020202020202020202064657070616D203B2020202020202020202039354632,
  0x4543494C53204C414349444152204958474E414B2020302E3320232020202020202020202037343237203B202020202020202020202020202020202064657070616D203B2020202020202020202041354632,
  0x474E4146204C414349444152204958474E414B2020302E3320232020202020202020202039353237203B202020202020202020202020202020202064657070616D203B2020202020202020202042354632,
  0x574F43204C414349444152204958474E414B2020302E3320232020202020202020202042353237203B202020202020202020202020202020202064657070616D203B2020202020202020202043354632,
  0x474F44204C414349444152204958474E414B2020302E3320232020202020202020202043413237203B202020202020202020202020202020202064657070616D203B2020202020202020202044354632,
  0x444E554F464F5250204C414349444152204958474E414B2020302E3320232020202020202020202034383337203B202020202020202020202020202020202064657070616D203B2020202020202020202045354632,
  0x4544414A204C414349444152204958474E414B2020302E3320232020202020202020202039383337203B202020202020202020202020202020202064657070616D203B2020202020202020202046354632,
  0x4E4F4C454D204C414349444152204958474E414B2020302E3320232020202020202020202043443437203B202020202020202020202020202020202064657070616D203B2020202020202020202030364632,
  0x454C4954204C414349444152204958474E414B2020302E3320232020202020202020202036453437203B202020202020202020202020202020202064657070616D203B2020202020202020202031364632,
  0x5445455753204C414349444152204958474E414B2020302E3320232020202020202020202038313537203B202020202020202020202020202020202064657070616D203B2020202020202020202032364632,
  0x4546494C204C414349444152204958474E414B2020302E3320232020202020202020202046313537203B202020202020202020202020202020202064657070616D203B2020202020202020202033364632,
  0x455355204C414349444152204958474E414B2020302E3320232020202020202020202038323537203B202020202020202020202020202020202064657070616D203B2020202020202020202034364632,
  0x444C454946204C414349444152204958474E414B2020302E3320232020202020202020202030333537203B202020202020202020202020202020202064657070616D203B2020202020202020202035364632,
  0x48544F4C4320464F20544C4F42204C414349444152204958474E414B2020302E3320232020202020202020202042383537203B202020202020202020202020202020202064657070616D203B2020202020202020202036364632,
  0x5353454E4B434953204C414349444152204958474E414B2020302E3320232020202020202020202032393537203B202020202020202020202020202020202064657070616D203B2020202020202020202037364632,
  0x544E455420444554544F44204C414349444152204958474E414B2020302E3320232020202020202020202036373637203B202020202020202020202020202020202064657070616D203B2020202020202020202038364632,
  0x4554494857204C414349444152204958474E414B2020302E3320232020202020202020202044373637203B202020202020202020202020202020202064657070616D203B2020202020202020202039364632,
  0x4E494B53204C414349444152204958474E414B2020302E3320232020202020202020202045413637203B202020202020202020202020202020202064657070616D203B2020202020202020202041364632,
  0x48534944204C414349444152204958474E414B2020302E3320232020202020202020202046423637203B202020202020202020202020202020202064657070616D203B2020202020202020202042364632,
  0x455945204C414349444152204958474E414B2020302E3320232020202020202020202045453637203B202020202020202020202020202020202064657070616D203B2020202020202020202043364632,
  0x5241455053204C414349444152204958474E414B2020302E3320232020202020202020202042443737203B202020202020202020202020202020202064657070616D203B2020202020202020202044364632,
  0x574F525241204C414349444152204958474E414B2020302E3320232020202020202020202032453737203B202020202020202020202020202020202064657070616D203B2020202020202020202045364632,
  0x454E4F5453204C414349444152204958474E414B2020302E3320232020202020202020202033463737203B202020202020202020202020202020202064657070616D203B2020202020202020202046364632,
  0x544952495053204C414349444152204958474E414B2020302E3320232020202020202020202041333937203B202020202020202020202020202020202064657070616D203B2020202020202020202030374632,
  0x4B43415254204C414349444152204958474E414B2020302E3320232020202020202020202038423937203B202020202020202020202020202020202064657070616D203B2020202020202020202031374632,
  0x4E49415247204C414349444152204958474E414B2020302E3320232020202020202020202045423937203B202020202020202020202020202020202064657070616D203B2020202020202020202032374632,
  0x45564143204C414349444152204958474E414B2020302E3320232020202020202020202034374137203B202020202020202020202020202020202064657070616D203B2020202020202020202033374632,
  0x444E415453204C414349444152204958474E414B2020302E3320232020202020202020202042434137203B202020202020202020202020202020202064657070616D203B2020202020202020202034374632,
  0x4F4F424D4142204C414349444152204958474E414B2020302E3320232020202020202020202039464137203B202020202020202020202020202020202064657070616D203B2020202020202020202035374632,
  0x45434952204C414349444152204958474E414B2020302E3320232020202020202020202033374337203B202020202020202020202020202020202064657070616D203B2020202020202020202036374632,
  0x4B4C4953204C414349444152204958474E414B2020302E3320232020202020202020202038464337203B202020202020202020202020202020202064657070616D203B2020202020202020202037374632,
  0x52414A204C414349444152204958474E414B2020302E3320232020202020202020202036334637203B202020202020202020202020202020202064657070616D203B2020202020202020202038374632,
  0x54454E204C414349444152204958474E414B2020302E3320232020202020202020202031354637203B202020202020202020202020202020202064657070616D203B2020202020202020202039374632,
  0x5045454853204C414349444152204958474E414B2020302E3320232020202020202020202041384637203B202020202020202020202020202020202064657070616D203B2020202020202020202041374632,
  0x52454854414546204C414349444152204958474E414B2020302E3320232020202020202020202044424637203B202020202020202020202020202020202064657070616D203B2020202020202020202042374632,
  0x444C4F204C414349444152204958474E414B2020302E3320232020202020202020202031303038203B202020202020202020202020202020202064657070616D203B2020202020202020202043374632,
  0x444E41204C414349444152204958474E414B2020302E3320232020202020202020202043303038203B202020202020202020202020202020202064657070616D203B2020202020202020202044374632,
  0x574F4C50204C414349444152204958474E414B2020302E3320232020202020202020202032313038203B202020202020202020202020202020202064657070616D203B2020202020202020202045374632,
  0x524145204C414349444152204958474E414B2020302E3320232020202020202020202033333038203B202020202020202020202020202020202064657070616D203B2020202020202020202046374632,
  0x4853555242204C414349444152204958474E414B2020302E3320232020202020202020202046373038203B202020202020202020202020202020202064657070616D203B2020202020202020202030384632,
  0x5441454D204C414349444152204958474E414B2020302E3320232020202020202020202039383038203B202020202020202020202020202020202064657070616D203B2020202020202020202031384632,
  0x52455453494E494D204C414349444152204958474E414B2020302E3320232020202020202020202033453138203B202020202020202020202020202020202064657070616D203B2020202020202020202032384632,
  0x464C4553204C414349444152204958474E414B2020302E3320232020202020202020202041453138203B202020202020202020202020202020202064657070616D203B2020202020202020202033384632,
  0x455649525241204C414349444152204958474E414B2020302E3320232020202020202020202033463138203B202020202020202020202020202020202064657070616D203B2020202020202020202034384632,
  0x524154524F4D204C414349444152204958474E414B2020302E3320232020202020202020202043463138203B202020202020202020202020202020202064657070616D203B2020202020202020202035384632,
  0x4555474E4F54204C414349444152204958474E414B2020302E3320232020202020202020202043303238203B202020202020202020202020202020202064657070616D203B2020202020202020202036384632,
  0x45534F50504F204C414349444152204958474E414B2020302E3320232020202020202020202042313238203B202020202020202020202020202020202064657070616D203B2020202020202020202037384632,
  0x54414F42204C414349444152204958474E414B2020302E3320232020202020202020202046313238203B202020202020202020202020202020202064657070616D203B2020202020202020202038384632,
  0x474E4950504F5453204C414349444152204958474E414B2020302E3320232020202020202020202045363238203B202020202020202020202020202020202064657070616D203B2020202020202020202039384632,
  0x524F4C4F43204C414349444152204958474E414B2020302E3320232020202020202020202032373238203B202020202020202020202020202020202064657070616D203B2020202020202020202041384632,
  0x5353415247204C414349444152204958474E414B2020302E3320232020202020202020202038373238203B202020202020202020202020202020202064657070616D203B2020202020202020202042384632,
  0x5245474954204C414349444152204958474E414B2020302E3320232020202020202020202044343638203B202020202020202020202020202020202064657070616D203B2020202020202020202043384632,
  0x544345534E49204C414349444152204958474E414B2020302E3320232020202020202020202042363638203B202020202020202020202020202020202064657070616D203B2020202020202020202044384632,
  0x444F4F4C42204C414349444152204958474E414B2020302E3320232020202020202020202030343838203B202020202020202020202020202020202064657070616D203B2020202020202020202045384632,
  0x455255534F4C434E45204B4C4157204C414349444152204958474E414B2020302E3320232020202020202020202043343838203B202020202020202020202020202020202064657070616D203B2020202020202020202046384632,
  0x534548544F4C43204C414349444152204958474E414B2020302E3320232020202020202020202033363838203B202020202020202020202020202020202064657070616D203B2020202020202020202030394632,
  0x54534557204C414349444152204958474E414B2020302E3320232020202020202020202045373938203B202020202020202020202020202020202064657070616D203B2020202020202020202031394632,
  0x454553204C414349444152204958474E414B2020302E3320232020202020202020202042383938203B202020202020202020202020202020202064657070616D203B2020202020202020202032394632,
  0x4E524F48204C414349444152204958474E414B2020302E3320232020202020202020202032443938203B202020202020202020202020202020202064657070616D203B2020202020202020202033394632,
  0x484345455053204C414349444152204958474E414B2020302E3320232020202020202020202030304138203B202020202020202020202020202020202064657070616D203B2020202020202020202034394632,
  0x59454C4C4156204C414349444152204958474E414B2020302E3320232020202020202020202037334338203B202020202020202020202020202020202064657070616D203B2020202020202020202035394632,
  0x4E414542204C414349444152204958474E414B2020302E3320232020202020202020202036344338203B202020202020202020202020202020202064657070616D203B2020202020202020202036394632,
  0x474950204C414349444152204958474E414B2020302E3320232020202020202020202035354338203B202020202020202020202020202020202064657070616D203B2020202020202020202037394632,
  0x524547444142204C414349444152204958474E414B2020302E3320232020202020202020202038374338203B202020202020202020202020202020202064657070616D203B2020202020202020202038394632,
  0x4C4C454853204C414349444152204958474E414B2020302E3320232020202020202020202044394338203B202020202020202020202020202020202064657070616D203B2020202020202020202039394632,
  0x444552204C414349444152204958474E414B2020302E3320232020202020202020202034364438203B202020202020202020202020202020202064657070616D203B2020202020202020202041394632,
  0x4E5552204C414349444152204958474E414B2020302E3320232020202020202020202030374438203B202020202020202020202020202020202064657070616D203B2020202020202020202042394632,
  0x544F4F46204C414349444152204958474E414B2020302E3320232020202020202020202033424438203B202020202020202020202020202020202064657070616D203B2020202020202020202043394632,
  0x59444F42204C414349444152204958474E414B2020302E3320232020202020202020202042414538203B202020202020202020202020202020202064657070616D203B2020202020202020202044394632,
  0x54524143204C414349444152204958474E414B2020302E3320232020202020202020202041434538203B202020202020202020202020202020202064657070616D203B2020202020202020202045394632,
  0x524554544942204C414349444152204958474E414B2020302E3320232020202020202020202042394638203B202020202020202020202020202020202064657070616D203B2020202020202020202046394632,
  0x474E494E524F4D204C414349444152204958474E414B2020302E3320232020202020202020202030424638203B202020202020202020202020202020202064657070616D203B2020202020202020202030414632,
  0x4B4C4157204C414349444152204958474E414B2020302E3320232020202020202020202035424638203B202020202020202020202020202020202064657070616D203B2020202020202020202031414632,
  0x59544943204C414349444152204958474E414B2020302E3320232020202020202020202031393039203B202020202020202020202020202020202064657070616D203B2020202020202020202032414632,
  0x454E4957204C414349444152204958474E414B2020302E3320232020202020202020202039343139203B202020202020202020202020202020202064657070616D203B2020202020202020202033414632,
  0x48534955474E4954534944204C414349444152204958474E414B2020302E3320232020202020202020202036433139203B202020202020202020202020202020202064657070616D203B2020202020202020202034414632,
  0x4547414C4C4956204C414349444152204958474E414B2020302E3320232020202020202020202043433139203B202020202020202020202020202020202064657070616D203B2020202020202020202035414632,
  0x444C4F47204C414349444152204958474E414B2020302E3320232020202020202020202031443139203B202020202020202020202020202020202064657070616D203B2020202020202020202036414632,
  0x474E4F4C204C414349444152204958474E414B2020302E3320232020202020202020202037373539203B202020202020202020202020202020202064657070616D203B2020202020202020202037414632,
  0x45544147204C414349444152204958474E414B2020302E3320232020202020202020202030383539203B202020202020202020202020202020202064657070616D203B2020202020202020202038414632,
  0x444E554F4D204C414349444152204958474E414B2020302E3320232020202020202020202043313639203B202020202020202020202020202020202064657070616D203B2020202020202020202039414632,
  0x4556414C53204C414349444152204958474E414B2020302E3320232020202020202020202036423639203B202020202020202020202020202020202064657070616D203B2020202020202020202041414632,
  0x445249422044454C4941542054524F4853204C414349444152204958474E414B2020302E3320232020202020202020202039423639203B202020202020202020202020202020202064657070616D203B2020202020202020202042414632,
  0x4E494152204C414349444152204958474E414B2020302E3320232020202020202020202038453639203B202020202020202020202020202020202064657070616D203B2020202020202020202043414632,
  0x45554C42204C414349444152204958474E414B2020302E3320232020202020202020202031353739203B202020202020202020202020202020202064657070616D203B2020202020202020202044414632,
  0x474E4F5257204C414349444152204958474E414B2020302E3320232020202020202020202045353739203B202020202020202020202020202020202064657070616D203B2020202020202020202045414632,
  0x45434146204C414349444152204958474E414B2020302E3320232020202020202020202032363739203B202020202020202020202020202020202064657070616D203B2020202020202020202046414632,
  0x5245485441454C204C414349444152204958474E414B2020302E3320232020202020202020202039363739203B202020202020202020202020202020202064657070616D203B2020202020202020202030424632,
  0x5245485441454C2044454E4E4154204C414349444152204958474E414B2020302E3320232020202020202020202042433739203B202020202020202020202020202020202064657070616D203B2020202020202020202031424632,
  0x4B45454C204C414349444152204958474E414B2020302E3320232020202020202020202044453739203B202020202020202020202020202020202064657070616D203B2020202020202020202032424632,
  0x444E554F53204C414349444152204958474E414B2020302E3320232020202020202020202033463739203B202020202020202020202020202020202064657070616D203B2020202020202020202033424632,
  0x4641454C204C414349444152204958474E414B2020302E3320232020202020202020202031303839203B202020202020202020202020202020202064657070616D203B2020202020202020202034424632,
  0x444E4957204C414349444152204958474E414B2020302E3320232020202020202020202038413839203B202020202020202020202020202020202064657070616D203B2020202020202020202035424632,
  0x594C46204C414349444152204958474E414B2020302E3320232020202020202020202042443839203B202020202020202020202020202020202064657070616D203B2020202020202020202036424632,
  0x544145204C414349444152204958474E414B2020302E3320232020202020202020202046443839203B202020202020202020202020202020202064657070616D203B2020202020202020202037424632,
  0x44414548204C414349444152204958474E414B2020302E3320232020202020202020202036393939203B202020202020202020202020202020202064657070616D203B2020202020202020202038424632,
  0x544E415247415246204C414349444152204958474E414B2020302E3320232020202020202020202039393939203B202020202020202020202020202020202064657070616D203B2020202020202020202039424632,
  0x4553524F48204C414349444152204958474E414B2020302E3320232020202020202020202043413939203B202020202020202020202020202020202064657070616D203B2020202020202020202041424632,
  0x454E4F42204C414349444152204958474E414B2020302E3320232020202020202020202038414139203B202020202020202020202020202020202064657070616D203B2020202020202020202042424632,
  0x4C4C4154204C414349444152204958474E414B2020302E3320232020202020202020202038444139203B202020202020202020202020202020202064657070616D203B2020202020202020202043424632,
  0x52494148204C414349444152204958474E414B2020302E3320232020202020202020202046444139203B202020202020202020202020202020202064657070616D203B2020202020202020202044424632,
  0x5448474946204C414349444152204958474E414B2020302E3320232020202020202020202035324239203B202020202020202020202020202020202064657070616D203B2020202020202020202045424632,
  0x454E4957204C41494349464952434153204C414349444152204958474E414B2020302E3320232020202020202020202046324239203B202020202020202020202020202020202064657070616D203B2020202020202020202046424632,
  0x4E4F52444C554143204C414349444152204958474E414B2020302E3320232020202020202020202032334239203B202020202020202020202020202020202064657070616D203B2020202020202020202030434632,
  0x54534F4847204C414349444152204958474E414B2020302E3320232020202020202020202043334239203B202020202020202020202020202020202064657070616D203B2020202020202020202031434632,
  0x48534946204C414349444152204958474E414B2020302E3320232020202020202020202041354239203B202020202020202020202020202020202064657070616D203B2020202020202020202032434632,
  0x44524942204C414349444152204958474E414B2020302E3320232020202020202020202035454339203B202020202020202020202020202020202064657070616D203B2020202020202020202033434632,
  0x544C4153204C414349444152204958474E414B2020302E3320232020202020202020202035374539203B202020202020202020202020202020202064657070616D203B2020202020202020202034434632,
  0x52454544204C414349444152204958474E414B2020302E3320232020202020202020202046374539203B202020202020202020202020202020202064657070616D203B2020202020202020202035434632,
  0x5441454857204C414349444152204958474E414B2020302E3320232020202020202020202035414539203B202020202020202020202020202020202064657070616D203B2020202020202020202036434632,
  0x504D4548204C414349444152204958474E414B2020302E3320232020202020202020202042424539203B202020202020202020202020202020202064657070616D203B2020202020202020202037434632,
  0x574F4C4C4559204C414349444152204958474E414B2020302E3320232020202020202020202033434539203B202020202020202020202020202020202064657070616D203B2020202020202020202038434632,
  0x54454C4C494D204C414349444152204958474E414B2020302E3320232020202020202020202044434539203B202020202020202020202020202020202064657070616D203B2020202020202020202039434632,
  0x4B43414C42204C414349444152204958474E414B2020302E3320232020202020202020202031444539203B202020202020202020202020202020202064657070616D203B2020202020202020202041434632,
  0x59524544494F52424D45204C414349444152204958474E414B2020302E3320232020202020202020202039464539203B202020202020202020202020202020202064657070616D203B2020202020202020202042434632,
  0x474F5246204C414349444152204958474E414B2020302E3320232020202020202020202044464539203B202020202020202020202020202020202064657070616D203B2020202020202020202043434632,
  0x444F50495254204C414349444152204958474E414B2020302E3320232020202020202020202045304639203B202020202020202020202020202020202064657070616D203B2020202020202020202044434632,
  0x4D555244204C414349444152204958474E414B2020302E3320232020202020202020202033314639203B202020202020202020202020202020202064657070616D203B2020202020202020202045434632,
  0x544152204C414349444152204958474E414B2020302E3320232020202020202020202030324639203B202020202020202020202020202020202064657070616D203B2020202020202020202046434632,
  0x45534F4E204C414349444152204958474E414B2020302E3320232020202020202020202042334639203B202020202020202020202020202020202064657070616D203B2020202020202020202030444632,
  0x4E455645204C414349444152204958474E414B2020302E3320232020202020202020202041344639203B202020202020202020202020202020202064657070616D203B2020202020202020202031444632,
  0x48544F4F54204C414349444152204958474E414B2020302E3320232020202020202020202032354639203B202020202020202020202020202020202064657070616D203B2020202020202020202032444632]

def mapText13 : List Nat := [
  0x4E4F47415244204C414349444152204958474E414B2020302E3320232020202020202020202044384639203B202020202020202020202020202020202064657070616D203B2020202020202020202033444632,
  0x454C54525554204C414349444152204958474E414B2020302E3320232020202020202020202043394639203B202020202020202020202020202020202064657070616D203B2020202020202020202034444632,
  0x4554554C46204C414349444152204958474E414B2020302E3320232020202020202020202030414639203B202020202020202020202020202020202064657070616D203B2020202020202020202035444632,
  0x3E464546322D64657672657365723C2E2E3E364446322D64657672657365723C202020414E202320202020202020202020202020202020202020202020202020202020206465776F6C6C61736964203B20202020464546322E2E36444632,
  0x4449414C5245564F20524554434152414843204E4F49545049524353454420434948504152474F4544492E2E5448474952204F54205446454C20524554434152414843204E4F49545049524353454420434948504152474F4544492020302E33202320202020202020202020202020202020202020202020202020202020206465776F6C6C61736964203B20202020424646322E2E30464632,
  0x3E464646322D64657672657365723C2E2E3E434646322D64657672657365723C202020414E202320202020202020202020202020202020202020202020202020202020206465776F6C6C61736964203B20202020464646322E2E43464632,
  0x454341505320434948504152474F4544492020312E3120232020202020202020202030323030203B2064657070616D5F334454535F6465776F6C6C61736964203B2020202020202020202030303033,
  0x414D4D4F4320434948504152474F4544492020312E3120232020202038564E203B2020202020203B20202020202020202020202020202020202064696C6176203B2020202020202020202031303033,
  0x504F5453204C4C554620434948504152474F4544492020312E3120232020202020202020202045323030203B202020202020202020202020202020202064657070616D203B2020202020202020202032303033,
  0x4C4F424D595320445241444E415453204C414952545355444E49204553454E4150414A2E2E4B52414D204F545449442020312E3120232020202038564E203B2020202020203B20202020202020202020202020202020202064696C6176203B20202020343030332E2E33303033,
  0x4F52455A205245424D554E20434948504152474F4544492E2E4B52414D204E4F4954415245544920434948504152474F4544492020312E3120232020202020202020202020202020202020202020202020202020202020202020202064696C6176203B20202020373030332E2E35303033,
  0x454E494E204C4152454D554E20554F485A474E41482E2E54454B4341524220454C474E41205446454C2020312E3120232020202038564E203B2020202020203B20202020202020202020202020202020202064696C6176203B20202020393230332E2E38303033,
  0x4B52414D20454E4F5420474E495245544E4520434948504152474F4544492E2E4B52414D20454E4F54204C4556454C20434948504152474F4544492020312E3120232020202020202020202020202020202020202020202020202020202020202020202064696C6176203B20202020443230332E2E41323033,
  0x464C4148205245574F4C204B52414D2054414550455220414E414B204C414349545245562E2E4B52414D20454E4F5420544F4420454C474E4953204C55474E41482020312E3120232020202038564E203B2020202020203B20202020202020202020202020202020202064696C6176203B20202020353330332E2E45323033,
  0x4B52414D204C4154534F502044454C435249432020312E3120232020202020202020202032313033203B202020202020202020202020202020202064657070616D203B2020202020202020202036333033,
  0x4C4F424D595320524F54415241504553204445454620454E494C204850415247454C455420434948504152474F4544492020312E3120232020202038564E203B2020202020203B20202020202020202020202020202020202064696C6176203B2020202020202020202037333033,
  0x4E4554204C4152454D554E20554F485A474E41482020302E3320232020202020202020202031343335203B202020202020202020202020202020202064657070616D203B2020202020202020202038333033,
  0x59544E455754204C4152454D554E20554F485A474E41482020302E3320232020202020202020202034343335203B202020202020202020202020202020202064657070616D203B2020202020202020202039333033,
  0x595452494854204C4152454D554E20554F485A474E41482020302E3320232020202020202020202035343335203B202020202020202020202020202020202064657070616D203B2020202020202020202041333033,
  0x4B52414D204E4F4954415245544920434948504152474F454449204C414349545245562020322E3320232020202038564E203B2020202020203B20202020202020202020202020202020202064696C6176203B2020202020202020202042333033,
  0x4B52414D205553414D2020322E3320232020202020202020202020202020202020202020202020202020202020202020202064696C6176203B2020202020202020202043333033,
  0x4B52414D204E4F4954414E5245544C4120545241502020322E3320232020202038564E203B2020202020203B20202020202020202020202020202020202064696C6176203B2020202020202020202044333033,
  0x524F54414349444E49204E4F4954414952415620434948504152474F4544492020302E3320232020202038564E203B2020202020203B20202020202020202020202020202020202064696C6176203B2020202020202020202045333033,
  0x4543415053204C4C494620464C414820434948504152474F4544492020312E3120232020202038564E203B2020202020203B20202020202020202020202020202020202064696C6176203B2020202020202020202046333033,
  0x3E303430332D64657672657365723C202020414E202320202020202020202020202020202020202020202020202020202020206465776F6C6C61736964203B2020202020202020202030343033,
  0x55562052455454454C20414E4147415249482E2E41204C4C414D532052455454454C20414E4147415249482020312E3120232020202020202020202020202020202020202020202020202020202020202020202064696C6176203B20202020343930332E2E31343033,
  0x454B204C4C414D532052455454454C20414E4147415249482E2E414B204C4C414D532052455454454C20414E4147415249482020322E3320232020202020202020202020202020202020202020202020202020202020202020202064696C6176203B20202020363930332E2E35393033,
  0x3E383930332D64657672657365723C2E2E3E373930332D64657672657365723C202020414E202320202020202020202020202020202020202020202020202020202020206465776F6C6C61736964203B20202020383930332E2E37393033,
  0x4B52414D20444E554F5320444543494F562D494D455320414E4147415249482D414E414B4154414B20474E494E49424D4F432E2E4B52414D20444E554F5320444543494F5620414E4147415249482D414E414B4154414B20474E494E49424D4F432020312E3120232020202020202020202020202020202020202020202020202020202020202020202064696C6176203B20202020413930332E2E39393033,
  0x4B52414D20444E554F5320444543494F5620414E4147415249482D414E414B4154414B2020312E3120232020202020393930332030323030203B2064657070616D5F334454535F6465776F6C6C61736964203B2020202020202020202042393033,
  0x4B52414D20444E554F5320444543494F562D494D455320414E4147415249482D414E414B4154414B2020312E3120232020202020413930332030323030203B2064657070616D5F334454535F6465776F6C6C61736964203B2020202020202020202043393033,
  0x4B52414D204E4F4954415245544920444543494F5620414E4147415249482E2E4B52414D204E4F4954415245544920414E4147415249482020312E3120232020202020202020202020202020202020202020202020202020202020202020202064696C6176203B20202020453930332E2E44393033,
  0x49524F59204850415247494420414E4147415249482020322E3320232020202020413830332038383033203B202020202020202020202020202020202064657070616D203B2020202020202020202046393033,
  0x4E454850594820454C42554F4420414E4147415249482D414E414B4154414B2020322E3320232020202038564E203B2020202020203B20202020202020202020202020202020202064696C6176203B2020202020202020202030413033,
  0x4B52414D204E4F4954415245544920444543494F5620414E414B4154414B2E2E41204C4C414D532052455454454C20414E414B4154414B2020312E3120232020202020202020202020202020202020202020202020202020202020202020202064696C6176203B20202020454630332E2E31413033,
  0x4F544F4B204850415247494420414E414B4154414B2020322E3320232020202020384330332033423033203B202020202020202020202020202020202064657070616D203B2020202020202020202046463033,
  0x3E343031332D64657672657365723C2E2E3E303031332D64657672657365723C202020414E202320202020202020202020202020202020202020202020202020202020206465776F6C6C61736964203B20202020343031332E2E30303133,
  0x4E472052455454454C204F464F4D4F504F422E2E422052455454454C204F464F4D4F504F422020312E3120232020202020202020202020202020202020202020202020202020202020202020202064696C6176203B20202020433231332E2E35303133,
  0x48492052455454454C204F464F4D4F504F422020312E3520232020202020202020202020202020202020202020202020202020202020202020202064696C6176203B2020202020202020202044323133,
  0x45564F424120544F442048544957204F2052455454454C204F464F4D4F504F4220302E303120232020202020202020202020202020202020202020202020202020202020202020202064696C6176203B2020202020202020202045323133,
  0x4E4E2052455454454C204F464F4D4F504F4220302E313120232020202020202020202020202020202020202020202020202020202020202020202064696C6176203B2020202020202020202046323133,
  0x3E303331332D64657672657365723C202020414E202320202020202020202020202020202020202020202020202020202020206465776F6C6C61736964203B2020202020202020202030333133,
  0x4B4F4559494B2052455454454C204C55474E41482020312E3120232020202020202020202030303131203B202020202020202020202020202020202064657070616D203B2020202020202020202031333133,
  0x4B4F4559494B474E4153532052455454454C204C55474E41482020312E3120232020202020202020202031303131203B202020202020202020202020202020202064657070616D203B2020202020202020202032333133,
  0x534F49532D4B4F4559494B2052455454454C204C55474E41482020312E3120232020202020202020202041413131203B202020202020202020202020202020202064657070616D203B2020202020202020202033333133,
  0x4E5545494E2052455454454C204C55474E41482020312E3120232020202020202020202032303131203B202020202020202020202020202020202064657070616D203B2020202020202020202034333133,
  0x43554549432D4E5545494E2052455454454C204C55474E41482020312E3120232020202020202020202043413131203B202020202020202020202020202020202064657070616D203B2020202020202020202035333133,
  0x48554549482D4E5545494E2052455454454C204C55474E41482020312E3120232020202020202020202044413131203B202020202020202020202020202020202064657070616D203B2020202020202020202036333133,
  0x5455454B49542052455454454C204C55474E41482020312E3120232020202020202020202033303131203B202020202020202020202020202020202064657070616D203B2020202020202020202037333133,
  0x5455454B4954474E4153532052455454454C204C55474E41482020312E3120232020202020202020202034303131203B202020202020202020202020202020202064657070616D203B2020202020202020202038333133,
  0x4C554549522052455454454C204C55474E41482020312E3120232020202020202020202035303131203B202020202020202020202020202020202064657070616D203B2020202020202020202039333133,
  0x4B4F4559494B2D4C554549522052455454454C204C55474E41482020312E3120232020202020202020202030423131203B202020202020202020202020202020202064657070616D203B2020202020202020202041333133,
  0x4D5545494D2D4C554549522052455454454C204C55474E41482020312E3120232020202020202020202031423131203B202020202020202020202020202020202064657070616D203B2020202020202020202042333133,
  0x50554549502D4C554549522052455454454C204C55474E41482020312E3120232020202020202020202032423131203B202020202020202020202020202020202064657070616D203B2020202020202020202043333133,
  0x534F49532D4C554549522052455454454C204C55474E41482020312E3120232020202020202020202033423131203B202020202020202020202020202020202064657070616D203B2020202020202020202044333133,
  0x485455454948542D4C554549522052455454454C204C55474E41482020312E3120232020202020202020202034423131203B202020202020202020202020202020202064657070616D203B2020202020202020202045333133,
  0x485055454948502D4C554549522052455454454C204C55474E41482020312E3120232020202020202020202035423131203B202020202020202020202020202020202064657070616D203B2020202020202020202046333133,
  0x48554549482D4C554549522052455454454C204C55474E41482020312E3120232020202020202020202041313131203B202020202020202020202020202020202064657070616D203B2020202020202020202030343133,
  0x4D5545494D2052455454454C204C55474E41482020312E3120232020202020202020202036303131203B202020202020202020202020202020202064657070616D203B2020202020202020202031343133,
  0x50554549502052455454454C204C55474E41482020312E3120232020202020202020202037303131203B202020202020202020202020202020202064657070616D203B2020202020202020202032343133,
  0x5055454950474E4153532052455454454C204C55474E41482020312E3120232020202020202020202038303131203B202020202020202020202020202020202064657070616D203B2020202020202020202033343133,
  0x534F49532D50554549502052455454454C204C55474E41482020312E3120232020202020202020202031323131203B202020202020202020202020202020202064657070616D203B2020202020202020202034343133,
  0x534F49532052455454454C204C55474E41482020312E3120232020202020202020202039303131203B202020202020202020202020202020202064657070616D203B2020202020202020202035343133,
  0x534F4953474E4153532052455454454C204C55474E41482020312E3120232020202020202020202041303131203B202020202020202020202020202020202064657070616D203B2020202020202020202036343133,
  0x474E5545492052455454454C204C55474E41482020312E3120232020202020202020202042303131203B202020202020202020202020202020202064657070616D203B2020202020202020202037343133,
  0x43554549432052455454454C204C55474E41482020312E3120232020202020202020202043303131203B202020202020202020202020202020202064657070616D203B2020202020202020202038343133,
  0x4355454943474E4153532052455454454C204C55474E41482020312E3120232020202020202020202044303131203B202020202020202020202020202020202064657070616D203B2020202020202020202039343133,
  0x484355454948432052455454454C204C55474E41482020312E3120232020202020202020202045303131203B202020202020202020202020202020202064657070616D203B2020202020202020202041343133,
  0x484B554549484B2052455454454C204C55474E41482020312E3120232020202020202020202046303131203B202020202020202020202020202020202064657070616D203B2020202020202020202042343133,
  0x485455454948542052455454454C204C55474E41482020312E3120232020202020202020202030313131203B202020202020202020202020202020202064657070616D203B2020202020202020202043343133,
  0x485055454948502052455454454C204C55474E41482020312E3120232020202020202020202031313131203B202020202020202020202020202020202064657070616D203B2020202020202020202044343133,
  0x48554549482052455454454C204C55474E41482020312E3120232020202020202020202032313131203B202020202020202020202020202020202064657070616D203B2020202020202020202045343133,
  0x412052455454454C204C55474E41482020312E3120232020202020202020202031363131203B202020202020202020202020202020202064657070616D203B2020202020202020202046343133,
  0x45412052455454454C204C55474E41482020312E3120232020202020202020202032363131203B202020202020202020202020202020202064657070616D203B2020202020202020202030353133,
  0x41592052455454454C204C55474E41482020312E3120232020202020202020202033363131203B202020202020202020202020202020202064657070616D203B2020202020202020202031353133,
  0x4541592052455454454C204C55474E41482020312E3120232020202020202020202034363131203B202020202020202020202020202020202064657070616D203B2020202020202020202032353133,
  0x4F452052455454454C204C55474E41482020312E3120232020202020202020202035363131203B202020202020202020202020202020202064657070616D203B2020202020202020202033353133,
  0x452052455454454C204C55474E41482020312E3120232020202020202020202036363131203B202020202020202020202020202020202064657070616D203B2020202020202020202034353133,
  0x4F45592052455454454C204C55474E41482020312E3120232020202020202020202037363131203B202020202020202020202020202020202064657070616D203B2020202020202020202035353133,
  0x45592052455454454C204C55474E41482020312E3120232020202020202020202038363131203B202020202020202020202020202020202064657070616D203B2020202020202020202036353133,
  0x4F2052455454454C204C55474E41482020312E3120232020202020202020202039363131203B202020202020202020202020202020202064657070616D203B2020202020202020202037353133,
  0x41572052455454454C204C55474E41482020312E3120232020202020202020202041363131203B202020202020202020202020202020202064657070616D203B2020202020202020202038353133,
  0x4541572052455454454C204C55474E41482020312E3120232020202020202020202042363131203B202020202020202020202020202020202064657070616D203B2020202020202020202039353133,
  0x454F2052455454454C204C55474E41482020312E3120232020202020202020202043363131203B202020202020202020202020202020202064657070616D203B2020202020202020202041353133,
  0x4F592052455454454C204C55474E41482020312E3120232020202020202020202044363131203B202020202020202020202020202020202064657070616D203B2020202020202020202042353133,
  0x552052455454454C204C55474E41482020312E3120232020202020202020202045363131203B202020202020202020202020202020202064657070616D203B2020202020202020202043353133,
  0x4F45572052455454454C204C55474E41482020312E3120232020202020202020202046363131203B202020202020202020202020202020202064657070616D203B2020202020202020202044353133,
  0x45572052455454454C204C55474E41482020312E3120232020202020202020202030373131203B202020202020202020202020202020202064657070616D203B2020202020202020202045353133,
  0x49572052455454454C204C55474E41482020312E3120232020202020202020202031373131203B202020202020202020202020202020202064657070616D203B2020202020202020202046353133,
  0x55592052455454454C204C55474E41482020312E3120232020202020202020202032373131203B202020202020202020202020202020202064657070616D203B2020202020202020202030363133,
  0x55452052455454454C204C55474E41482020312E3120232020202020202020202033373131203B202020202020202020202020202020202064657070616D203B2020202020202020202031363133,
  0x49592052455454454C204C55474E41482020312E3120232020202020202020202034373131203B202020202020202020202020202020202064657070616D203B2020202020202020202032363133,
  0x492052455454454C204C55474E41482020312E3120232020202020202020202035373131203B202020202020202020202020202020202064657070616D203B2020202020202020202033363133,
  0x52454C4C4946204C55474E41482020312E31202320202020202020202020202020202020202020202020202020202020206465776F6C6C61736964203B2020202020202020202034363133,
  0x4E5545494E474E4153532052455454454C204C55474E41482020312E3120232020202020202020202034313131203B202020202020202020202020202020202064657070616D203B2020202020202020202035363133,
  0x5455454B49542D4E5545494E2052455454454C204C55474E41482020312E3120232020202020202020202035313131203B202020202020202020202020202020202064657070616D203B2020202020202020202036363133,
  0x534F49532D4E5545494E2052455454454C204C55474E41482020312E3120232020202020202020202037433131203B202020202020202020202020202020202064657070616D203B2020202020202020202037363133,
  0x534F49534E41502D4E5545494E2052455454454C204C55474E41482020312E3120232020202020202020202038433131203B202020202020202020202020202020202064657070616D203B2020202020202020202038363133,
  0x534F49532D4B4F4559494B2D4C554549522052455454454C204C55474E41482020312E3120232020202020202020202043433131203B202020202020202020202020202020202064657070616D203B2020202020202020202039363133,
  0x5455454B49542D4C554549522052455454454C204C55474E41482020312E3120232020202020202020202045433131203B202020202020202020202020202020202064657070616D203B2020202020202020202041363133,
  0x534F49532D50554549502D4C554549522052455454454C204C55474E41482020312E3120232020202020202020202033443131203B202020202020202020202020202020202064657070616D203B2020202020202020202042363133,
  0x534F49534E41502D4C554549522052455454454C204C55474E41482020312E3120232020202020202020202037443131203B202020202020202020202020202020202064657070616D203B2020202020202020202043363133,
  0x48554549484E49524F45592D4C554549522052455454454C204C55474E41482020312E3120232020202020202020202039443131203B202020202020202020202020202020202064657070616D203B2020202020202020202044363133,
  0x50554549502D4D5545494D2052455454454C204C55474E41482020312E3120232020202020202020202043313131203B202020202020202020202020202020202064657070616D203B2020202020202020202045363133,
  0x534F49532D4D5545494D2052455454454C204C55474E41482020312E3120232020202020202020202044443131203B202020202020202020202020202020202064657070616D203B2020202020202020202046363133,
  0x534F49534E41502D4D5545494D2052455454454C204C55474E41482020312E3120232020202020202020202046443131203B202020202020202020202020202020202064657070616D203B2020202020202020202030373133,
  0x4D5545494D4E554F455950414B2052455454454C204C55474E41482020312E3120232020202020202020202044313131203B202020202020202020202020202020202064657070616D203B2020202020202020202031373133,
  0x4B4F4559494B2D50554549502052455454454C204C55474E41482020312E3120232020202020202020202045313131203B202020202020202020202020202020202064657070616D203B2020202020202020202032373133,
  0x5455454B49542D50554549502052455454454C204C55474E41482020312E3120232020202020202020202030323131203B202020202020202020202020202020202064657070616D203B2020202020202020202033373133,
  0x4B4F4559494B2D534F49532D50554549502052455454454C204C55474E41482020312E3120232020202020202020202032323131203B202020202020202020202020202020202064657070616D203B2020202020202020202034373133,
  0x5455454B49542D534F49532D50554549502052455454454C204C55474E41482020312E3120232020202020202020202033323131203B202020202020202020202020202020202064657070616D203B2020202020202020202035373133,
  0x43554549432D50554549502052455454454C204C55474E41482020312E3120232020202020202020202037323131203B202020202020202020202020202020202064657070616D203B2020202020202020202036373133,
  0x485455454948542D50554549502052455454454C204C55474E41482020312E3120232020202020202020202039323131203B202020202020202020202020202020202064657070616D203B2020202020202020202037373133,
  0x50554549504E554F455950414B2052455454454C204C55474E41482020312E3120232020202020202020202042323131203B202020202020202020202020202020202064657070616D203B2020202020202020202038373133,
  0x5055454950474E4153534E554F455950414B2052455454454C204C55474E41482020312E3120232020202020202020202043323131203B202020202020202020202020202020202064657070616D203B2020202020202020202039373133,
  0x4B4F4559494B2D534F49532052455454454C204C55474E41482020312E3120232020202020202020202044323131203B202020202020202020202020202020202064657070616D203B2020202020202020202041373133,
  0x4E5545494E2D534F49532052455454454C204C55474E41482020312E3120232020202020202020202045323131203B202020202020202020202020202020202064657070616D203B2020202020202020202042373133,
  0x5455454B49542D534F49532052455454454C204C55474E41482020312E3120232020202020202020202046323131203B202020202020202020202020202020202064657070616D203B2020202020202020202043373133,
  0x50554549502D534F49532052455454454C204C55474E41482020312E3120232020202020202020202032333131203B202020202020202020202020202020202064657070616D203B2020202020202020202044373133,
  0x43554549432D534F49532052455454454C204C55474E41482020312E3120232020202020202020202036333131203B202020202020202020202020202020202064657070616D203B2020202020202020202045373133,
  0x534F49534E41502052455454454C204C55474E41482020312E3120232020202020202020202030343131203B202020202020202020202020202020202064657070616D203B2020202020202020202046373133,
  0x474E554549474E4153532052455454454C204C55474E41482020312E3120232020202020202020202037343131203B202020202020202020202020202020202064657070616D203B2020202020202020202030383133,
  0x474E5545495345592052455454454C204C55474E41482020312E3120232020202020202020202043343131203B202020202020202020202020202020202064657070616D203B2020202020202020202031383133,
  0x534F49532D474E5545495345592052455454454C204C55474E41482020312E3120232020202020202020202031463131203B202020202020202020202020202020202064657070616D203B2020202020202020202032383133,
  0x534F49534E41502D474E5545495345592052455454454C204C55474E41482020312E3120232020202020202020202032463131203B202020202020202020202020202020202064657070616D203B2020202020202020202033383133,
  0x485055454948504E554F455950414B2052455454454C204C55474E41482020312E3120232020202020202020202037353131203B202020202020202020202020202020202064657070616D203B2020202020202020202034383133,
  0x4855454948474E4153532052455454454C204C55474E41482020312E3120232020202020202020202038353131203B202020202020202020202020202020202064657070616D203B2020202020202020202035383133,
  0x48554549484E49524F45592052455454454C204C55474E41482020312E3120232020202020202020202039353131203B202020202020202020202020202020202064657070616D203B2020202020202020202036383133,
  0x41592D4F592052455454454C204C55474E41482020312E3120232020202020202020202034383131203B202020202020202020202020202020202064657070616D203B2020202020202020202037383133,
  0x4541592D4F592052455454454C204C55474E41482020312E3120232020202020202020202035383131203B202020202020202020202020202020202064657070616D203B2020202020202020202038383133,
  0x492D4F592052455454454C204C55474E41482020312E3120232020202020202020202038383131203B202020202020202020202020202020202064657070616D203B2020202020202020202039383133,
  0x4F45592D55592052455454454C204C55474E41482020312E3120232020202020202020202031393131203B202020202020202020202020202020202064657070616D203B2020202020202020202041383133,
  0x45592D55592052455454454C204C55474E41482020312E3120232020202020202020202032393131203B202020202020202020202020202020202064657070616D203B2020202020202020202042383133,
  0x492D55592052455454454C204C55474E41482020312E3120232020202020202020202034393131203B202020202020202020202020202020202064657070616D203B2020202020202020202043383133,
  0x41454152412052455454454C204C55474E41482020312E3120232020202020202020202045393131203B202020202020202020202020202020202064657070616D203B2020202020202020202044383133,
  0x4541454152412052455454454C204C55474E41482020312E3120232020202020202020202031413131203B202020202020202020202020202020202064657070616D203B2020202020202020202045383133,
  0x3E463831332D64657672657365723C202020414E202320202020202020202020202020202020202020202020202020202020206465776F6C6C61736964203B2020202020202020202046383133,
  0x4B52414D2045535245564552204E4F495441544F4E4E4120434948504152474F4544492E2E4B52414D20474E494B4E494C204E4F495441544F4E4E4120434948504152474F4544492020312E3120232020202038564E203B2020202020203B20202020202020202020202020202020202064696C6176203B20202020313931332E2E30393133,
  0x4B52414D20454E4F204E4F495441544F4E4E4120434948504152474F4544492020312E3120232020202020202020202030304534203B202020202020202020202020202020202064657070616D203B2020202020202020202032393133,
  0x4B52414D204F5754204E4F495441544F4E4E4120434948504152474F4544492020312E3120232020202020202020202043384534203B202020202020202020202020202020202064657070616D203B2020202020202020202033393133,
  0x4B52414D204545524854204E4F495441544F4E4E4120434948504152474F4544492020312E3120232020202020202020202039304534203B202020202020202020202020202020202064657070616D203B2020202020202020202034393133,
  0x4B52414D2052554F46204E4F495441544F4E4E4120434948504152474F4544492020312E3120232020202020202020202042443635203B202020202020202020202020202020202064657070616D203B2020202020202020202035393133,
  0x4B52414D20504F54204E4F495441544F4E4E4120434948504152474F4544492020312E3120232020202020202020202041304534203B202020202020202020202020202020202064657070616D203B2020202020202020202036393133,
  0x4B52414D20454C4444494D204E4F495441544F4E4E4120434948504152474F4544492020312E3120232020202020202020202044324534203B202020202020202020202020202020202064657070616D203B2020202020202020202037393133,
  0x4B52414D204D4F54544F42204E4F495441544F4E4E4120434948504152474F4544492020312E3120232020202020202020202042304534203B202020202020202020202020202020202064657070616D203B2020202020202020202038393133,
  0x4B52414D205453524946204E4F495441544F4E4E4120434948504152474F4544492020312E3120232020202020202020202032333537203B202020202020202020202020202020202064657070616D203B2020202020202020202039393133,
  0x4B52414D20444E4F434553204E4F495441544F4E4E4120434948504152474F4544492020312E3120232020202020202020202039354534203B202020202020202020202020202020202064657070616D203B2020202020202020202041393133,
  0x4B52414D204452494854204E4F495441544F4E4E4120434948504152474F4544492020312E3120232020202020202020202039314534203B202020202020202020202020202020202064657070616D203B2020202020202020202042393133,
  0x4B52414D20485452554F46204E4F495441544F4E4E4120434948504152474F4544492020312E3120232020202020202020202031304534203B202020202020202020202020202020202064657070616D203B2020202020202020202043393133,
  0x4B52414D204E4556414548204E4F495441544F4E4E4120434948504152474F4544492020312E3120232020202020202020202039323935203B202020202020202020202020202020202064657070616D203B2020202020202020202044393133,
  0x4B52414D204854524145204E4F495441544F4E4E4120434948504152474F4544492020312E3120232020202020202020202030333735203B202020202020202020202020202020202064657070616D203B2020202020202020202045393133,
  0x4B52414D204E414D204E4F495441544F4E4E4120434948504152474F4544492020312E3120232020202020202020202041424534203B202020202020202020202020202020202064657070616D203B2020202020202020202046393133,
  0x482052455454454C204C414E4946204F464F4D4F504F422E2E55422052455454454C204F464F4D4F504F422020302E3320232020202020202020202020202020202020202020202020202020202020202020202064696C6176203B20202020374231332E2E30413133,
  0x595A2052455454454C204F464F4D4F504F422E2E48472052455454454C204F464F4D4F504F422020302E3620232020202020202020202020202020202020202020202020202020202020202020202064696C6176203B20202020414231332E2E38423133,
  0x48412052455454454C204F464F4D4F504F422E2E472052455454454C204C414E4946204F464F4D4F504F4220302E333120232020202020202020202020202020202020202020202020202020202020202020202064696C6176203B20202020464231332E2E42423133,
  0x4E20454B4F525453204B4A432E2E5420454B4F525453204B4A432020312E3420232020202038564E203B2020202020203B20202020202020202020202020202020202064696C6176203B20202020464331332E2E30433133,
  0x5120454B4F525453204B4A432E2E4820454B4F525453204B4A432020312E3520232020202038564E203B2020202020203B20202020202020202020202020202020202064696C6176203B20202020334531332E2E30443133,
  0x3E464531332D64657672657365723C2E2E3E344531332D64657672657365723C202020414E202320202020202020202020202020202020202020202020202020202020206465776F6C6C61736964203B20202020464531332E2E34453133,
  0x4F52204C4C414D532052455454454C20414E414B4154414B2E2E554B204C4C414D532052455454454C20414E414B4154414B2020322E3320232020202020202020202020202020202020202020202020202020202020202020202064696C6176203B20202020464631332E2E30463133,
  0x4B4F4559494B204C55474E41482044455A49534548544E455241502020312E3123203932303020303031312038323030203B2064657070616D5F334454535F6465776F6C6C61736964203B2020202020202020202030303233,
  0x4E5545494E204C55474E41482044455A49534548544E455241502020312E3123203932303020323031312038323030203B2064657070616D5F334454535F6465776F6C6C61736964203B2020202020202020202031303233,
  0x5455454B4954204C55474E41482044455A49534548544E455241502020312E3123203932303020333031312038323030203B2064657070616D5F334454535F6465776F6C6C61736964203B2020202020202020202032303233,
  0x4C55454952204C55474E41482044455A49534548544E455241502020312E3123203932303020353031312038323030203B2064657070616D5F334454535F6465776F6C6C61736964203B2020202020202020202033303233,
  0x4D5545494D204C55474E41482044455A49534548544E455241502020312E3123203932303020363031312038323030203B2064657070616D5F334454535F6465776F6C6C61736964203B2020202020202020202034303233,
  0x5055454950204C55474E41482044455A49534548544E455241502020312E3123203932303020373031312038323030203B2064657070616D5F334454535F6465776F6C6C61736964203B2020202020202020202035303233,
  0x534F4953204C55474E41482044455A49534548544E455241502020312E3123203932303020393031312038323030203B2064657070616D5F334454535F6465776F6C6C61736964203B2020202020202020202036303233,
  0x474E554549204C55474E41482044455A49534548544E455241502020312E3123203932303020423031312038323030203B2064657070616D5F334454535F6465776F6C6C61736964203B2020202020202020202037303233,
  0x4355454943204C55474E41482044455A49534548544E455241502020312E3123203932303020433031312038323030203B2064657070616D5F334454535F6465776F6C6C61736964203B2020202020202020202038303233,
  0x48435545494843204C55474E41482044455A49534548544E455241502020312E3123203932303020453031312038323030203B2064657070616D5F334454535F6465776F6C6C61736964203B2020202020202020202039303233,
  0x484B554549484B204C55474E41482044455A49534548544E455241502020312E3123203932303020463031312038323030203B2064657070616D5F334454535F6465776F6C6C61736964203B2020202020202020202041303233,
  0x48545545494854204C55474E41482044455A49534548544E455241502020312E3123203932303020303131312038323030203B2064657070616D5F334454535F6465776F6C6C61736964203B2020202020202020202042303233,
  0x48505545494850204C55474E41482044455A49534548544E455241502020312E3123203932303020313131312038323030203B2064657070616D5F334454535F6465776F6C6C61736964203B2020202020202020202043303233,
  0x4855454948204C55474E41482044455A49534548544E455241502020312E3123203932303020323131312038323030203B2064657070616D5F334454535F6465776F6C6C61736964203B2020202020202020202044303233,
  0x41204B4F4559494B204C55474E41482044455A49534548544E455241502020312E3123203932303020303043412038323030203B2064657070616D5F334454535F6465776F6C6C61736964203B2020202020202020202045303233,
  0x41204E5545494E204C55474E41482044455A49534548544E455241502020312E3123203932303020383930422038323030203B2064657070616D5F334454535F6465776F6C6C61736964203B2020202020202020202046303233,
  0x41205455454B4954204C55474E41482044455A49534548544E455241502020312E3123203932303020344532422038323030203B2064657070616D5F334454535F6465776F6C6C61736964203B2020202020202020202030313233,
  0x41204C55454952204C55474E41482044455A49534548544E455241502020312E3123203932303020433737422038323030203B2064657070616D5F334454535F6465776F6C6C61736964203B2020202020202020202031313233,
  0x41204D5545494D204C55474E41482044455A49534548544E455241502020312E3123203932303020384339422038323030203B2064657070616D5F334454535F6465776F6C6C61736964203B2020202020202020202032313233,
  0x41205055454950204C55474E41482044455A49534548544E455241502020312E3123203932303020343143422038323030203B2064657070616D5F334454535F6465776F6C6C61736964203B2020202020202020202033313233,
  0x4120534F4953204C55474E41482044455A49534548544E455241502020312E3123203932303020434130432038323030203B2064657070616D5F334454535F6465776F6C6C61736964203B2020202020202020202034313233,
  0x4120474E554549204C55474E41482044455A49534548544E455241502020312E3123203932303020343435432038323030203B2064657070616D5F334454535F6465776F6C6C61736964203B2020202020202020202035313233,
  0x41204355454943204C55474E41482044455A49534548544E455241502020312E3123203932303020303937432038323030203B2064657070616D5F334454535F6465776F6C6C61736964203B2020202020202020202036313233,
  0x412048435545494843204C55474E41482044455A49534548544E455241502020312E3123203932303020383243432038323030203B2064657070616D5F334454535F6465776F6C6C61736964203B2020202020202020202037313233,
  0x4120484B554549484B204C55474E41482044455A49534548544E455241502020312E3123203932303020343745432038323030203B2064657070616D5F334454535F6465776F6C6C61736964203B2020202020202020202038313233,
  0x412048545545494854204C55474E41482044455A49534548544E455241502020312E3123203932303020304330442038323030203B2064657070616D5F334454535F6465776F6C6C61736964203B2020202020202020202039313233,
  0x412048505545494850204C55474E41482044455A49534548544E455241502020312E3123203932303020433033442038323030203B2064657070616D5F334454535F6465776F6C6C61736964203B2020202020202020202041313233,
  0x41204855454948204C55474E41482044455A49534548544E455241502020312E3123203932303020383535442038323030203B2064657070616D5F334454535F6465776F6C6C61736964203B2020202020202020202042313233,
  0x55204355454943204C55474E41482044455A49534548544E455241502020312E3123203932303020434638432038323030203B2064657070616D5F334454535F6465776F6C6C61736964203B2020202020202020202043313233,
  0x4E4F454A4F20524554434152414843204E4145524F4B2044455A49534548544E4552415020302E34232039323030203430384320343236432038323030203B2064657070616D5F334454535F6465776F6C6C61736964203B2020202020202020202044313233,
  0x5548204F20524554434152414843204E4145524F4B2044455A49534548544E4552415020302E34232039323030203443364420343236432038323030203B2064657070616D5F334454535F6465776F6C6C61736964203B2020202020202020202045313233,
  0x3E463132332D64657672657365723C202020414E202320202020202020202020202020202020202020202020202020202020206465776F6C6C61736964203B2020202020202020202046313233,
  0x454E4F2048504152474F4544492044455A49534548544E455241502020312E3123203932303020303045342038323030203B2064657070616D5F334454535F6465776F6C6C61736964203B2020202020202020202030323233,
  0x4F57542048504152474F4544492044455A49534548544E455241502020312E3123203932303020433845342038323030203B2064657070616D5F334454535F6465776F6C6C61736964203B2020202020202020202031323233,
  0x45455248542048504152474F4544492044455A49534548544E455241502020312E3123203932303020393045342038323030203B2064657070616D5F334454535F6465776F6C6C61736964203B2020202020202020202032323233,
  0x52554F462048504152474F4544492044455A49534548544E455241502020312E3123203932303020424436352038323030203B2064657070616D5F334454535F6465776F6C6C61736964203B2020202020202020202033323233,
  0x455649462048504152474F4544492044455A49534548544E455241502020312E3123203932303020343945342038323030203B2064657070616D5F334454535F6465776F6C6C61736964203B2020202020202020202034323233,
  0x5849532048504152474F4544492044455A49534548544E455241502020312E3123203932303020443631352038323030203B2064657070616D5F334454535F6465776F6C6C61736964203B2020202020202020202035323233,
  0x4E455645532048504152474F4544492044455A49534548544E455241502020312E3123203932303020333045342038323030203B2064657070616D5F334454535F6465776F6C6C61736964203B2020202020202020202036323233,
  0x54484749452048504152474F4544492044455A49534548544E455241502020312E3123203932303020423631352038323030203B2064657070616D5F334454535F6465776F6C6C61736964203B2020202020202020202037323233,
  0x454E494E2048504152474F4544492044455A49534548544E455241502020312E3123203932303020443545342038323030203B2064657070616D5F334454535F6465776F6C6C61736964203B2020202020202020202038323233,
  0x4E45542048504152474F4544492044455A49534548544E455241502020312E3123203932303020313433352038323030203B2064657070616D5F334454535F6465776F6C6C61736964203B2020202020202020202039323233,
  0x4E4F4F4D2048504152474F4544492044455A49534548544E455241502020312E3123203932303020383037362038323030203B2064657070616D5F334454535F6465776F6C6C61736964203B2020202020202020202041323233,
  0x455249462048504152474F4544492044455A49534548544E455241502020312E3123203932303020423630372038323030203B2064657070616D5F334454535F6465776F6C6C61736964203B2020202020202020202042323233,
  0x52455441572048504152474F4544492044455A49534548544E455241502020312E3123203932303020343343362038323030203B2064657070616D5F334454535F6465776F6C6C61736964203B2020202020202020202043323233,
  0x444F4F572048504152474F4544492044455A49534548544E455241502020312E3123203932303020383237362038323030203B2064657070616D5F334454535F6465776F6C6C61736964203B2020202020202020202044323233,
  0x4C4154454D2048504152474F4544492044455A49534548544E455241502020312E3123203932303020314431392038323030203B2064657070616D5F334454535F6465776F6C6C61736964203B2020202020202020202045323233,
  0x48545241452048504152474F4544492044455A49534548544E455241502020312E3123203932303020463137352038323030203B2064657070616D5F334454535F6465776F6C6C61736964203B2020202020202020202046323233,
  0x4E55532048504152474F4544492044455A49534548544E455241502020312E3123203932303020354535362038323030203B2064657070616D5F334454535F6465776F6C6C61736964203B2020202020202020202030333233,
  0x4B434F54532048504152474F4544492044455A49534548544E455241502020312E3123203932303020413238362038323030203B2064657070616D5F334454535F6465776F6C6C61736964203B2020202020202020202031333233,
  0x455641482048504152474F4544492044455A49534548544E455241502020312E3123203932303020393037362038323030203B2064657070616D5F334454535F6465776F6C6C61736964203B2020202020202020202032333233,
  0x59544549434F532048504152474F4544492044455A49534548544E455241502020312E3123203932303020453339372038323030203B2064657070616D5F334454535F6465776F6C6C61736964203B2020202020202020202033333233,
  0x454D414E2048504152474F4544492044455A49534548544E455241502020312E3123203932303020443034352038323030203B2064657070616D5F334454535F6465776F6C6C61736964203B2020202020202020202034333233,
  0x4C4149434550532048504152474F4544492044455A49534548544E455241502020312E3123203932303020393732372038323030203B2064657070616D5F334454535F6465776F6C6C61736964203B2020202020202020202035333233,
  0x4C4149434E414E49462048504152474F4544492044455A49534548544E455241502020312E3123203932303020314143382038323030203B2064657070616D5F334454535F6465776F6C6C61736964203B2020202020202020202036333233,
  0x4E4F4954414C55544152474E4F432048504152474F4544492044455A49534548544E455241502020312E3123203932303020443539372038323030203B2064657070616D5F334454535F6465776F6C6C61736964203B2020202020202020202037333233,
  0x524F42414C2048504152474F4544492044455A49534548544E455241502020312E3123203932303020344232352038323030203B2064657070616D5F334454535F6465776F6C6C61736964203B2020202020202020202038333233,
  0x544E455345525045522048504152474F4544492044455A49534548544E455241502020312E3123203932303020334545342038323030203B2064657070616D5F334454535F6465776F6C6C61736964203B2020202020202020202039333233,
  0x4C4C41432048504152474F4544492044455A49534548544E455241502020312E3123203932303020433734352038323030203B2064657070616D5F334454535F6465776F6C6C61736964203B2020202020202020202041333233,
  0x59445554532048504152474F4544492044455A49534548544E455241502020312E3123203932303020363642352038323030203B2064657070616D5F334454535F6465776F6C6C61736964203B2020202020202020202042333233,
  0x4553495652455055532048504152474F4544492044455A49534548544E455241502020312E3123203932303020334536372038323030203B2064657070616D5F334454535F6465776F6C6C61736964203B2020202020202020202043333233,
  0x45534952505245544E452048504152474F4544492044455A49534548544E455241502020312E3123203932303020313046342038323030203B2064657070616D5F334454535F6465776F6C6C61736964203B2020202020202020202044333233,
  0x454352554F5345522048504152474F4544492044455A49534548544E455241502020312E3123203932303020374343382038323030203B2064657070616D5F334454535F6465776F6C6C61736964203B2020202020202020202045333233,
  0x45434E41494C4C412048504152474F4544492044455A49534548544E455241502020312E3123203932303020343533352038323030203B2064657070616D5F334454535F6465776F6C6C61736964203B2020202020202020202046333233,
  0x4C415649545345462048504152474F4544492044455A49534548544E455241502020312E3123203932303020443639372038323030203B2064657070616D5F334454535F6465776F6C6C61736964203B2020202020202020202030343233,
  0x545345522048504152474F4544492044455A49534548544E455241502020312E3123203932303020313146342038323030203B2064657070616D5F334454535F6465776F6C6C61736964203B2020202020202020202031343233,
  0x464C45532048504152474F4544492044455A49534548544E455241502020312E3123203932303020414531382038323030203B2064657070616D5F334454535F6465776F6C6C61736964203B2020202020202020202032343233,
  0x48434145522048504152474F4544492044455A49534548544E455241502020312E3123203932303020334631382038323030203B2064657070616D5F334454535F6465776F6C6C61736964203B2020202020202020202033343233,
  0x4E4F4954534555512048504152474F4544492044454C435249432020322E3520232020202020202020202046343535203B202020202020202020202020202020202064657070616D203B2020202020202020202034343233,
  0x4E45545241475245444E494B2048504152474F4544492044454C435249432020322E3520232020202020202020202043374535203B202020202020202020202020202020202064657070616D203B2020202020202020202035343233,
  0x4C4F4F4843532048504152474F4544492044454C435249432020322E3520232020202020202020202037383536203B202020202020202020202020202020202064657070616D203B2020202020202020202036343233,
  0x4F544F4B2048504152474F4544492044454C435249432020322E3520232020202020202020202046384237203B202020202020202020202020202020202064657070616D203B2020202020202020202037343233,
  0x455241555153204B43414C42204E4F20595448474945205245424D554E2044454C435249432E2E455241555153204B43414C42204E4F204E4554205245424D554E2044454C435249432020322E3520232020202038564E203B2020202020203B20202020202020202020202020202020202064696C6176203B20202020463432332E2E38343233,
  0x4E474953205049485352454E545241502020302E3423203536303020343730302030373030203B202020202020202020202020202020202064657070616D203B2020202020202020202030353233,
  0x454E4F2059544E455754205245424D554E2044454C435249432020322E3320232020202020313330302032333030203B202020202020202020202020202020202064657070616D203B2020202020202020202031353233,
  0x4F57542059544E455754205245424D554E2044454C435249432020322E3320232020202020323330302032333030203B202020202020202020202020202020202064657070616D203B2020202020202020202032353233,
  0x45455248542059544E455754205245424D554E2044454C435249432020322E3320232020202020333330302032333030203B202020202020202020202020202020202064657070616D203B2020202020202020202033353233,
  0x52554F462059544E455754205245424D554E2044454C435249432020322E3320232020202020343330302032333030203B202020202020202020202020202020202064657070616D203B2020202020202020202034353233,
  0x455649462059544E455754205245424D554E2044454C435249432020322E3320232020202020353330302032333030203B202020202020202020202020202020202064657070616D203B2020202020202020202035353233,
  0x5849532059544E455754205245424D554E2044454C435249432020322E3320232020202020363330302032333030203B202020202020202020202020202020202064657070616D203B2020202020202020202036353233,
  0x4E455645532059544E455754205245424D554E2044454C435249432020322E3320232020202020373330302032333030203B202020202020202020202020202020202064657070616D203B2020202020202020202037353233,
  0x54484749452059544E455754205245424D554E2044454C435249432020322E3320232020202020383330302032333030203B202020202020202020202020202020202064657070616D203B2020202020202020202038353233,
  0x454E494E2059544E455754205245424D554E2044454C435249432020322E3320232020202020393330302032333030203B202020202020202020202020202020202064657070616D203B2020202020202020202039353233,
  0x595452494854205245424D554E2044454C435249432020322E3320232020202020303330302033333030203B202020202020202020202020202020202064657070616D203B2020202020202020202041353233,
  0x454E4F20595452494854205245424D554E2044454C435249432020322E3320232020202020313330302033333030203B202020202020202020202020202020202064657070616D203B2020202020202020202042353233,
  0x4F575420595452494854205245424D554E2044454C435249432020322E3320232020202020323330302033333030203B202020202020202020202020202020202064657070616D203B2020202020202020202043353233,
  0x454552485420595452494854205245424D554E2044454C435249432020322E3320232020202020333330302033333030203B202020202020202020202020202020202064657070616D203B2020202020202020202044353233,
  0x52554F4620595452494854205245424D554E2044454C435249432020322E3320232020202020343330302033333030203B202020202020202020202020202020202064657070616D203B2020202020202020202045353233,
  0x4556494620595452494854205245424D554E2044454C435249432020322E3320232020202020353330302033333030203B202020202020202020202020202020202064657070616D203B2020202020202020202046353233,
  0x4B4F4559494B204C55474E41482044454C435249432020312E3120232020202020202020202030303131203B202020202020202020202020202020202064657070616D203B2020202020202020202030363233,
  0x4E5545494E204C55474E41482044454C435249432020312E3120232020202020202020202032303131203B202020202020202020202020202020202064657070616D203B2020202020202020202031363233]

def mapText14 : List Nat := [
  0x5455454B4954204C55474E41482044454C435249432020312E3120232020202020202020202033303131203B202020202020202020202020202020202064657070616D203B2020202020202020202032363233,
  0x4C55454952204C55474E41482044454C435249432020312E3120232020202020202020202035303131203B202020202020202020202020202020202064657070616D203B2020202020202020202033363233,
  0x4D5545494D204C55474E41482044454C435249432020312E3120232020202020202020202036303131203B202020202020202020202020202020202064657070616D203B2020202020202020202034363233,
  0x5055454950204C55474E41482044454C435249432020312E3120232020202020202020202037303131203B202020202020202020202020202020202064657070616D203B2020202020202020202035363233,
  0x534F4953204C55474E41482044454C435249432020312E3120232020202020202020202039303131203B202020202020202020202020202020202064657070616D203B2020202020202020202036363233,
  0x474E554549204C55474E41482044454C435249432020312E3120232020202020202020202042303131203B202020202020202020202020202020202064657070616D203B2020202020202020202037363233,
  0x4355454943204C55474E41482044454C435249432020312E3120232020202020202020202043303131203B202020202020202020202020202020202064657070616D203B2020202020202020202038363233,
  0x48435545494843204C55474E41482044454C435249432020312E3120232020202020202020202045303131203B202020202020202020202020202020202064657070616D203B2020202020202020202039363233,
  0x484B554549484B204C55474E41482044454C435249432020312E3120232020202020202020202046303131203B202020202020202020202020202020202064657070616D203B2020202020202020202041363233,
  0x48545545494854204C55474E41482044454C435249432020312E3120232020202020202020202030313131203B202020202020202020202020202020202064657070616D203B2020202020202020202042363233,
  0x48505545494850204C55474E41482044454C435249432020312E3120232020202020202020202031313131203B202020202020202020202020202020202064657070616D203B2020202020202020202043363233,
  0x4855454948204C55474E41482044454C435249432020312E3120232020202020202020202032313131203B202020202020202020202020202020202064657070616D203B2020202020202020202044363233,
  0x41204B4F4559494B204C55474E41482044454C435249432020312E3120232020202020202020202030304341203B202020202020202020202020202020202064657070616D203B2020202020202020202045363233,
  0x41204E5545494E204C55474E41482044454C435249432020312E3120232020202020202020202038393042203B202020202020202020202020202020202064657070616D203B2020202020202020202046363233,
  0x41205455454B4954204C55474E41482044454C435249432020312E3120232020202020202020202034453242203B202020202020202020202020202020202064657070616D203B2020202020202020202030373233,
  0x41204C55454952204C55474E41482044454C435249432020312E3120232020202020202020202043373742203B202020202020202020202020202020202064657070616D203B2020202020202020202031373233,
  0x41204D5545494D204C55474E41482044454C435249432020312E3120232020202020202020202038433942203B202020202020202020202020202020202064657070616D203B2020202020202020202032373233,
  0x41205055454950204C55474E41482044454C435249432020312E3120232020202020202020202034314342203B202020202020202020202020202020202064657070616D203B2020202020202020202033373233,
  0x4120534F4953204C55474E41482044454C435249432020312E3120232020202020202020202043413043203B202020202020202020202020202020202064657070616D203B2020202020202020202034373233,
  0x4120474E554549204C55474E41482044454C435249432020312E3120232020202020202020202034343543203B202020202020202020202020202020202064657070616D203B2020202020202020202035373233,
  0x41204355454943204C55474E41482044454C435249432020312E3120232020202020202020202030393743203B202020202020202020202020202020202064657070616D203B2020202020202020202036373233,
  0x412048435545494843204C55474E41482044454C435249432020312E3120232020202020202020202038324343203B202020202020202020202020202020202064657070616D203B2020202020202020202037373233,
  0x4120484B554549484B204C55474E41482044454C435249432020312E3120232020202020202020202034374543203B202020202020202020202020202020202064657070616D203B2020202020202020202038373233,
  0x412048545545494854204C55474E41482044454C435249432020312E3120232020202020202020202030433044203B202020202020202020202020202020202064657070616D203B2020202020202020202039373233,
  0x412048505545494850204C55474E41482044454C435249432020312E3120232020202020202020202043303344203B202020202020202020202020202020202064657070616D203B2020202020202020202041373233,
  0x41204855454948204C55474E41482044454C435249432020312E3120232020202020202020202038353544203B202020202020202020202020202020202064657070616D203B2020202020202020202042373233,
  0x4F4B4D41484320524554434152414843204E4145524F4B2044454C435249432020302E3420232020202020304543412038334343203B202020202020202020202020202020202064657070616D203B2020202020202020202043373233,
  0x495545554A20524554434152414843204E4145524F4B2044454C435249432020302E3420232020202020383537432043463843203B202020202020202020202020202020202064657070616D203B2020202020202020202044373233,
  0x5520474E554549204C55474E41482044454C435249432020312E3420232020202020202020202030423643203B202020202020202020202020202020202064657070616D203B2020202020202020202045373233,
  0x4C4F424D595320445241444E415453204E4145524F4B2020312E3120232020202038564E203B2020202020203B20202020202020202020202020202020202064696C6176203B2020202020202020202046373233,
  0x454E4F2048504152474F4544492044454C435249432020312E3120232020202020202020202030304534203B202020202020202020202020202020202064657070616D203B2020202020202020202030383233,
  0x4F57542048504152474F4544492044454C435249432020312E3120232020202020202020202043384534203B202020202020202020202020202020202064657070616D203B2020202020202020202031383233,
  0x45455248542048504152474F4544492044454C435249432020312E3120232020202020202020202039304534203B202020202020202020202020202020202064657070616D203B2020202020202020202032383233,
  0x52554F462048504152474F4544492044454C435249432020312E3120232020202020202020202042443635203B202020202020202020202020202020202064657070616D203B2020202020202020202033383233,
  0x455649462048504152474F4544492044454C435249432020312E3120232020202020202020202034394534203B202020202020202020202020202020202064657070616D203B2020202020202020202034383233,
  0x5849532048504152474F4544492044454C435249432020312E3120232020202020202020202044363135203B202020202020202020202020202020202064657070616D203B2020202020202020202035383233,
  0x4E455645532048504152474F4544492044454C435249432020312E3120232020202020202020202033304534203B202020202020202020202020202020202064657070616D203B2020202020202020202036383233,
  0x54484749452048504152474F4544492044454C435249432020312E3120232020202020202020202042363135203B202020202020202020202020202020202064657070616D203B2020202020202020202037383233,
  0x454E494E2048504152474F4544492044454C435249432020312E3120232020202020202020202044354534203B202020202020202020202020202020202064657070616D203B2020202020202020202038383233,
  0x4E45542048504152474F4544492044454C435249432020312E3120232020202020202020202031343335203B202020202020202020202020202020202064657070616D203B2020202020202020202039383233,
  0x4E4F4F4D2048504152474F4544492044454C435249432020312E3120232020202020202020202038303736203B202020202020202020202020202020202064657070616D203B2020202020202020202041383233,
  0x455249462048504152474F4544492044454C435249432020312E3120232020202020202020202042363037203B202020202020202020202020202020202064657070616D203B2020202020202020202042383233,
  0x52455441572048504152474F4544492044454C435249432020312E3120232020202020202020202034334336203B202020202020202020202020202020202064657070616D203B2020202020202020202043383233,
  0x444F4F572048504152474F4544492044454C435249432020312E3120232020202020202020202038323736203B202020202020202020202020202020202064657070616D203B2020202020202020202044383233,
  0x4C4154454D2048504152474F4544492044454C435249432020312E3120232020202020202020202031443139203B202020202020202020202020202020202064657070616D203B2020202020202020202045383233,
  0x48545241452048504152474F4544492044454C435249432020312E3120232020202020202020202046313735203B202020202020202020202020202020202064657070616D203B2020202020202020202046383233,
  0x4E55532048504152474F4544492044454C435249432020312E3120232020202020202020202035453536203B202020202020202020202020202020202064657070616D203B2020202020202020202030393233,
  0x4B434F54532048504152474F4544492044454C435249432020312E3120232020202020202020202041323836203B202020202020202020202020202020202064657070616D203B2020202020202020202031393233,
  0x455641482048504152474F4544492044454C435249432020312E3120232020202020202020202039303736203B202020202020202020202020202020202064657070616D203B2020202020202020202032393233,
  0x59544549434F532048504152474F4544492044454C435249432020312E3120232020202020202020202045333937203B202020202020202020202020202020202064657070616D203B2020202020202020202033393233,
  0x454D414E2048504152474F4544492044454C435249432020312E3120232020202020202020202044303435203B202020202020202020202020202020202064657070616D203B2020202020202020202034393233,
  0x4C4149434550532048504152474F4544492044454C435249432020312E3120232020202020202020202039373237203B202020202020202020202020202020202064657070616D203B2020202020202020202035393233,
  0x4C4149434E414E49462048504152474F4544492044454C435249432020312E3120232020202020202020202031414338203B202020202020202020202020202020202064657070616D203B2020202020202020202036393233,
  0x4E4F4954414C55544152474E4F432048504152474F4544492044454C435249432020312E3120232020202020202020202044353937203B202020202020202020202020202020202064657070616D203B2020202020202020202037393233,
  0x524F42414C2048504152474F4544492044454C435249432020312E3120232020202020202020202034423235203B202020202020202020202020202020202064657070616D203B2020202020202020202038393233,
  0x5445524345532048504152474F4544492044454C435249432020312E3120232020202020202020202038443937203B202020202020202020202020202020202064657070616D203B2020202020202020202039393233,
  0x454C414D2048504152474F4544492044454C435249432020312E3120232020202020202020202037333537203B202020202020202020202020202020202064657070616D203B2020202020202020202041393233,
  0x454C414D45462048504152474F4544492044454C435249432020312E3120232020202020202020202033373935203B202020202020202020202020202020202064657070616D203B2020202020202020202042393233,
  0x454C4241544955532048504152474F4544492044454C435249432020312E3120232020202020202020202039363039203B202020202020202020202020202020202064657070616D203B2020202020202020202043393233,
  0x544E454C4C454358452048504152474F4544492044454C435249432020312E3120232020202020202020202041323135203B202020202020202020202020202020202064657070616D203B2020202020202020202044393233,
  0x544E4952502048504152474F4544492044454C435249432020312E3120232020202020202020202030373335203B202020202020202020202020202020202064657070616D203B2020202020202020202045393233,
  0x4E4F49544E455454412048504152474F4544492044454C435249432020312E3120232020202020202020202038454336203B202020202020202020202020202020202064657070616D203B2020202020202020202046393233,
  0x4D4554492048504152474F4544492044454C435249432020312E3120232020202020202020202035303839203B202020202020202020202020202020202064657070616D203B2020202020202020202030413233,
  0x545345522048504152474F4544492044454C435249432020312E3120232020202020202020202031314634203B202020202020202020202020202020202064657070616D203B2020202020202020202031413233,
  0x59504F432048504152474F4544492044454C435249432020312E3120232020202020202020202039393135203B202020202020202020202020202020202064657070616D203B2020202020202020202032413233,
  0x54434552524F432048504152474F4544492044454C435249432020312E3120232020202020202020202033364236203B202020202020202020202020202020202064657070616D203B2020202020202020202033413233,
  0x484749482048504152474F4544492044454C435249432020312E3120232020202020202020202041304534203B202020202020202020202020202020202064657070616D203B2020202020202020202034413233,
  0x4552544E45432048504152474F4544492044454C435249432020312E3120232020202020202020202044324534203B202020202020202020202020202020202064657070616D203B2020202020202020202035413233,
  0x574F4C2048504152474F4544492044454C435249432020312E3120232020202020202020202042304534203B202020202020202020202020202020202064657070616D203B2020202020202020202036413233,
  0x5446454C2048504152474F4544492044454C435249432020312E3120232020202020202020202036454435203B202020202020202020202020202020202064657070616D203B2020202020202020202037413233,
  0x54484749522048504152474F4544492044454C435249432020312E3120232020202020202020202033463335203B202020202020202020202020202020202064657070616D203B2020202020202020202038413233,
  0x454E49434944454D2048504152474F4544492044454C435249432020312E3120232020202020202020202042333335203B202020202020202020202020202020202064657070616D203B2020202020202020202039413233,
  0x4E4F4947494C45522048504152474F4544492044454C435249432020312E3120232020202020202020202037394235203B202020202020202020202020202020202064657070616D203B2020202020202020202041413233,
  0x59445554532048504152474F4544492044454C435249432020312E3120232020202020202020202036364235203B202020202020202020202020202020202064657070616D203B2020202020202020202042413233,
  0x4553495652455055532048504152474F4544492044454C435249432020312E3120232020202020202020202033453637203B202020202020202020202020202020202064657070616D203B2020202020202020202043413233,
  0x45534952505245544E452048504152474F4544492044454C435249432020312E3120232020202020202020202031304634203B202020202020202020202020202020202064657070616D203B2020202020202020202044413233,
  0x454352554F5345522048504152474F4544492044454C435249432020312E3120232020202020202020202037434338203B202020202020202020202020202020202064657070616D203B2020202020202020202045413233,
  0x45434E41494C4C412048504152474F4544492044454C435249432020312E3120232020202020202020202034353335203B202020202020202020202020202020202064657070616D203B2020202020202020202046413233,
  0x544847494E2048504152474F4544492044454C435249432020312E3120232020202020202020202043313935203B202020202020202020202020202020202064657070616D203B2020202020202020202030423233,
  0x58495320595452494854205245424D554E2044454C435249432020322E3320232020202020363330302033333030203B202020202020202020202020202020202064657070616D203B2020202020202020202031423233,
  0x4E4556455320595452494854205245424D554E2044454C435249432020322E3320232020202020373330302033333030203B202020202020202020202020202020202064657070616D203B2020202020202020202032423233,
  0x544847494520595452494854205245424D554E2044454C435249432020322E3320232020202020383330302033333030203B202020202020202020202020202020202064657070616D203B2020202020202020202033423233,
  0x454E494E20595452494854205245424D554E2044454C435249432020322E3320232020202020393330302033333030203B202020202020202020202020202020202064657070616D203B2020202020202020202034423233,
  0x5954524F46205245424D554E2044454C435249432020322E3320232020202020303330302034333030203B202020202020202020202020202020202064657070616D203B2020202020202020202035423233,
  0x454E4F205954524F46205245424D554E2044454C435249432020322E3320232020202020313330302034333030203B202020202020202020202020202020202064657070616D203B2020202020202020202036423233,
  0x4F5754205954524F46205245424D554E2044454C435249432020322E3320232020202020323330302034333030203B202020202020202020202020202020202064657070616D203B2020202020202020202037423233,
  0x4545524854205954524F46205245424D554E2044454C435249432020322E3320232020202020333330302034333030203B202020202020202020202020202020202064657070616D203B2020202020202020202038423233,
  0x52554F46205954524F46205245424D554E2044454C435249432020322E3320232020202020343330302034333030203B202020202020202020202020202020202064657070616D203B2020202020202020202039423233,
  0x45564946205954524F46205245424D554E2044454C435249432020322E3320232020202020353330302034333030203B202020202020202020202020202020202064657070616D203B2020202020202020202041423233,
  0x584953205954524F46205245424D554E2044454C435249432020322E3320232020202020363330302034333030203B202020202020202020202020202020202064657070616D203B2020202020202020202042423233,
  0x4E45564553205954524F46205245424D554E2044454C435249432020322E3320232020202020373330302034333030203B202020202020202020202020202020202064657070616D203B2020202020202020202043423233,
  0x5448474945205954524F46205245424D554E2044454C435249432020322E3320232020202020383330302034333030203B202020202020202020202020202020202064657070616D203B2020202020202020202044423233,
  0x454E494E205954524F46205245424D554E2044454C435249432020322E3320232020202020393330302034333030203B202020202020202020202020202020202064657070616D203B2020202020202020202045423233,
  0x5954464946205245424D554E2044454C435249432020322E3320232020202020303330302035333030203B202020202020202020202020202020202064657070616D203B2020202020202020202046423233,
  0x595241554E414A20524F46204C4F424D5953204850415247454C455420434948504152474F4544492020312E3120232020202020383037362031333030203B202020202020202020202020202020202064657070616D203B2020202020202020202030433233,
  0x595241555242454620524F46204C4F424D5953204850415247454C455420434948504152474F4544492020312E3120232020202020383037362032333030203B202020202020202020202020202020202064657070616D203B2020202020202020202031433233,
  0x484352414D20524F46204C4F424D5953204850415247454C455420434948504152474F4544492020312E3120232020202020383037362033333030203B202020202020202020202020202020202064657070616D203B2020202020202020202032433233,
  0x4C4952504120524F46204C4F424D5953204850415247454C455420434948504152474F4544492020312E3120232020202020383037362034333030203B202020202020202020202020202020202064657070616D203B2020202020202020202033433233,
  0x59414D20524F46204C4F424D5953204850415247454C455420434948504152474F4544492020312E3120232020202020383037362035333030203B202020202020202020202020202020202064657070616D203B2020202020202020202034433233,
  0x454E554A20524F46204C4F424D5953204850415247454C455420434948504152474F4544492020312E3120232020202020383037362036333030203B202020202020202020202020202020202064657070616D203B2020202020202020202035433233,
  0x594C554A20524F46204C4F424D5953204850415247454C455420434948504152474F4544492020312E3120232020202020383037362037333030203B202020202020202020202020202020202064657070616D203B2020202020202020202036433233,
  0x54535547554120524F46204C4F424D5953204850415247454C455420434948504152474F4544492020312E3120232020202020383037362038333030203B202020202020202020202020202020202064657070616D203B2020202020202020202037433233,
  0x5245424D455450455320524F46204C4F424D5953204850415247454C455420434948504152474F4544492020312E3120232020202020383037362039333030203B202020202020202020202020202020202064657070616D203B2020202020202020202038433233,
  0x5245424F54434F20524F46204C4F424D5953204850415247454C455420434948504152474F4544492020312E3123203830373620303330302031333030203B202020202020202020202020202020202064657070616D203B2020202020202020202039433233,
  0x5245424D45564F4E20524F46204C4F424D5953204850415247454C455420434948504152474F4544492020312E3123203830373620313330302031333030203B202020202020202020202020202020202064657070616D203B2020202020202020202041433233,
  0x5245424D4543454420524F46204C4F424D5953204850415247454C455420434948504152474F4544492020312E3123203830373620323330302031333030203B202020202020202020202020202020202064657070616D203B2020202020202020202042433233,
  0x4748204552415551532020302E3420232020202020373630302038363030203B202020202020202020202020202020202064657070616D203B2020202020202020202043433233,
  0x475245204552415551532020302E3423203736303020323730302035363030203B202020202020202020202020202020202064657070616D203B2020202020202020202044433233,
  0x5645204552415551532020302E3420232020202020363730302035363030203B202020202020202020202020202020202064657070616D203B2020202020202020202045433233,
  0x4E474953205954494C494241494C20444554494D494C2020302E3423203436303020343730302043363030203B202020202020202020202020202020202064657070616D203B2020202020202020202046433233,
  0x4120414E414B4154414B2044454C435249432020312E3120232020202020202020202032413033203B202020202020202020202020202020202064657070616D203B2020202020202020202030443233,
  0x4920414E414B4154414B2044454C435249432020312E3120232020202020202020202034413033203B202020202020202020202020202020202064657070616D203B2020202020202020202031443233,
  0x5520414E414B4154414B2044454C435249432020312E3120232020202020202020202036413033203B202020202020202020202020202020202064657070616D203B2020202020202020202032443233,
  0x4520414E414B4154414B2044454C435249432020312E3120232020202020202020202038413033203B202020202020202020202020202020202064657070616D203B2020202020202020202033443233,
  0x4F20414E414B4154414B2044454C435249432020312E3120232020202020202020202041413033203B202020202020202020202020202020202064657070616D203B2020202020202020202034443233,
  0x414B20414E414B4154414B2044454C435249432020312E3120232020202020202020202042413033203B202020202020202020202020202020202064657070616D203B2020202020202020202035443233,
  0x494B20414E414B4154414B2044454C435249432020312E3120232020202020202020202044413033203B202020202020202020202020202020202064657070616D203B2020202020202020202036443233,
  0x554B20414E414B4154414B2044454C435249432020312E3120232020202020202020202046413033203B202020202020202020202020202020202064657070616D203B2020202020202020202037443233,
  0x454B20414E414B4154414B2044454C435249432020312E3120232020202020202020202031423033203B202020202020202020202020202020202064657070616D203B2020202020202020202038443233,
  0x4F4B20414E414B4154414B2044454C435249432020312E3120232020202020202020202033423033203B202020202020202020202020202020202064657070616D203B2020202020202020202039443233,
  0x415320414E414B4154414B2044454C435249432020312E3120232020202020202020202035423033203B202020202020202020202020202020202064657070616D203B2020202020202020202041443233,
  0x495320414E414B4154414B2044454C435249432020312E3120232020202020202020202037423033203B202020202020202020202020202020202064657070616D203B2020202020202020202042443233,
  0x555320414E414B4154414B2044454C435249432020312E3120232020202020202020202039423033203B202020202020202020202020202020202064657070616D203B2020202020202020202043443233,
  0x455320414E414B4154414B2044454C435249432020312E3120232020202020202020202042423033203B202020202020202020202020202020202064657070616D203B2020202020202020202044443233,
  0x4F5320414E414B4154414B2044454C435249432020312E3120232020202020202020202044423033203B202020202020202020202020202020202064657070616D203B2020202020202020202045443233,
  0x415420414E414B4154414B2044454C435249432020312E3120232020202020202020202046423033203B202020202020202020202020202020202064657070616D203B2020202020202020202046443233,
  0x495420414E414B4154414B2044454C435249432020312E3120232020202020202020202031433033203B202020202020202020202020202020202064657070616D203B2020202020202020202030453233,
  0x555420414E414B4154414B2044454C435249432020312E3120232020202020202020202034433033203B202020202020202020202020202020202064657070616D203B2020202020202020202031453233,
  0x455420414E414B4154414B2044454C435249432020312E3120232020202020202020202036433033203B202020202020202020202020202020202064657070616D203B2020202020202020202032453233,
  0x4F5420414E414B4154414B2044454C435249432020312E3120232020202020202020202038433033203B202020202020202020202020202020202064657070616D203B2020202020202020202033453233,
  0x414E20414E414B4154414B2044454C435249432020312E3120232020202020202020202041433033203B202020202020202020202020202020202064657070616D203B2020202020202020202034453233,
  0x494E20414E414B4154414B2044454C435249432020312E3120232020202020202020202042433033203B202020202020202020202020202020202064657070616D203B2020202020202020202035453233,
  0x554E20414E414B4154414B2044454C435249432020312E3120232020202020202020202043433033203B202020202020202020202020202020202064657070616D203B2020202020202020202036453233,
  0x454E20414E414B4154414B2044454C435249432020312E3120232020202020202020202044433033203B202020202020202020202020202020202064657070616D203B2020202020202020202037453233,
  0x4F4E20414E414B4154414B2044454C435249432020312E3120232020202020202020202045433033203B202020202020202020202020202020202064657070616D203B2020202020202020202038453233,
  0x414820414E414B4154414B2044454C435249432020312E3120232020202020202020202046433033203B202020202020202020202020202020202064657070616D203B2020202020202020202039453233,
  0x494820414E414B4154414B2044454C435249432020312E3120232020202020202020202032443033203B202020202020202020202020202020202064657070616D203B2020202020202020202041453233,
  0x554820414E414B4154414B2044454C435249432020312E3120232020202020202020202035443033203B202020202020202020202020202020202064657070616D203B2020202020202020202042453233,
  0x454820414E414B4154414B2044454C435249432020312E3120232020202020202020202038443033203B202020202020202020202020202020202064657070616D203B2020202020202020202043453233,
  0x4F4820414E414B4154414B2044454C435249432020312E3120232020202020202020202042443033203B202020202020202020202020202020202064657070616D203B2020202020202020202044453233,
  0x414D20414E414B4154414B2044454C435249432020312E3120232020202020202020202045443033203B202020202020202020202020202020202064657070616D203B2020202020202020202045453233,
  0x494D20414E414B4154414B2044454C435249432020312E3120232020202020202020202046443033203B202020202020202020202020202020202064657070616D203B2020202020202020202046453233,
  0x554D20414E414B4154414B2044454C435249432020312E3120232020202020202020202030453033203B202020202020202020202020202020202064657070616D203B2020202020202020202030463233,
  0x454D20414E414B4154414B2044454C435249432020312E3120232020202020202020202031453033203B202020202020202020202020202020202064657070616D203B2020202020202020202031463233,
  0x4F4D20414E414B4154414B2044454C435249432020312E3120232020202020202020202032453033203B202020202020202020202020202020202064657070616D203B2020202020202020202032463233,
  0x415920414E414B4154414B2044454C435249432020312E3120232020202020202020202034453033203B202020202020202020202020202020202064657070616D203B2020202020202020202033463233,
  0x555920414E414B4154414B2044454C435249432020312E3120232020202020202020202036453033203B202020202020202020202020202020202064657070616D203B2020202020202020202034463233,
  0x4F5920414E414B4154414B2044454C435249432020312E3120232020202020202020202038453033203B202020202020202020202020202020202064657070616D203B2020202020202020202035463233,
  0x415220414E414B4154414B2044454C435249432020312E3120232020202020202020202039453033203B202020202020202020202020202020202064657070616D203B2020202020202020202036463233,
  0x495220414E414B4154414B2044454C435249432020312E3120232020202020202020202041453033203B202020202020202020202020202020202064657070616D203B2020202020202020202037463233,
  0x555220414E414B4154414B2044454C435249432020312E3120232020202020202020202042453033203B202020202020202020202020202020202064657070616D203B2020202020202020202038463233,
  0x455220414E414B4154414B2044454C435249432020312E3120232020202020202020202043453033203B202020202020202020202020202020202064657070616D203B2020202020202020202039463233,
  0x4F5220414E414B4154414B2044454C435249432020312E3120232020202020202020202044453033203B202020202020202020202020202020202064657070616D203B2020202020202020202041463233,
  0x415720414E414B4154414B2044454C435249432020312E3120232020202020202020202046453033203B202020202020202020202020202020202064657070616D203B2020202020202020202042463233,
  0x495720414E414B4154414B2044454C435249432020312E3120232020202020202020202030463033203B202020202020202020202020202020202064657070616D203B2020202020202020202043463233,
  0x455720414E414B4154414B2044454C435249432020312E3120232020202020202020202031463033203B202020202020202020202020202020202064657070616D203B2020202020202020202044463233,
  0x4F5720414E414B4154414B2044454C435249432020312E3120232020202020202020202032463033203B202020202020202020202020202020202064657070616D203B2020202020202020202045463233,
  0x415749455220454D414E204152452045524155515320312E323120232020202020433834352034454534203B202020202020202020202020202020202064657070616D203B2020202020202020202046463233,
  0x4F54414150412045524155515320312E31232038433033204346303320314430332032413033203B202020202020202020202020202020202064657070616D203B2020202020202020202030303333,
  0x4155485552412045524155515320312E31232031413033203544303320424530332032413033203B202020202020202020202020202020202064657070616D203B2020202020202020202031303333,
  0x4145504E412045524155515320312E31232032413033204144303320334630332032413033203B202020202020202020202020202020202064657070616D203B2020202020202020202032303333,
  0x55524141204552415551532020312E3123204245303320434630332032413033203B202020202020202020202020202020202064657070616D203B2020202020202020202033303333,
  0x55474E494E492045524155515320312E31232030423033203346303320424330332034413033203B202020202020202020202020202020202064657070616D203B2020202020202020202034303333,
  0x49544E49204552415551532020312E3123203143303320334630332034413033203B202020202020202020202020202020202064657070616D203B2020202020202020202035303333,
  0x4E4F55204552415551532020312E3123203346303320394130332036413033203B202020202020202020202020202020202064657070616D203B2020202020202020202036303333,
  0x4F4455554B5553452045524155515320312E312320394330332043463033204641303320394230332038413033203B202020202020202020202020202020202064657070616D203B2020202020202020202037303333,
  0x41414B45452045524155515320312E31232043463033204241303320434630332038413033203B202020202020202020202020202020202064657070616D203B2020202020202020202038303333,
  0x55534E4F204552415551532020312E3123203942303320334630332041413033203B202020202020202020202020202020202064657070616D203B2020202020202020202039303333,
  0x554D4F4F204552415551532020312E3123203045303320434630332041413033203B202020202020202020202020202020202064657070616D203B2020202020202020202041303333,
  0x495249414B204552415551532020312E3123204145303320344130332042413033203B202020202020202020202020202020202064657070616D203B2020202020202020202042303333,
  0x4F54544152414B2045524155515320312E31232038433033203343303320394530332042413033203B202020202020202020202020202020202064657070616D203B2020202020202020202043303333,
  0x4949524F52414B2045524155515320312E31232043463033204145303320444530332042413033203B202020202020202020202020202020202064657070616D203B2020202020202020202044303333,
  0x4E4F524147204552415551532020312E3123203346303320444530332043413033203B202020202020202020202020202020202064657070616D203B2020202020202020202045303333,
  0x414D4E4147204552415551532020312E3123204544303320334630332043413033203B202020202020202020202020202020202064657070616D203B2020202020202020202046303333,
  0x41474947204552415551532020312E3120232020202020434130332045413033203B202020202020202020202020202020202064657070616D203B2020202020202020202030313333,
  0x49494E4947204552415551532020312E3123204346303320424330332045413033203B202020202020202020202020202020202064657070616D203B2020202020202020202031313333,
  0x49495255594B2045524155515320312E31232043463033204145303320354530332044413033203B202020202020202020202020202020202064657070616D203B2020202020202020202032313333,
  0x414144555249472045524155515320312E31232043463033203043303320424530332045413033203B202020202020202020202020202020202064657070616D203B2020202020202020202033313333,
  0x4F52494B204552415551532020312E3120232020202020444530332044413033203B202020202020202020202020202020202064657070616D203B2020202020202020202034313333,
  0x554D415255474F52494B2045524155515320312E312320304530332039453033203042303320444530332044413033203B202020202020202020202020202020202064657070616D203B2020202020202020202035313333,
  0x55524F5445454D4F52494B2045524155515320312E3123204245303320384330332043463033203145303320444530332044413033203B202020202020202020202020202020202064657070616D203B2020202020202020202036313333,
  0x4F545441574F52494B2045524155515320312E312320384330332033433033204645303320444530332044413033203B202020202020202020202020202020202064657070616D203B2020202020202020202037313333,
  0x554D41525547204552415551532020312E3123203045303320394530332030423033203B202020202020202020202020202020202064657070616D203B2020202020202020202038313333,
  0x4E4F54554D415255472045524155515320312E312320334630332038433033203045303320394530332030423033203B202020202020202020202020202020202064657070616D203B2020202020202020202039313333,
  0x4F5249455A5552554B2045524155515320312E312320444530332034413033204342303320424530332046413033203B202020202020202020202020202020202064657070616D203B2020202020202020202041313333,
  0x454E4F4F52554B2045524155515320312E31232044433033204346303320444530332046413033203B202020202020202020202020202020202064657070616D203B2020202020202020202042313333,
  0x555345454B204552415551532020312E3123203942303320434630332031423033203B202020202020202020202020202020202064657070616D203B2020202020202020202043313333,
  0x414E55524F4B204552415551532020312E3123204143303320424530332033423033203B202020202020202020202020202020202064657070616D203B2020202020202020202044313333,
  0x4F504F4F4B204552415551532020312E3123204444303320434630332033423033203B202020202020202020202020202020202064657070616D203B2020202020202020202045313333,
  0x5552554B4941532045524155515320312E31232042453033204641303320344130332035423033203B202020202020202020202020202020202064657070616D203B2020202020202020202046313333,
  0x554D4949544E41532045524155515320312E312320304530332043463033203143303320334630332035423033203B202020202020202020202020202020202064657070616D203B2020202020202020202030323333,
  0x55474E495249532045524155515320312E31232030423033203346303320414530332037423033203B202020202020202020202020202020202064657070616D203B2020202020202020202031323333,
  0x49544E4553204552415551532020312E3123203143303320334630332042423033203B202020202020202020202020202020202064657070616D203B2020202020202020202032323333,
  0x4F544E4553204552415551532020312E3123203843303320334630332042423033203B202020202020202020202020202020202064657070616D203B2020202020202020202033323333,
  0x5553414144204552415551532020312E3123203942303320434630332030433033203B202020202020202020202020202020202064657070616D203B2020202020202020202034323333,
  0x49534544204552415551532020312E3120232020202020374230332037433033203B202020202020202020202020202020202064657070616D203B2020202020202020202035323333,
  0x55524F44204552415551532020312E3120232020202020424530332039433033203B202020202020202020202020202020202064657070616D203B2020202020202020202036323333,
  0x4E4F54204552415551532020312E3120232020202020334630332038433033203B202020202020202020202020202020202064657070616D203B2020202020202020202037323333,
  0x4F4E414E204552415551532020312E3120232020202020454330332041433033203B202020202020202020202020202020202064657070616D203B2020202020202020202038323333,
  0x4F54544F4E204552415551532020312E3123203843303320334330332045433033203B202020202020202020202020202020202064657070616D203B2020202020202020202039323333,
  0x5554494148204552415551532020312E3123203443303320344130332046433033203B202020202020202020202020202020202064657070616D203B2020202020202020202041323333,
  0x4F544E45534141502045524155515320312E312320384330332033463033204242303320434630332031443033203B202020202020202020202020202020202064657070616D203B2020202020202020202042323333,
  0x5554414150204552415551532020312E3123203443303320434630332031443033203B202020202020202020202020202020202064657070616D203B2020202020202020202043323333,
  0x555245524141422045524155515320312E31232042453033204345303320434630332030443033203B202020202020202020202020202020202064657070616D203B2020202020202020202044323333,
  0x55524F5455534149502045524155515320312E312320424530332038433033203942303320324130332034443033203B202020202020202020202020202020202064657070616D203B2020202020202020202045323333,
  0x5552554B4950204552415551532020312E3123204245303320464130332034443033203B202020202020202020202020202020202064657070616D203B2020202020202020202046323333,
  0x4F4B4950204552415551532020312E3120232020202020334230332034443033203B202020202020202020202020202020202064657070616D203B2020202020202020202030333333,
  0x55524942204552415551532020312E3120232020202020424530332033443033203B202020202020202020202020202020202064657070616D203B2020202020202020202031333333,
  0x4F444441524155482045524155515320312E312320394330332033433033203945303320314130332035443033203B202020202020202020202020202020202064657070616D203B2020202020202020202032333333,
  0x4F54494955482045524155515320312E31232038433033204346303320334130332035443033203B202020202020202020202020202020202064657070616D203B2020202020202020202033333333,
  0x55524559535355422045524155515320312E312320424530332037413033203742303320334330332036443033203B202020202020202020202020202020202064657070616D203B2020202020202020202034333333,
  0x4E41525548204552415551532020312E3123203346303320394530332035443033203B202020202020202020202020202020202064657070616D203B2020202020202020202035333333,
  0x5552414154554B45482045524155515320312E312320424530332043463033204642303320464130332038443033203B202020202020202020202020202020202064657070616D203B2020202020202020202036333333,
  0x4F534550204552415551532020312E3120232020202020444230332041443033203B202020202020202020202020202020202064657070616D203B2020202020202020202037333333,
  0x4948494E4550204552415551532020312E3123203244303320424330332041443033203B202020202020202020202020202020202064657070616D203B2020202020202020202038333333,
  0x555455524548204552415551532020312E3123203443303320424530332038443033203B202020202020202020202020202020202064657070616D203B2020202020202020202039333333,
  0x55534E4550204552415551532020312E3123203942303320334630332041443033203B202020202020202020202020202020202064657070616D203B2020202020202020202041333333,
  0x495A454550204552415551532020312E3123203842303320434630332041443033203B202020202020202020202020202020202064657070616D203B2020202020202020202042333333,
  0x4154454542204552415551532020312E3123204642303320434630332039443033203B202020202020202020202020202020202064657070616D203B2020202020202020202043333333,
  0x4F544E494F502045524155515320312E31232038433033203346303320344130332044443033203B202020202020202020202020202020202064657070616D203B2020202020202020202044333333,
  0x4F5455524F42204552415551532020312E3123203843303320424530332043443033203B202020202020202020202020202020202064657070616D203B2020202020202020202045333333,
  0x4E4F48204552415551532020312E3120232020202020334630332042443033203B202020202020202020202020202020202064657070616D203B2020202020202020202046333333,
  0x4F444E4F50204552415551532020312E3123203943303320334630332044443033203B202020202020202020202020202020202064657070616D203B2020202020202020202030343333,
  0x55524F4F48204552415551532020312E3123204245303320434630332042443033203B202020202020202020202020202020202064657070616D203B2020202020202020202031343333,
  0x4E4F4F48204552415551532020312E3123203346303320434630332042443033203B202020202020202020202020202020202064657070616D203B2020202020202020202032343333,
  0x4F52554B49414D2045524155515320312E31232044453033204641303320344130332045443033203B202020202020202020202020202020202064657070616D203B2020202020202020202033343333,
  0x555249414D204552415551532020312E3123204245303320344130332045443033203B202020202020202020202020202020202064657070616D203B2020202020202020202034343333,
  0x414848414D204552415551532020312E3123204643303320334330332045443033203B202020202020202020202020202020202064657070616D203B2020202020202020202035343333,
  0x554B5552414D204552415551532020312E3123204641303320424530332045443033203B202020202020202020202020202020202064657070616D203B2020202020202020202036343333,
  0x4E4F59534E414D2045524155515320312E312320334630332037453033203742303320334630332045443033203B202020202020202020202020202020202064657070616D203B2020202020202020202037343333,
  0x4E4F52554B494D2045524155515320312E31232033463033204445303320464130332046443033203B202020202020202020202020202020202064657070616D203B2020202020202020202038343333,
  0x4952494D204552415551532020312E3120232020202020414530332046443033203B202020202020202020202020202020202064657070616D203B2020202020202020202039343333,
  0x55524141424952494D2045524155515320312E312320424530332043463033203044303320414530332046443033203B202020202020202020202020202020202064657070616D203B2020202020202020202041343333,
  0x4147454D204552415551532020312E3120232020202020434130332031453033203B202020202020202020202020202020202064657070616D203B2020202020202020202042343333,
  0x4E4F544147454D2045524155515320312E31232033463033203843303320434130332031453033203B202020202020202020202020202020202064657070616D203B2020202020202020202043343333,
  0x55524F5445454D2045524155515320312E31232042453033203843303320434630332031453033203B202020202020202020202020202020202064657070616D203B2020202020202020202044343333,
  0x4F44414159204552415551532020312E3123203943303320434630332034453033203B202020202020202020202020202020202064657070616D203B2020202020202020202045343333,
  0x5552414159204552415551532020312E3123204245303320434630332034453033203B202020202020202020202020202020202064657070616D203B2020202020202020202046343333,
  0x4E415559204552415551532020312E3123203346303320324130332036453033203B202020202020202020202020202020202064657070616D203B2020202020202020202030353333,
  0x55524F545449522045524155515320312E31232042453033203843303320334330332041453033203B202020202020202020202020202020202064657070616D203B2020202020202020202031353333,
  0x41524952204552415551532020312E3120232020202020394530332041453033203B202020202020202020202020202020202064657070616D203B2020202020202020202032353333,
  0x4949505552204552415551532020312E3123204346303320344430332042453033203B202020202020202020202020202020202064657070616D203B2020202020202020202033353333,
  0x555255425555522045524155515320312E31232042453033203644303320434630332042453033203B202020202020202020202020202020202064657070616D203B2020202020202020202034353333,
  0x554D4552204552415551532020312E3120232020202020304530332043453033203B202020202020202020202020202020202064657070616D203B2020202020202020202035353333,
  0x4E45474F544E45522045524155515320312E312320334630332032423033203843303320334630332043453033203B202020202020202020202020202020202064657070616D203B2020202020202020202036353333,
  0x4F54544157204552415551532020312E3123203843303320334330332046453033203B202020202020202020202020202020202064657070616D203B2020202020202020202037353333,
  0x4F52455A2052554F4820524F46204C4F424D5953204850415247454C455420434948504152474F4544492020312E3120232020202020394230372030333030203B202020202020202020202020202020202064657070616D203B2020202020202020202038353333,
  0x454E4F2052554F4820524F46204C4F424D5953204850415247454C455420434948504152474F4544492020312E3120232020202020394230372031333030203B202020202020202020202020202020202064657070616D203B2020202020202020202039353333,
  0x4F57542052554F4820524F46204C4F424D5953204850415247454C455420434948504152474F4544492020312E3120232020202020394230372032333030203B202020202020202020202020202020202064657070616D203B2020202020202020202041353333,
  0x45455248542052554F4820524F46204C4F424D5953204850415247454C455420434948504152474F4544492020312E3120232020202020394230372033333030203B202020202020202020202020202020202064657070616D203B2020202020202020202042353333]

def mapText15 : List Nat := [
  0x52554F462052554F4820524F46204C4F424D5953204850415247454C455420434948504152474F4544492020312E3120232020202020394230372034333030203B202020202020202020202020202020202064657070616D203B2020202020202020202043353333,
  0x455649462052554F4820524F46204C4F424D5953204850415247454C455420434948504152474F4544492020312E3120232020202020394230372035333030203B202020202020202020202020202020202064657070616D203B2020202020202020202044353333,
  0x5849532052554F4820524F46204C4F424D5953204850415247454C455420434948504152474F4544492020312E3120232020202020394230372036333030203B202020202020202020202020202020202064657070616D203B2020202020202020202045353333,
  0x4E455645532052554F4820524F46204C4F424D5953204850415247454C455420434948504152474F4544492020312E3120232020202020394230372037333030203B202020202020202020202020202020202064657070616D203B2020202020202020202046353333,
  0x54484749452052554F4820524F46204C4F424D5953204850415247454C455420434948504152474F4544492020312E3120232020202020394230372038333030203B202020202020202020202020202020202064657070616D203B2020202020202020202030363333,
  0x454E494E2052554F4820524F46204C4F424D5953204850415247454C455420434948504152474F4544492020312E3120232020202020394230372039333030203B202020202020202020202020202020202064657070616D203B2020202020202020202031363333,
  0x4E45542052554F4820524F46204C4F424D5953204850415247454C455420434948504152474F4544492020312E3123203942303720303330302031333030203B202020202020202020202020202020202064657070616D203B2020202020202020202032363333,
  0x4E4556454C452052554F4820524F46204C4F424D5953204850415247454C455420434948504152474F4544492020312E3123203942303720313330302031333030203B202020202020202020202020202020202064657070616D203B2020202020202020202033363333,
  0x45564C4557542052554F4820524F46204C4F424D5953204850415247454C455420434948504152474F4544492020312E3123203942303720323330302031333030203B202020202020202020202020202020202064657070616D203B2020202020202020202034363333,
  0x4E454554524948542052554F4820524F46204C4F424D5953204850415247454C455420434948504152474F4544492020312E3123203942303720333330302031333030203B202020202020202020202020202020202064657070616D203B2020202020202020202035363333,
  0x4E45455452554F462052554F4820524F46204C4F424D5953204850415247454C455420434948504152474F4544492020312E3123203942303720343330302031333030203B202020202020202020202020202020202064657070616D203B2020202020202020202036363333,
  0x4E4545544649462052554F4820524F46204C4F424D5953204850415247454C455420434948504152474F4544492020312E3123203942303720353330302031333030203B202020202020202020202020202020202064657070616D203B2020202020202020202037363333,
  0x4E4545545849532052554F4820524F46204C4F424D5953204850415247454C455420434948504152474F4544492020312E3123203942303720363330302031333030203B202020202020202020202020202020202064657070616D203B2020202020202020202038363333,
  0x4E4545544E455645532052554F4820524F46204C4F424D5953204850415247454C455420434948504152474F4544492020312E3123203942303720373330302031333030203B202020202020202020202020202020202064657070616D203B2020202020202020202039363333,
  0x4E454554484749452052554F4820524F46204C4F424D5953204850415247454C455420434948504152474F4544492020312E3123203942303720383330302031333030203B202020202020202020202020202020202064657070616D203B2020202020202020202041363333,
  0x4E454554454E494E2052554F4820524F46204C4F424D5953204850415247454C455420434948504152474F4544492020312E3123203942303720393330302031333030203B202020202020202020202020202020202064657070616D203B2020202020202020202042363333,
  0x59544E4557542052554F4820524F46204C4F424D5953204850415247454C455420434948504152474F4544492020312E3123203942303720303330302032333030203B202020202020202020202020202020202064657070616D203B2020202020202020202043363333,
  0x454E4F2D59544E4557542052554F4820524F46204C4F424D5953204850415247454C455420434948504152474F4544492020312E3123203942303720313330302032333030203B202020202020202020202020202020202064657070616D203B2020202020202020202044363333,
  0x4F57542D59544E4557542052554F4820524F46204C4F424D5953204850415247454C455420434948504152474F4544492020312E3123203942303720323330302032333030203B202020202020202020202020202020202064657070616D203B2020202020202020202045363333,
  0x45455248542D59544E4557542052554F4820524F46204C4F424D5953204850415247454C455420434948504152474F4544492020312E3123203942303720333330302032333030203B202020202020202020202020202020202064657070616D203B2020202020202020202046363333,
  0x52554F462D59544E4557542052554F4820524F46204C4F424D5953204850415247454C455420434948504152474F4544492020312E3123203942303720343330302032333030203B202020202020202020202020202020202064657070616D203B2020202020202020202030373333,
  0x415048204552415551532020312E3123203136303020303730302038363030203B202020202020202020202020202020202064657070616D203B2020202020202020202031373333,
  0x4144204552415551532020312E3120232020202020313630302034363030203B202020202020202020202020202020202064657070616D203B2020202020202020202032373333,
  0x5541204552415551532020312E3120232020202020353730302031363030203B202020202020202020202020202020202064657070616D203B2020202020202020202033373333,
  0x524142204552415551532020312E3123203237303020313630302032363030203B202020202020202020202020202020202064657070616D203B2020202020202020202034373333,
  0x564F204552415551532020312E3120232020202020363730302046363030203B202020202020202020202020202020202064657070616D203B2020202020202020202035373333,
  0x4350204552415551532020312E3120232020202020333630302030373030203B202020202020202020202020202020202064657070616D203B2020202020202020202036373333,
  0x4D44204552415551532020302E3420232020202020443630302034363030203B202020202020202020202020202020202064657070616D203B2020202020202020202037373333,
  0x44455241555153204D44204552415551532020302E3423203233303020443630302034363030203B202020202020202020202020202020202064657070616D203B2020202020202020202038373333,
  0x4445425543204D44204552415551532020302E3423203333303020443630302034363030203B202020202020202020202020202020202064657070616D203B2020202020202020202039373333,
  0x5549204552415551532020302E3420232020202020353730302039363030203B202020202020202020202020202020202064657070616D203B2020202020202020202041373333,
  0x49455349454820454D414E20415245204552415551532020312E3120232020202020303132362033374535203B202020202020202020202020202020202064657070616D203B2020202020202020202042373333,
  0x4157554F595320454D414E20415245204552415551532020312E3120232020202020433834352044323636203B202020202020202020202020202020202064657070616D203B2020202020202020202043373333,
  0x554F595349415420454D414E20415245204552415551532020312E3120232020202020333642362037323935203B202020202020202020202020202020202064657070616D203B2020202020202020202044373333,
  0x495A49454D20454D414E20415245204552415551532020312E3120232020202020424243362045303636203B202020202020202020202020202020202064657070616D203B2020202020202020202045373333,
  0x4E4F495441524F50524F432045524155515320312E31232045333937204131463420463046352041323836203B202020202020202020202020202020202064657070616D203B2020202020202020202046373333,
  0x53504D41204150204552415551532020312E3120232020202020313630302030373030203B202020202020202020202020202020202064657070616D203B2020202020202020202030383333,
  0x414E204552415551532020312E3120232020202020313630302045363030203B202020202020202020202020202020202064657070616D203B2020202020202020202031383333,
  0x4120554D204552415551532020312E3120232020202020313630302043423330203B202020202020202020202020202020202064657070616D203B2020202020202020202032383333,
  0x414D204552415551532020312E3120232020202020313630302044363030203B202020202020202020202020202020202064657070616D203B2020202020202020202033383333,
  0x414B204552415551532020312E3120232020202020313630302042363030203B202020202020202020202020202020202064657070616D203B2020202020202020202034383333,
  0x424B204552415551532020312E3120232020202020323630302042363030203B202020202020202020202020202020202064657070616D203B2020202020202020202035383333,
  0x424D204552415551532020312E3120232020202020323630302044363030203B202020202020202020202020202020202064657070616D203B2020202020202020202036383333,
  0x4247204552415551532020312E3120232020202020323630302037363030203B202020202020202020202020202020202064657070616D203B2020202020202020202037383333,
  0x4C4143204552415551532020312E3123204336303020313630302033363030203B202020202020202020202020202020202064657070616D203B2020202020202020202038383333,
  0x4C41434B2045524155515320312E31232043363030203136303020333630302042363030203B202020202020202020202020202020202064657070616D203B2020202020202020202039383333,
  0x4650204552415551532020312E3120232020202020363630302030373030203B202020202020202020202020202020202064657070616D203B2020202020202020202041383333,
  0x464E204552415551532020312E3120232020202020363630302045363030203B202020202020202020202020202020202064657070616D203B2020202020202020202042383333,
  0x4620554D204552415551532020312E3120232020202020363630302043423330203B202020202020202020202020202020202064657070616D203B2020202020202020202043383333,
  0x4720554D204552415551532020312E3120232020202020373630302043423330203B202020202020202020202020202020202064657070616D203B2020202020202020202044383333,
  0x474D204552415551532020312E3120232020202020373630302044363030203B202020202020202020202020202020202064657070616D203B2020202020202020202045383333,
  0x474B204552415551532020312E3120232020202020373630302042363030203B202020202020202020202020202020202064657070616D203B2020202020202020202046383333,
  0x5A48204552415551532020312E3120232020202020413730302038363030203B202020202020202020202020202020202064657070616D203B2020202020202020202030393333,
  0x5A484B204552415551532020312E3123204137303020383630302042363030203B202020202020202020202020202020202064657070616D203B2020202020202020202031393333,
  0x5A484D204552415551532020312E3123204137303020383630302044363030203B202020202020202020202020202020202064657070616D203B2020202020202020202032393333,
  0x5A4847204552415551532020312E3123204137303020383630302037363030203B202020202020202020202020202020202064657070616D203B2020202020202020202033393333,
  0x5A4854204552415551532020312E3123204137303020383630302034373030203B202020202020202020202020202020202064657070616D203B2020202020202020202034393333,
  0x4C20554D204552415551532020312E3120232020202020433630302043423330203B202020202020202020202020202020202064657070616D203B2020202020202020202035393333,
  0x4C4D204552415551532020312E3120232020202020433630302044363030203B202020202020202020202020202020202064657070616D203B2020202020202020202036393333,
  0x4C44204552415551532020312E3120232020202020433630302034363030203B202020202020202020202020202020202064657070616D203B2020202020202020202037393333,
  0x4C4B204552415551532020312E3120232020202020433630302042363030203B202020202020202020202020202020202064657070616D203B2020202020202020202038393333,
  0x4D46204552415551532020312E3120232020202020443630302036363030203B202020202020202020202020202020202064657070616D203B2020202020202020202039393333,
  0x4D4E204552415551532020312E3120232020202020443630302045363030203B202020202020202020202020202020202064657070616D203B2020202020202020202041393333,
  0x4D20554D204552415551532020312E3120232020202020443630302043423330203B202020202020202020202020202020202064657070616D203B2020202020202020202042393333,
  0x4D4D204552415551532020312E3120232020202020443630302044363030203B202020202020202020202020202020202064657070616D203B2020202020202020202043393333,
  0x4D43204552415551532020312E3120232020202020443630302033363030203B202020202020202020202020202020202064657070616D203B2020202020202020202044393333,
  0x4D4B204552415551532020312E3120232020202020443630302042363030203B202020202020202020202020202020202064657070616D203B2020202020202020202045393333,
  0x44455241555153204D4D204552415551532020312E3123203233303020443630302044363030203B202020202020202020202020202020202064657070616D203B2020202020202020202046393333,
  0x44455241555153204D43204552415551532020312E3123203233303020443630302033363030203B202020202020202020202020202020202064657070616D203B2020202020202020202030413333,
  0x44455241555153204D204552415551532020312E3120232020202020323330302044363030203B202020202020202020202020202020202064657070616D203B2020202020202020202031413333,
  0x44455241555153204D4B204552415551532020312E3123203233303020443630302042363030203B202020202020202020202020202020202064657070616D203B2020202020202020202032413333,
  0x4445425543204D4D204552415551532020312E3123203333303020443630302044363030203B202020202020202020202020202020202064657070616D203B2020202020202020202033413333,
  0x4445425543204D43204552415551532020312E3123203333303020443630302033363030203B202020202020202020202020202020202064657070616D203B2020202020202020202034413333,
  0x4445425543204D204552415551532020312E3120232020202020333330302044363030203B202020202020202020202020202020202064657070616D203B2020202020202020202035413333,
  0x4445425543204D4B204552415551532020312E3123203333303020443630302042363030203B202020202020202020202020202020202064657070616D203B2020202020202020202036413333,
  0x53205245564F204D204552415551532020312E3123203337303020353132322044363030203B202020202020202020202020202020202064657070616D203B2020202020202020202037413333,
  0x444552415551532053205245564F204D2045524155515320312E31232032333030203337303020353132322044363030203B202020202020202020202020202020202064657070616D203B2020202020202020202038413333,
  0x4150204552415551532020312E3120232020202020313630302030373030203B202020202020202020202020202020202064657070616D203B2020202020202020202039413333,
  0x41504B204552415551532020312E3123203136303020303730302042363030203B202020202020202020202020202020202064657070616D203B2020202020202020202041413333,
  0x41504D204552415551532020312E3123203136303020303730302044363030203B202020202020202020202020202020202064657070616D203B2020202020202020202042413333,
  0x415047204552415551532020312E3123203136303020303730302037363030203B202020202020202020202020202020202064657070616D203B2020202020202020202043413333,
  0x444152204552415551532020312E3123203436303020313630302032373030203B202020202020202020202020202020202064657070616D203B2020202020202020202044413333,
  0x53205245564F204441522045524155515320312E312320333730302035313232203436303020313630302032373030203B202020202020202020202020202020202064657070616D203B2020202020202020202045413333,
  0x444552415551532053205245564F204441522045524155515320312E3123203233303020333730302035313232203436303020313630302032373030203B202020202020202020202020202020202064657070616D203B2020202020202020202046413333,
  0x5350204552415551532020312E3120232020202020333730302030373030203B202020202020202020202020202020202064657070616D203B2020202020202020202030423333,
  0x534E204552415551532020312E3120232020202020333730302045363030203B202020202020202020202020202020202064657070616D203B2020202020202020202031423333,
  0x5320554D204552415551532020312E3120232020202020333730302043423330203B202020202020202020202020202020202064657070616D203B2020202020202020202032423333,
  0x534D204552415551532020312E3120232020202020333730302044363030203B202020202020202020202020202020202064657070616D203B2020202020202020202033423333,
  0x5650204552415551532020312E3120232020202020363730302030373030203B202020202020202020202020202020202064657070616D203B2020202020202020202034423333,
  0x564E204552415551532020312E3120232020202020363730302045363030203B202020202020202020202020202020202064657070616D203B2020202020202020202035423333,
  0x5620554D204552415551532020312E3120232020202020363730302043423330203B202020202020202020202020202020202064657070616D203B2020202020202020202036423333,
  0x564D204552415551532020312E3120232020202020363730302044363030203B202020202020202020202020202020202064657070616D203B2020202020202020202037423333,
  0x564B204552415551532020312E3120232020202020363730302042363030203B202020202020202020202020202020202064657070616D203B2020202020202020202038423333,
  0x4147454D20564D204552415551532020312E3120232020202020363730302044363030203B202020202020202020202020202020202064657070616D203B2020202020202020202039423333,
  0x5750204552415551532020312E3120232020202020373730302030373030203B202020202020202020202020202020202064657070616D203B2020202020202020202041423333,
  0x574E204552415551532020312E3120232020202020373730302045363030203B202020202020202020202020202020202064657070616D203B2020202020202020202042423333,
  0x5720554D204552415551532020312E3120232020202020373730302043423330203B202020202020202020202020202020202064657070616D203B2020202020202020202043423333,
  0x574D204552415551532020312E3120232020202020373730302044363030203B202020202020202020202020202020202064657070616D203B2020202020202020202044423333,
  0x574B204552415551532020312E3120232020202020373730302042363030203B202020202020202020202020202020202064657070616D203B2020202020202020202045423333,
  0x4147454D20574D204552415551532020312E3120232020202020373730302044363030203B202020202020202020202020202020202064657070616D203B2020202020202020202046423333,
  0x4D484F204B204552415551532020312E3120232020202020394333302042363030203B202020202020202020202020202020202064657070616D203B2020202020202020202030433333,
  0x4D484F204D204552415551532020312E3120232020202020394333302044363030203B202020202020202020202020202020202064657070616D203B2020202020202020202031433333,
  0x4D41204552415551532020312E31202320202020202020202020202020202020202020202020202020202020206465776F6C6C61736964203B2020202020202020202032433333,
  0x5142204552415551532020312E3120232020202020313730302032363030203B202020202020202020202020202020202064657070616D203B2020202020202020202033433333,
  0x4343204552415551532020312E3120232020202020333630302033363030203B202020202020202020202020202020202064657070616D203B2020202020202020202034433333,
  0x4443204552415551532020312E3120232020202020343630302033363030203B202020202020202020202020202020202064657070616D203B2020202020202020202035433333,
  0x474B205245564F20432045524155515320312E31232037363030204236303020353132322033363030203B202020202020202020202020202020202064657070616D203B2020202020202020202036433333,
  0x4F43204552415551532020312E31202320202020202020202020202020202020202020202020202020202020206465776F6C6C61736964203B2020202020202020202037433333,
  0x4244204552415551532020312E3120232020202020323630302034363030203B202020202020202020202020202020202064657070616D203B2020202020202020202038433333,
  0x5947204552415551532020312E3120232020202020393730302037363030203B202020202020202020202020202020202064657070616D203B2020202020202020202039433333,
  0x4148204552415551532020312E3120232020202020313630302038363030203B202020202020202020202020202020202064657070616D203B2020202020202020202041433333,
  0x5048204552415551532020312E3120232020202020303730302038363030203B202020202020202020202020202020202064657070616D203B2020202020202020202042433333,
  0x4E49204552415551532020312E3120232020202020453630302039363030203B202020202020202020202020202020202064657070616D203B2020202020202020202043433333,
  0x4B4B204552415551532020312E3120232020202020423630302042363030203B202020202020202020202020202020202064657070616D203B2020202020202020202044433333,
  0x4C415449504143204D4B204552415551532020312E3120232020202020443630302042363030203B202020202020202020202020202020202064657070616D203B2020202020202020202045433333,
  0x544B204552415551532020312E3120232020202020343730302042363030203B202020202020202020202020202020202064657070616D203B2020202020202020202046433333,
  0x4D4C204552415551532020312E3120232020202020443630302043363030203B202020202020202020202020202020202064657070616D203B2020202020202020202030443333,
  0x4E4C204552415551532020312E3120232020202020453630302043363030203B202020202020202020202020202020202064657070616D203B2020202020202020202031443333,
  0x474F4C204552415551532020312E3123203736303020463630302043363030203B202020202020202020202020202020202064657070616D203B2020202020202020202032443333,
  0x584C204552415551532020312E3120232020202020383730302043363030203B202020202020202020202020202020202064657070616D203B2020202020202020202033443333,
  0x4C4C414D5320424D204552415551532020312E3120232020202020323630302044363030203B202020202020202020202020202020202064657070616D203B2020202020202020202034443333,
  0x4C494D204552415551532020312E3123204336303020393630302044363030203B202020202020202020202020202020202064657070616D203B2020202020202020202035443333,
  0x4C4F4D204552415551532020312E3123204336303020463630302044363030203B202020202020202020202020202020202064657070616D203B2020202020202020202036443333,
  0x4850204552415551532020312E3120232020202020383630302030373030203B202020202020202020202020202020202064657070616D203B2020202020202020202037443333,
  0x4D50204552415551532020312E31202320202020202020202020202020202020202020202020202020202020206465776F6C6C61736964203B2020202020202020202038443333,
  0x4D5050204552415551532020312E3123204436303020303730302030373030203B202020202020202020202020202020202064657070616D203B2020202020202020202039443333,
  0x5250204552415551532020312E3120232020202020323730302030373030203B202020202020202020202020202020202064657070616D203B2020202020202020202041443333,
  0x5253204552415551532020312E3120232020202020323730302033373030203B202020202020202020202020202020202064657070616D203B2020202020202020202042443333,
  0x5653204552415551532020312E3120232020202020363730302033373030203B202020202020202020202020202020202064657070616D203B2020202020202020202043443333,
  0x4257204552415551532020312E3120232020202020323630302037373030203B202020202020202020202020202020202064657070616D203B2020202020202020202044443333,
  0x4D205245564F2056204552415551532020302E3423204436303020353132322036373030203B202020202020202020202020202020202064657070616D203B2020202020202020202045443333,
  0x4D205245564F2041204552415551532020302E3423204436303020353132322031363030203B202020202020202020202020202020202064657070616D203B2020202020202020202046443333,
  0x454E4F2059414420524F46204C4F424D5953204850415247454C455420434948504152474F4544492020312E3120232020202020354535362031333030203B202020202020202020202020202020202064657070616D203B2020202020202020202030453333,
  0x4F57542059414420524F46204C4F424D5953204850415247454C455420434948504152474F4544492020312E3120232020202020354535362032333030203B202020202020202020202020202020202064657070616D203B2020202020202020202031453333,
  0x45455248542059414420524F46204C4F424D5953204850415247454C455420434948504152474F4544492020312E3120232020202020354535362033333030203B202020202020202020202020202020202064657070616D203B2020202020202020202032453333,
  0x52554F462059414420524F46204C4F424D5953204850415247454C455420434948504152474F4544492020312E3120232020202020354535362034333030203B202020202020202020202020202020202064657070616D203B2020202020202020202033453333,
  0x455649462059414420524F46204C4F424D5953204850415247454C455420434948504152474F4544492020312E3120232020202020354535362035333030203B202020202020202020202020202020202064657070616D203B2020202020202020202034453333,
  0x5849532059414420524F46204C4F424D5953204850415247454C455420434948504152474F4544492020312E3120232020202020354535362036333030203B202020202020202020202020202020202064657070616D203B2020202020202020202035453333,
  0x4E455645532059414420524F46204C4F424D5953204850415247454C455420434948504152474F4544492020312E3120232020202020354535362037333030203B202020202020202020202020202020202064657070616D203B2020202020202020202036453333,
  0x54484749452059414420524F46204C4F424D5953204850415247454C455420434948504152474F4544492020312E3120232020202020354535362038333030203B202020202020202020202020202020202064657070616D203B2020202020202020202037453333,
  0x454E494E2059414420524F46204C4F424D5953204850415247454C455420434948504152474F4544492020312E3120232020202020354535362039333030203B202020202020202020202020202020202064657070616D203B2020202020202020202038453333,
  0x4E45542059414420524F46204C4F424D5953204850415247454C455420434948504152474F4544492020312E3123203545353620303330302031333030203B202020202020202020202020202020202064657070616D203B2020202020202020202039453333,
  0x4E4556454C452059414420524F46204C4F424D5953204850415247454C455420434948504152474F4544492020312E3123203545353620313330302031333030203B202020202020202020202020202020202064657070616D203B2020202020202020202041453333,
  0x45564C4557542059414420524F46204C4F424D5953204850415247454C455420434948504152474F4544492020312E3123203545353620323330302031333030203B202020202020202020202020202020202064657070616D203B2020202020202020202042453333,
  0x4E454554524948542059414420524F46204C4F424D5953204850415247454C455420434948504152474F4544492020312E3123203545353620333330302031333030203B202020202020202020202020202020202064657070616D203B2020202020202020202043453333,
  0x4E45455452554F462059414420524F46204C4F424D5953204850415247454C455420434948504152474F4544492020312E3123203545353620343330302031333030203B202020202020202020202020202020202064657070616D203B2020202020202020202044453333,
  0x4E4545544649462059414420524F46204C4F424D5953204850415247454C455420434948504152474F4544492020312E3123203545353620353330302031333030203B202020202020202020202020202020202064657070616D203B2020202020202020202045453333,
  0x4E4545545849532059414420524F46204C4F424D5953204850415247454C455420434948504152474F4544492020312E3123203545353620363330302031333030203B202020202020202020202020202020202064657070616D203B2020202020202020202046453333,
  0x4E4545544E455645532059414420524F46204C4F424D5953204850415247454C455420434948504152474F4544492020312E3123203545353620373330302031333030203B202020202020202020202020202020202064657070616D203B2020202020202020202030463333,
  0x4E454554484749452059414420524F46204C4F424D5953204850415247454C455420434948504152474F4544492020312E3123203545353620383330302031333030203B202020202020202020202020202020202064657070616D203B2020202020202020202031463333,
  0x4E454554454E494E2059414420524F46204C4F424D5953204850415247454C455420434948504152474F4544492020312E3123203545353620393330302031333030203B202020202020202020202020202020202064657070616D203B2020202020202020202032463333,
  0x59544E4557542059414420524F46204C4F424D5953204850415247454C455420434948504152474F4544492020312E3123203545353620303330302032333030203B202020202020202020202020202020202064657070616D203B2020202020202020202033463333,
  0x454E4F2D59544E4557542059414420524F46204C4F424D5953204850415247454C455420434948504152474F4544492020312E3123203545353620313330302032333030203B202020202020202020202020202020202064657070616D203B2020202020202020202034463333,
  0x4F57542D59544E4557542059414420524F46204C4F424D5953204850415247454C455420434948504152474F4544492020312E3123203545353620323330302032333030203B202020202020202020202020202020202064657070616D203B2020202020202020202035463333,
  0x45455248542D59544E4557542059414420524F46204C4F424D5953204850415247454C455420434948504152474F4544492020312E3123203545353620333330302032333030203B202020202020202020202020202020202064657070616D203B2020202020202020202036463333,
  0x52554F462D59544E4557542059414420524F46204C4F424D5953204850415247454C455420434948504152474F4544492020312E3123203545353620343330302032333030203B202020202020202020202020202020202064657070616D203B2020202020202020202037463333,
  0x455649462D59544E4557542059414420524F46204C4F424D5953204850415247454C455420434948504152474F4544492020312E3123203545353620353330302032333030203B202020202020202020202020202020202064657070616D203B2020202020202020202038463333,
  0x5849532D59544E4557542059414420524F46204C4F424D5953204850415247454C455420434948504152474F4544492020312E3123203545353620363330302032333030203B202020202020202020202020202020202064657070616D203B2020202020202020202039463333,
  0x4E455645532D59544E4557542059414420524F46204C4F424D5953204850415247454C455420434948504152474F4544492020312E3123203545353620373330302032333030203B202020202020202020202020202020202064657070616D203B2020202020202020202041463333,
  0x54484749452D59544E4557542059414420524F46204C4F424D5953204850415247454C455420434948504152474F4544492020312E3123203545353620383330302032333030203B202020202020202020202020202020202064657070616D203B2020202020202020202042463333,
  0x454E494E2D59544E4557542059414420524F46204C4F424D5953204850415247454C455420434948504152474F4544492020312E3123203545353620393330302032333030203B202020202020202020202020202020202064657070616D203B2020202020202020202043463333,
  0x5954524948542059414420524F46204C4F424D5953204850415247454C455420434948504152474F4544492020312E3123203545353620303330302033333030203B202020202020202020202020202020202064657070616D203B2020202020202020202044463333,
  0x454E4F2D5954524948542059414420524F46204C4F424D5953204850415247454C455420434948504152474F4544492020312E3123203545353620313330302033333030203B202020202020202020202020202020202064657070616D203B2020202020202020202045463333,
  0x4C4147204552415551532020302E3423204336303020313630302037363030203B202020202020202020202020202020202064657070616D203B2020202020202020202046463333,
  0x354244342D48504152474F4544492044454946494E55204B4A432E2E303034332D48504152474F4544492044454946494E55204B4A432020302E3320232020202020202020202020202020202020202020202020202020202020202020202064696C6176203B20202020354244342E2E30303433,
  0x464244342D48504152474F4544492044454946494E55204B4A432E2E364244342D48504152474F4544492044454946494E55204B4A4320302E333120232020202020202020202020202020202020202020202020202020202020202020202064696C6176203B20202020464244342E2E36424434,
  0x4E4F4954454C504D4F432045524F46454220524F46204D415247415845482E2E4E45564145482045564954414552432045485420524F46204D415247415845482020302E3420232020202038564E203B2020202020203B20202020202020202020202020202020202064696C6176203B20202020464644342E2E30434434,
  0x354146392D48504152474F4544492044454946494E55204B4A432E2E303045342D48504152474F4544492044454946494E55204B4A432020312E3120232020202020202020202020202020202020202020202020202020202020202020202064696C6176203B20202020354146392E2E30304534,
  0x424246392D48504152474F4544492044454946494E55204B4A432E2E364146392D48504152474F4544492044454946494E55204B4A432020312E3420232020202020202020202020202020202020202020202020202020202020202020202064696C6176203B20202020424246392E2E36414639,
  0x334346392D48504152474F4544492044454946494E55204B4A432E2E434246392D48504152474F4544492044454946494E55204B4A432020312E3520232020202020202020202020202020202020202020202020202020202020202020202064696C6176203B20202020334346392E2E43424639,
  0x424346392D48504152474F4544492044454946494E55204B4A432E2E344346392D48504152474F4544492044454946494E55204B4A432020322E3520232020202020202020202020202020202020202020202020202020202020202020202064696C6176203B20202020424346392E2E34434639,
  0x434346392D48504152474F4544492044454946494E55204B4A432020312E3620232020202020202020202020202020202020202020202020202020202020202020202064696C6176203B2020202020202020202043434639,
  0x354446392D48504152474F4544492044454946494E55204B4A432E2E444346392D48504152474F4544492044454946494E55204B4A432020302E3820232020202020202020202020202020202020202020202020202020202020202020202064696C6176203B20202020354446392E2E44434639,
  0x414546392D48504152474F4544492044454946494E55204B4A432E2E364446392D48504152474F4544492044454946494E55204B4A4320302E303120232020202020202020202020202020202020202020202020202020202020202020202064696C6176203B20202020414546392E2E36444639,
  0x464546392D48504152474F4544492044454946494E55204B4A432E2E424546392D48504152474F4544492044454946494E55204B4A4320302E313120232020202020202020202020202020202020202020202020202020202020202020202064696C6176203B20202020464546392E2E42454639,
  0x434646392D48504152474F4544492044454946494E55204B4A432E2E304646392D48504152474F4544492044454946494E55204B4A4320302E333120232020202020202020202020202020202020202020202020202020202020202020202064696C6176203B20202020434646392E2E30464639,
  0x3E464646392D64657672657365723C2E2E3E444646392D64657672657365723C202020414E202320202020202020202020202020202020202020202020202020202020206465776F6C6C61736964203B20202020464646392E2E44464639,
  0x52595920454C42414C4C59532049592E2E544920454C42414C4C59532049592020302E3320232020202020202020202020202020202020202020202020202020202020202020202064696C6176203B20202020433834412E2E30303041,
  0x3E463834412D64657672657365723C2E2E3E443834412D64657672657365723C202020414E202320202020202020202020202020202020202020202020202020202020206465776F6C6C61736964203B20202020463834412E2E44383441,
  0x4147204C4143494441522049592E2E544F51204C4143494441522049592020302E3320232020202038564E203B2020202020203B20202020202020202020202020202020202064696C6176203B20202020314134412E2E30393441,
  0x545943204C4143494441522049592E2E50555A204C4143494441522049592020322E3320232020202038564E203B2020202020203B20202020202020202020202020202020202064696C6176203B20202020334134412E2E32413441,
  0x4F4A204C4143494441522049592E2E52554444204C4143494441522049592020302E3320232020202038564E203B2020202020203B20202020202020202020202020202020202064696C6176203B20202020334234412E2E34413441,
  0x50555A4E204C4143494441522049592020322E3320232020202038564E203B2020202020203B20202020202020202020202020202020202064696C6176203B2020202020202020202034423441,
  0x54414853204C4143494441522049592E2E594A4A204C4143494441522049592020302E3320232020202038564E203B2020202020203B20202020202020202020202020202020202064696C6176203B20202020304334412E2E35423441,
  0x52555A204C4143494441522049592020322E3320232020202038564E203B2020202020203B20202020202020202020202020202020202064696C6176203B2020202020202020202031433441,
  0x5445495A5A204C4143494441522049592E2E504F4853204C4143494441522049592020302E3320232020202038564E203B2020202020203B20202020202020202020202020202020202064696C6176203B20202020344334412E2E32433441,
  0x4549424E204C4143494441522049592020322E3320232020202038564E203B2020202020203B20202020202020202020202020202020202064696C6176203B2020202020202020202035433441,
  0x454B204C4143494441522049592020302E3320232020202038564E203B2020202020203B20202020202020202020202020202020202064696C6176203B2020202020202020202036433441,
  0x3E464334412D64657672657365723C2E2E3E374334412D64657672657365723C202020414E202320202020202020202020202020202020202020202020202020202020206465776F6C6C61736964203B20202020464334412E2E37433441,
  0x55454A2041594D20454E4F542052455454454C205553494C2E2E41422052455454454C205553494C2020322E3520232020202020202020202020202020202020202020202020202020202020202020202064696C6176203B20202020444634412E2E30443441,
  0x504F5453204C4C5546204E4F4954415554434E5550205553494C2E2E414D4D4F43204E4F4954415554434E5550205553494C2020322E3520232020202038564E203B2020202020203B20202020202020202020202020202020202064696C6176203B20202020464634412E2E45463441,
  0x52454E454854474E454C20454C42414C4C5953204941562E2E454520454C42414C4C5953204941562020312E3520232020202020202020202020202020202020202020202020202020202020202020202064696C6176203B20202020433036412E2E30303541,
  0x4B52414D204E4F495453455551204941562E2E414D4D4F43204941562020312E3520232020202038564E203B2020202020203B20202020202020202020202020202020202064696C6176203B20202020463036412E2E44303641,
  0x4F4420454C4F444E20454C42414C4C5953204941562E2E414620454C4F444E20454C42414C4C5953204941562020312E3520232020202020202020202020202020202020202020202020202020202020202020202064696C6176203B20202020423236412E2E30313641,
  0x3E463336412D64657672657365723C2E2E3E433236412D64657672657365723C202020414E202320202020202020202020202020202020202020202020202020202020206465776F6C6C61736964203B20202020463336412E2E43323641,
  0x41594C4D455A2052455454454C204C4154495041432043494C4C495259432020312E3520232020202020202020202031343641203B202020202020202020202020202020202064657070616D203B2020202020202020202030343641,
  0x41594C4D455A2052455454454C204C4C414D532043494C4C495259432020312E3520232020202020202020202020202020202020202020202020202020202020202020202064696C6176203B2020202020202020202031343641,
  0x4F4C455A442052455454454C204C4154495041432043494C4C495259432020312E3520232020202020202020202033343641203B202020202020202020202020202020202064657070616D203B2020202020202020202032343641,
  0x4F4C455A442052455454454C204C4C414D532043494C4C495259432020312E3520232020202020202020202020202020202020202020202020202020202020202020202064696C6176203B2020202020202020202033343641,
  0x455A442044455352455645522052455454454C204C4154495041432043494C4C495259432020312E3520232020202020202020202035343641203B202020202020202020202020202020202064657070616D203B2020202020202020202034343641,
  0x455A442044455352455645522052455454454C204C4C414D532043494C4C495259432020312E3520232020202020202020202020202020202020202020202020202020202020202020202064696C6176203B2020202020202020202035343641,
  0x41544F492052455454454C204C4154495041432043494C4C495259432020312E3520232020202020202020202037343641203B202020202020202020202020202020202064657070616D203B2020202020202020202036343641,
  0x41544F492052455454454C204C4C414D532043494C4C495259432020312E3520232020202020202020202020202020202020202020202020202020202020202020202064696C6176203B2020202020202020202037343641,
  0x5652454A442052455454454C204C4154495041432043494C4C495259432020312E3520232020202020202020202039343641203B202020202020202020202020202020202064657070616D203B2020202020202020202038343641,
  0x5652454A442052455454454C204C4C414D532043494C4C495259432020312E3520232020202020202020202020202020202020202020202020202020202020202020202064696C6176203B2020202020202020202039343641,
  0x4B552048504152474F4E4F4D2052455454454C204C4154495041432043494C4C495259432020312E3520232020202020202020202042343641203B202020202020202020202020202020202064657070616D203B2020202020202020202041343641,
  0x4B552048504152474F4E4F4D2052455454454C204C4C414D532043494C4C495259432020312E3520232020202020202020202020202020202020202020202020202020202020202020202064696C6176203B2020202020202020202042343641,
  0x4147454D4F2044414F52422052455454454C204C4154495041432043494C4C495259432020312E3520232020202020202020202044343641203B202020202020202020202020202020202064657070616D203B2020202020202020202043343641,
  0x4147454D4F2044414F52422052455454454C204C4C414D532043494C4C495259432020312E3520232020202020202020202020202020202020202020202020202020202020202020202064696C6176203B2020202020202020202044343641,
  0x524559204C41525455454E2052455454454C204C4154495041432043494C4C495259432020312E3520232020202020202020202046343641203B202020202020202020202020202020202064657070616D203B2020202020202020202045343641,
  0x524559204C41525455454E2052455454454C204C4C414D532043494C4C495259432020312E3520232020202020202020202020202020202020202020202020202020202020202020202064696C6176203B2020202020202020202046343641,
  0x524559204B434142204854495720555245592052455454454C204C4154495041432043494C4C495259432020312E3520232020202020202020202031353641203B202020202020202020202020202020202064657070616D203B2020202020202020202030353641,
  0x524559204B434142204854495720555245592052455454454C204C4C414D532043494C4C495259432020312E3520232020202020202020202020202020202020202020202020202020202020202020202064696C6176203B2020202020202020202031353641,
  0x544159204445494649544F492052455454454C204C4154495041432043494C4C495259432020312E3520232020202020202020202033353641203B202020202020202020202020202020202064657070616D203B2020202020202020202032353641,
  0x544159204445494649544F492052455454454C204C4C414D532043494C4C495259432020312E3520232020202020202020202020202020202020202020202020202020202020202020202064696C6176203B2020202020202020202033353641,
  0x55592044455352455645522052455454454C204C4154495041432043494C4C495259432020312E3520232020202020202020202035353641203B202020202020202020202020202020202064657070616D203B2020202020202020202034353641,
  0x55592044455352455645522052455454454C204C4C414D532043494C4C495259432020312E3520232020202020202020202020202020202020202020202020202020202020202020202064696C6176203B2020202020202020202035353641,
  0x41204445494649544F492052455454454C204C4154495041432043494C4C495259432020312E3520232020202020202020202037353641203B202020202020202020202020202020202064657070616D203B2020202020202020202036353641,
  0x41204445494649544F492052455454454C204C4C414D532043494C4C495259432020312E3520232020202020202020202020202020202020202020202020202020202020202020202064696C6176203B2020202020202020202037353641,
  0x53555920454C5454494C204445534F4C432052455454454C204C4154495041432043494C4C495259432020312E3520232020202020202020202039353641203B202020202020202020202020202020202064657070616D203B2020202020202020202038353641,
  0x53555920454C5454494C204445534F4C432052455454454C204C4C414D532043494C4C495259432020312E3520232020202020202020202020202020202020202020202020202020202020202020202064696C6176203B2020202020202020202039353641,
  0x535559204445444E454C422052455454454C204C4154495041432043494C4C495259432020312E3520232020202020202020202042353641203B202020202020202020202020202020202064657070616D203B2020202020202020202041353641,
  0x535559204445444E454C422052455454454C204C4C414D532043494C4C495259432020312E3520232020202020202020202020202020202020202020202020202020202020202020202064696C6176203B2020202020202020202042353641,
  0x53555920454C5454494C204445534F4C43204445494649544F492052455454454C204C4154495041432043494C4C495259432020312E3520232020202020202020202044353641203B202020202020202020202020202020202064657070616D203B2020202020202020202043353641,
  0x53555920454C5454494C204445534F4C43204445494649544F492052455454454C204C4C414D532043494C4C495259432020312E3520232020202020202020202020202020202020202020202020202020202020202020202064696C6176203B2020202020202020202044353641,
  0x4E592052455454454C204C4154495041432043494C4C495259432020312E3520232020202020202020202046353641203B202020202020202020202020202020202064657070616D203B2020202020202020202045353641,
  0x4E592052455454454C204C4C414D532043494C4C495259432020312E3520232020202020202020202020202020202020202020202020202020202020202020202064696C6176203B2020202020202020202046353641,
  0x4553542044455352455645522052455454454C204C4154495041432043494C4C495259432020302E3620232020202020202020202031363641203B202020202020202020202020202020202064657070616D203B2020202020202020202030363641,
  0x4553542044455352455645522052455454454C204C4C414D532043494C4C495259432020302E3620232020202020202020202020202020202020202020202020202020202020202020202064696C6176203B2020202020202020202031363641,
  0x45442054464F532052455454454C204C4154495041432043494C4C495259432020312E3520232020202020202020202033363641203B202020202020202020202020202020202064657070616D203B2020202020202020202032363641,
  0x45442054464F532052455454454C204C4C414D532043494C4C495259432020312E3520232020202020202020202020202020202020202020202020202020202020202020202064696C6176203B2020202020202020202033363641,
  0x4C452054464F532052455454454C204C4154495041432043494C4C495259432020312E3520232020202020202020202035363641203B202020202020202020202020202020202064657070616D203B2020202020202020202034363641,
  0x4C452054464F532052455454454C204C4C414D532043494C4C495259432020312E3520232020202020202020202020202020202020202020202020202020202020202020202064696C6176203B2020202020202020202035363641,
  0x4D452054464F532052455454454C204C4154495041432043494C4C495259432020312E3520232020202020202020202037363641203B202020202020202020202020202020202064657070616D203B2020202020202020202036363641,
  0x4D452054464F532052455454454C204C4C414D532043494C4C495259432020312E3520232020202020202020202020202020202020202020202020202020202020202020202064696C6176203B2020202020202020202037363641,
  0x4F2052414C55434F4E4F4D2052455454454C204C4154495041432043494C4C495259432020312E3520232020202020202020202039363641203B202020202020202020202020202020202064657070616D203B2020202020202020202038363641,
  0x4F2052414C55434F4E4F4D2052455454454C204C4C414D532043494C4C495259432020312E3520232020202020202020202020202020202020202020202020202020202020202020202064696C6176203B2020202020202020202039363641,
  0x4F2052414C55434F4E49422052455454454C204C4154495041432043494C4C495259432020312E3520232020202020202020202042363641203B202020202020202020202020202020202064657070616D203B2020202020202020202041363641,
  0x4F2052414C55434F4E49422052455454454C204C4C414D532043494C4C495259432020312E3520232020202020202020202020202020202020202020202020202020202020202020202064696C6176203B2020202020202020202042363641,
  0x4F2052414C55434F4E4F4D20454C42554F442052455454454C204C4154495041432043494C4C495259432020312E3520232020202020202020202044363641203B202020202020202020202020202020202064657070616D203B2020202020202020202043363641,
  0x54454D5A562043494C4C4952594320474E494E49424D4F432E2E4F2052414C55434F4E4F4D20454C42554F442052455454454C204C4C414D532043494C4C495259432020312E3520232020202020202020202020202020202020202020202020202020202020202020202064696C6176203B20202020463636412E2E44363641,
  0x4B534952455453412043494E4F56414C532E2E4E47495320534E4F494C4C494D204E45542043494C4C4952594320474E494E49424D4F432020312E3520232020202038564E203B2020202020203B20202020202020202020202020202020202064696C6176203B20202020333736412E2E30373641,
  0x4147454D4F2052455454454C2043494C4C4952594320474E494E49424D4F432E2E4549204E41494E4941524B552052455454454C2043494C4C4952594320474E494E49424D4F432020312E3620232020202020202020202020202020202020202020202020202020202020202020202064696C6176203B20202020423736412E2E34373641,
  0x4B4F52455941502043494C4C4952594320474E494E49424D4F432E2E414B5956414B2043494C4C4952594320474E494E49424D4F432020312E3520232020202020202020202020202020202020202020202020202020202020202020202064696C6176203B20202020443736412E2E43373641,
  0x414B5956414B2043494C4C495259432020312E3520232020202038564E203B2020202020203B20202020202020202020202020202020202064696C6176203B2020202020202020202045373641,
  0x4B4F52455941502043494C4C495259432020312E3520232020202020202020202020202020202020202020202020202020202020202020202064696C6176203B2020202020202020202046373641,
  0x4557442052455454454C204C4154495041432043494C4C495259432020312E3520232020202020202020202031383641203B202020202020202020202020202020202064657070616D203B2020202020202020202030383641,
  0x4557442052455454454C204C4C414D532043494C4C495259432020312E3520232020202020202020202020202020202020202020202020202020202020202020202064696C6176203B2020202020202020202031383641,
  0x45575A442052455454454C204C4154495041432043494C4C495259432020312E3520232020202020202020202033383641203B202020202020202020202020202020202064657070616D203B2020202020202020202032383641,
  0x45575A442052455454454C204C4C414D532043494C4C495259432020312E3520232020202020202020202020202020202020202020202020202020202020202020202064696C6176203B2020202020202020202033383641]

def mapText16 : List Nat := [
  0x4557485A2052455454454C204C4154495041432043494C4C495259432020312E3520232020202020202020202035383641203B202020202020202020202020202020202064657070616D203B2020202020202020202034383641,
  0x4557485A2052455454454C204C4C414D532043494C4C495259432020312E3520232020202020202020202020202020202020202020202020202020202020202020202064696C6176203B2020202020202020202035383641,
  0x454843432052455454454C204C4154495041432043494C4C495259432020312E3520232020202020202020202037383641203B202020202020202020202020202020202064657070616D203B2020202020202020202036383641,
  0x454843432052455454454C204C4C414D532043494C4C495259432020312E3520232020202020202020202020202020202020202020202020202020202020202020202064696C6176203B2020202020202020202037383641,
  0x455A5A442052455454454C204C4154495041432043494C4C495259432020312E3520232020202020202020202039383641203B202020202020202020202020202020202064657070616D203B2020202020202020202038383641,
  0x455A5A442052455454454C204C4C414D532043494C4C495259432020312E3520232020202020202020202020202020202020202020202020202020202020202020202064696C6176203B2020202020202020202039383641,
  0x4B4F4F4820454C4444494D20485449572045542052455454454C204C4154495041432043494C4C495259432020312E3520232020202020202020202042383641203B202020202020202020202020202020202064657070616D203B2020202020202020202041383641,
  0x4B4F4F4820454C4444494D20485449572045542052455454454C204C4C414D532043494C4C495259432020312E3520232020202020202020202020202020202020202020202020202020202020202020202064696C6176203B2020202020202020202042383641,
  0x4557542052455454454C204C4154495041432043494C4C495259432020312E3520232020202020202020202044383641203B202020202020202020202020202020202064657070616D203B2020202020202020202043383641,
  0x4557542052455454454C204C4C414D532043494C4C495259432020312E3520232020202020202020202020202020202020202020202020202020202020202020202064696C6176203B2020202020202020202044383641,
  0x455753542052455454454C204C4154495041432043494C4C495259432020312E3520232020202020202020202046383641203B202020202020202020202020202020202064657070616D203B2020202020202020202045383641,
  0x455753542052455454454C204C4C414D532043494C4C495259432020312E3520232020202020202020202020202020202020202020202020202020202020202020202064696C6176203B2020202020202020202046383641,
  0x455353542052455454454C204C4154495041432043494C4C495259432020312E3520232020202020202020202031393641203B202020202020202020202020202020202064657070616D203B2020202020202020202030393641,
  0x455353542052455454454C204C4C414D532043494C4C495259432020312E3520232020202020202020202020202020202020202020202020202020202020202020202064696C6176203B2020202020202020202031393641,
  0x454843542052455454454C204C4154495041432043494C4C495259432020312E3520232020202020202020202033393641203B202020202020202020202020202020202064657070616D203B2020202020202020202032393641,
  0x454843542052455454454C204C4C414D532043494C4C495259432020312E3520232020202020202020202020202020202020202020202020202020202020202020202064696C6176203B2020202020202020202033393641,
  0x4557482052455454454C204C4154495041432043494C4C495259432020312E3520232020202020202020202035393641203B202020202020202020202020202020202064657070616D203B2020202020202020202034393641,
  0x4557482052455454454C204C4C414D532043494C4C495259432020312E3520232020202020202020202020202020202020202020202020202020202020202020202064696C6176203B2020202020202020202035393641,
  0x455748532052455454454C204C4154495041432043494C4C495259432020312E3520232020202020202020202037393641203B202020202020202020202020202020202064657070616D203B2020202020202020202036393641,
  0x455748532052455454454C204C4C414D532043494C4C495259432020312E3520232020202020202020202020202020202020202020202020202020202020202020202064696C6176203B2020202020202020202037393641,
  0x4F20454C42554F442052455454454C204C4154495041432043494C4C495259432020302E3720232020202020202020202039393641203B202020202020202020202020202020202064657070616D203B2020202020202020202038393641,
  0x4F20454C42554F442052455454454C204C4C414D532043494C4C495259432020302E3720232020202020202020202020202020202020202020202020202020202020202020202064696C6176203B2020202020202020202039393641,
  0x4F20444553534F52432052455454454C204C4154495041432043494C4C495259432020302E3720232020202020202020202042393641203B202020202020202020202020202020202064657070616D203B2020202020202020202041393641,
  0x4F20444553534F52432052455454454C204C4C414D532043494C4C495259432020302E3720232020202020202020202020202020202020202020202020202020202020202020202064696C6176203B2020202020202020202042393641,
  0x4E47495320445241482043494C4C495259432052455454454C205245494649444F4D2020302E3720232020202020202020202041343430203B202020202020202020202020202020202064657070616D203B2020202020202020202043393641,
  0x4E4749532054464F532043494C4C495259432052455454454C205245494649444F4D2020302E3720232020202020202020202043343430203B202020202020202020202020202020202064657070616D203B2020202020202020202044393641,
  0x46452052455454454C2043494C4C4952594320474E494E49424D4F432020302E3820232020202020202020202020202020202020202020202020202020202020202020202064696C6176203B2020202020202020202045393641,
  0x45204445494649544F492052455454454C2043494C4C4952594320474E494E49424D4F432020312E3620232020202020202020202020202020202020202020202020202020202020202020202064696C6176203B2020202020202020202046393641,
  0x494B2052455454454C204D554D41422E2E412052455454454C204D554D41422020322E3520232020202020202020202020202020202020202020202020202020202020202020202064696C6176203B20202020354536412E2E30413641,
  0x4D4F48474F4B2052455454454C204D554D41422E2E4F4D2052455454454C204D554D41422020322E3520232020202038564E203B2020202020203B20202020202020202020202020202020202064696C6176203B20202020464536412E2E36453641,
  0x5349544E45574B5554204B52414D20474E494E49424D4F43204D554D41422E2E4E4F444E514F4B204B52414D20474E494E49424D4F43204D554D41422020322E3520232020202020202020202020202020202020202020202020202020202020202020202064696C6176203B20202020314636412E2E30463641,
  0x4B52414D204E4F495453455551204D554D41422E2E494C4D45414A4E204D554D41422020322E3520232020202038564E203B2020202020203B20202020202020202020202020202020202064696C6176203B20202020374636412E2E32463641,
  0x3E464636412D64657672657365723C2E2E3E384636412D64657672657365723C202020414E202320202020202020202020202020202020202020202020202020202020206465776F6C6C61736964203B20202020464636412E2E38463641,
  0x52414220454E4F54204D4554532D5446454C20574F4C2D41525458452052455454454C205245494649444F4D2E2E474E4950204E495920454E4F54204553454E4948432052455454454C205245494649444F4D2020312E3420232020202038564E203B2020202020203B20202020202020202020202020202020202064696C6176203B20202020363137412E2E30303741,
  0x454C474E412052454E524F43205448474952205245574F4C2052455454454C205245494649444F4D2E2E524142204C4143495452455620544F442052455454454C205245494649444F4D2020302E3520232020202020202020202020202020202020202020202020202020202020202020202064696C6176203B20202020413137412E2E37313741,
  0x4B52414D204E4F4954414D414C435845204445545245564E4920574F4C2052455454454C205245494649444F4D2E2E574F525241205055204445534941522052455454454C205245494649444F4D2020312E3520232020202020202020202020202020202020202020202020202020202020202020202064696C6176203B20202020463137412E2E42313741,
  0x454E4F5420574F4C20444E41205353455254532052455454454C205245494649444F4D2E2E454E4F54204847494820444E41205353455254532052455454454C205245494649444F4D2020302E3520232020202038564E203B2020202020203B20202020202020202020202020202020202064696C6176203B20202020313237412E2E30323741,
  0x46454C41204C414349474F4C4F54505947452052455454454C204C415449504143204E4954414C2020312E3520232020202020202020202033323741203B202020202020202020202020202020202064657070616D203B2020202020202020202032323741,
  0x46454C41204C414349474F4C4F54505947452052455454454C204C4C414D53204E4954414C2020312E3520232020202020202020202020202020202020202020202020202020202020202020202064696C6176203B2020202020202020202033323741,
  0x4E4941204C414349474F4C4F54505947452052455454454C204C415449504143204E4954414C2020312E3520232020202020202020202035323741203B202020202020202020202020202020202064657070616D203B2020202020202020202034323741,
  0x4E4941204C414349474F4C4F54505947452052455454454C204C4C414D53204E4954414C2020312E3520232020202020202020202020202020202020202020202020202020202020202020202064696C6176203B2020202020202020202035323741,
  0x474E45482052455454454C204C415449504143204E4954414C2020312E3520232020202020202020202037323741203B202020202020202020202020202020202064657070616D203B2020202020202020202036323741,
  0x474E45482052455454454C204C4C414D53204E4954414C2020312E3520232020202020202020202020202020202020202020202020202020202020202020202064696C6176203B2020202020202020202037323741,
  0x5A542052455454454C204C415449504143204E4954414C2020312E3520232020202020202020202039323741203B202020202020202020202020202020202064657070616D203B2020202020202020202038323741,
  0x5A542052455454454C204C4C414D53204E4954414C2020312E3520232020202020202020202020202020202020202020202020202020202020202020202064696C6176203B2020202020202020202039323741,
  0x4F4C4C49534552542052455454454C204C415449504143204E4954414C2020312E3520232020202020202020202042323741203B202020202020202020202020202020202064657070616D203B2020202020202020202041323741,
  0x4F4C4C49534552542052455454454C204C4C414D53204E4954414C2020312E3520232020202020202020202020202020202020202020202020202020202020202020202064696C6176203B2020202020202020202042323741,
  0x4F4C4C4952544155432052455454454C204C415449504143204E4954414C2020312E3520232020202020202020202044323741203B202020202020202020202020202020202064657070616D203B2020202020202020202043323741,
  0x4F4C4C4952544155432052455454454C204C4C414D53204E4954414C2020312E3520232020202020202020202020202020202020202020202020202020202020202020202064696C6176203B2020202020202020202044323741,
  0x414D4D4F432048544957204F4C4C4952544155432052455454454C204C415449504143204E4954414C2020312E3520232020202020202020202046323741203B202020202020202020202020202020202064657070616D203B2020202020202020202045323741,
  0x53204C415449504143204C4C414D532052455454454C204E4954414C2E2E414D4D4F432048544957204F4C4C4952544155432052455454454C204C4C414D53204E4954414C2020312E3520232020202020202020202020202020202020202020202020202020202020202020202064696C6176203B20202020313337412E2E46323741,
  0x41412052455454454C204C415449504143204E4954414C2020312E3520232020202020202020202033333741203B202020202020202020202020202020202064657070616D203B2020202020202020202032333741,
  0x41412052455454454C204C4C414D53204E4954414C2020312E3520232020202020202020202020202020202020202020202020202020202020202020202064696C6176203B2020202020202020202033333741,
  0x4F412052455454454C204C415449504143204E4954414C2020312E3520232020202020202020202035333741203B202020202020202020202020202020202064657070616D203B2020202020202020202034333741,
  0x4F412052455454454C204C4C414D53204E4954414C2020312E3520232020202020202020202020202020202020202020202020202020202020202020202064696C6176203B2020202020202020202035333741,
  0x55412052455454454C204C415449504143204E4954414C2020312E3520232020202020202020202037333741203B202020202020202020202020202020202064657070616D203B2020202020202020202036333741,
  0x55412052455454454C204C4C414D53204E4954414C2020312E3520232020202020202020202020202020202020202020202020202020202020202020202064696C6176203B2020202020202020202037333741,
  0x56412052455454454C204C415449504143204E4954414C2020312E3520232020202020202020202039333741203B202020202020202020202020202020202064657070616D203B2020202020202020202038333741,
  0x56412052455454454C204C4C414D53204E4954414C2020312E3520232020202020202020202020202020202020202020202020202020202020202020202064696C6176203B2020202020202020202039333741,
  0x524142204C41544E4F5A49524F4820485449572056412052455454454C204C415449504143204E4954414C2020312E3520232020202020202020202042333741203B202020202020202020202020202020202064657070616D203B2020202020202020202041333741,
  0x524142204C41544E4F5A49524F4820485449572056412052455454454C204C4C414D53204E4954414C2020312E3520232020202020202020202020202020202020202020202020202020202020202020202064696C6176203B2020202020202020202042333741,
  0x59412052455454454C204C415449504143204E4954414C2020312E3520232020202020202020202044333741203B202020202020202020202020202020202064657070616D203B2020202020202020202043333741,
  0x59412052455454454C204C4C414D53204E4954414C2020312E3520232020202020202020202020202020202020202020202020202020202020202020202064696C6176203B2020202020202020202044333741,
  0x544F44204854495720432044455352455645522052455454454C204C415449504143204E4954414C2020312E3520232020202020202020202046333741203B202020202020202020202020202020202064657070616D203B2020202020202020202045333741,
  0x544F44204854495720432044455352455645522052455454454C204C4C414D53204E4954414C2020312E3520232020202020202020202020202020202020202020202020202020202020202020202064696C6176203B2020202020202020202046333741,
  0x454B4F5254532048544957204B2052455454454C204C415449504143204E4954414C2020312E3520232020202020202020202031343741203B202020202020202020202020202020202064657070616D203B2020202020202020202030343741,
  0x454B4F5254532048544957204B2052455454454C204C4C414D53204E4954414C2020312E3520232020202020202020202020202020202020202020202020202020202020202020202064696C6176203B2020202020202020202031343741,
  0x454B4F525453204C414E4F474149442048544957204B2052455454454C204C415449504143204E4954414C2020312E3520232020202020202020202033343741203B202020202020202020202020202020202064657070616D203B2020202020202020202032343741,
  0x454B4F525453204C414E4F474149442048544957204B2052455454454C204C4C414D53204E4954414C2020312E3520232020202020202020202020202020202020202020202020202020202020202020202064696C6176203B2020202020202020202033343741,
  0x454B4F525453204C414E4F4741494420444E4120454B4F5254532048544957204B2052455454454C204C415449504143204E4954414C2020312E3520232020202020202020202035343741203B202020202020202020202020202020202064657070616D203B2020202020202020202034343741,
  0x454B4F525453204C414E4F4741494420444E4120454B4F5254532048544957204B2052455454454C204C4C414D53204E4954414C2020312E3520232020202020202020202020202020202020202020202020202020202020202020202064696C6176203B2020202020202020202035343741,
  0x4C204E454B4F52422052455454454C204C415449504143204E4954414C2020312E3520232020202020202020202037343741203B202020202020202020202020202020202064657070616D203B2020202020202020202036343741,
  0x4C204E454B4F52422052455454454C204C4C414D53204E4954414C2020312E3520232020202020202020202020202020202020202020202020202020202020202020202064696C6176203B2020202020202020202037343741,
  0x454B4F52545320484749482048544957204C2052455454454C204C415449504143204E4954414C2020312E3520232020202020202020202039343741203B202020202020202020202020202020202064657070616D203B2020202020202020202038343741,
  0x454B4F52545320484749482048544957204C2052455454454C204C4C414D53204E4954414C2020312E3520232020202020202020202020202020202020202020202020202020202020202020202064696C6176203B2020202020202020202039343741,
  0x59414C5245564F20454B4F52545320474E4F4C2048544957204F2052455454454C204C415449504143204E4954414C2020312E3520232020202020202020202042343741203B202020202020202020202020202020202064657070616D203B2020202020202020202041343741,
  0x59414C5245564F20454B4F52545320474E4F4C2048544957204F2052455454454C204C4C414D53204E4954414C2020312E3520232020202020202020202020202020202020202020202020202020202020202020202064696C6176203B2020202020202020202042343741,
  0x504F4F4C2048544957204F2052455454454C204C415449504143204E4954414C2020312E3520232020202020202020202044343741203B202020202020202020202020202020202064657070616D203B2020202020202020202043343741,
  0x504F4F4C2048544957204F2052455454454C204C4C414D53204E4954414C2020312E3520232020202020202020202020202020202020202020202020202020202020202020202064696C6176203B2020202020202020202044343741,
  0x4F4F2052455454454C204C415449504143204E4954414C2020312E3520232020202020202020202046343741203B202020202020202020202020202020202064657070616D203B2020202020202020202045343741,
  0x4F4F2052455454454C204C4C414D53204E4954414C2020312E3520232020202020202020202020202020202020202020202020202020202020202020202064696C6176203B2020202020202020202046343741,
  0x5245444E4543534544204847554F52485420454B4F525453204854495720502052455454454C204C415449504143204E4954414C2020312E3520232020202020202020202031353741203B202020202020202020202020202020202064657070616D203B2020202020202020202030353741,
  0x5245444E4543534544204847554F52485420454B4F525453204854495720502052455454454C204C4C414D53204E4954414C2020312E3520232020202020202020202020202020202020202020202020202020202020202020202064696C6176203B2020202020202020202031353741,
  0x48534952554F4C46204854495720502052455454454C204C415449504143204E4954414C2020312E3520232020202020202020202033353741203B202020202020202020202020202020202064657070616D203B2020202020202020202032353741,
  0x48534952554F4C46204854495720502052455454454C204C4C414D53204E4954414C2020312E3520232020202020202020202020202020202020202020202020202020202020202020202064696C6176203B2020202020202020202033353741,
  0x4C494154204C45525249555153204854495720502052455454454C204C415449504143204E4954414C2020312E3520232020202020202020202035353741203B202020202020202020202020202020202064657070616D203B2020202020202020202034353741,
  0x4C494154204C45525249555153204854495720502052455454454C204C4C414D53204E4954414C2020312E3520232020202020202020202020202020202020202020202020202020202020202020202064696C6176203B2020202020202020202035353741,
  0x5245444E4543534544204847554F52485420454B4F525453204854495720512052455454454C204C415449504143204E4954414C2020312E3520232020202020202020202037353741203B202020202020202020202020202020202064657070616D203B2020202020202020202036353741,
  0x5245444E4543534544204847554F52485420454B4F525453204854495720512052455454454C204C4C414D53204E4954414C2020312E3520232020202020202020202020202020202020202020202020202020202020202020202064696C6176203B2020202020202020202037353741,
  0x454B4F525453204C414E4F47414944204854495720512052455454454C204C415449504143204E4954414C2020312E3520232020202020202020202039353741203B202020202020202020202020202020202064657070616D203B2020202020202020202038353741,
  0x454B4F525453204C414E4F47414944204854495720512052455454454C204C4C414D53204E4954414C2020312E3520232020202020202020202020202020202020202020202020202020202020202020202064696C6176203B2020202020202020202039353741,
  0x41444E55544F5220522052455454454C204C415449504143204E4954414C2020312E3520232020202020202020202042353741203B202020202020202020202020202020202064657070616D203B2020202020202020202041353741,
  0x41444E55544F5220522052455454454C204C4C414D53204E4954414C2020312E3520232020202020202020202020202020202020202020202020202020202020202020202064696C6176203B2020202020202020202042353741,
  0x41444E55544F52204D55522052455454454C204C415449504143204E4954414C2020312E3520232020202020202020202044353741203B202020202020202020202020202020202064657070616D203B2020202020202020202043353741,
  0x41444E55544F52204D55522052455454454C204C4C414D53204E4954414C2020312E3520232020202020202020202020202020202020202020202020202020202020202020202064696C6176203B2020202020202020202044353741,
  0x454B4F525453204C414E4F47414944204854495720562052455454454C204C415449504143204E4954414C2020312E3520232020202020202020202046353741203B202020202020202020202020202020202064657070616D203B2020202020202020202045353741,
  0x454B4F525453204C414E4F47414944204854495720562052455454454C204C4C414D53204E4954414C2020312E3520232020202020202020202020202020202020202020202020202020202020202020202064696C6176203B2020202020202020202046353741,
  0x59562052455454454C204C415449504143204E4954414C2020312E3520232020202020202020202031363741203B202020202020202020202020202020202064657070616D203B2020202020202020202030363741,
  0x59562052455454454C204C4C414D53204E4954414C2020312E3520232020202020202020202020202020202020202020202020202020202020202020202064696C6176203B2020202020202020202031363741,
  0x5A20434948544F47495349562052455454454C204C415449504143204E4954414C2020312E3520232020202020202020202033363741203B202020202020202020202020202020202064657070616D203B2020202020202020202032363741,
  0x5A20434948544F47495349562052455454454C204C4C414D53204E4954414C2020312E3520232020202020202020202020202020202020202020202020202020202020202020202064696C6176203B2020202020202020202033363741,
  0x454B4F5254532048544957204E524F48542052455454454C204C415449504143204E4954414C2020312E3520232020202020202020202035363741203B202020202020202020202020202020202064657070616D203B2020202020202020202034363741,
  0x454B4F5254532048544957204E524F48542052455454454C204C4C414D53204E4954414C2020312E3520232020202020202020202020202020202020202020202020202020202020202020202064696C6176203B2020202020202020202035363741,
  0x5245444E4543534544204847554F52485420454B4F5254532048544957204E524F48542052455454454C204C415449504143204E4954414C2020312E3520232020202020202020202037363741203B202020202020202020202020202020202064657070616D203B2020202020202020202036363741,
  0x5245444E4543534544204847554F52485420454B4F5254532048544957204E524F48542052455454454C204C4C414D53204E4954414C2020312E3520232020202020202020202020202020202020202020202020202020202020202020202064696C6176203B2020202020202020202037363741,
  0x444E45562052455454454C204C415449504143204E4954414C2020312E3520232020202020202020202039363741203B202020202020202020202020202020202064657070616D203B2020202020202020202038363741,
  0x444E45562052455454454C204C4C414D53204E4954414C2020312E3520232020202020202020202020202020202020202020202020202020202020202020202064696C6176203B2020202020202020202039363741,
  0x54452052455454454C204C415449504143204E4954414C2020312E3520232020202020202020202042363741203B202020202020202020202020202020202064657070616D203B2020202020202020202041363741,
  0x54452052455454454C204C4C414D53204E4954414C2020312E3520232020202020202020202020202020202020202020202020202020202020202020202064696C6176203B2020202020202020202042363741,
  0x53492052455454454C204C415449504143204E4954414C2020312E3520232020202020202020202044363741203B202020202020202020202020202020202064657070616D203B2020202020202020202043363741,
  0x53492052455454454C204C4C414D53204E4954414C2020312E3520232020202020202020202020202020202020202020202020202020202020202020202064696C6176203B2020202020202020202044363741,
  0x4E4F432052455454454C204C415449504143204E4954414C2020312E3520232020202020202020202046363741203B202020202020202020202020202020202064657070616D203B2020202020202020202045363741,
  0x4E4F432052455454454C204C4C414D53204E4954414C2020312E3520232020202020202020202020202020202020202020202020202020202020202020202064696C6176203B2020202020202020202046363741,
  0x53552052455454454C205245494649444F4D2020312E3520232020202020202020202046363741203B202020202020202020202020202020202064657070616D203B2020202020202020202030373741,
  0x4D552052455454454C204C4C414D53204E4954414C2E2E4D55442052455454454C204C4C414D53204E4954414C2020312E3520232020202020202020202020202020202020202020202020202020202020202020202064696C6176203B20202020383737412E2E31373741,
  0x442052414C55534E492052455454454C204C415449504143204E4954414C2020312E3520232020202020202020202041373741203B202020202020202020202020202020202064657070616D203B2020202020202020202039373741,
  0x442052414C55534E492052455454454C204C4C414D53204E4954414C2020312E3520232020202020202020202020202020202020202020202020202020202020202020202064696C6176203B2020202020202020202041373741,
  0x462052414C55534E492052455454454C204C415449504143204E4954414C2020312E3520232020202020202020202043373741203B202020202020202020202020202020202064657070616D203B2020202020202020202042373741,
  0x462052414C55534E492052455454454C204C4C414D53204E4954414C2020312E3520232020202020202020202020202020202020202020202020202020202020202020202064696C6176203B2020202020202020202043373741,
  0x472052414C55534E492052455454454C204C415449504143204E4954414C2020312E3520232020202020202020202039374431203B202020202020202020202020202020202064657070616D203B2020202020202020202044373741,
  0x472052414C55534E492044454E5255542052455454454C204C415449504143204E4954414C2020312E3520232020202020202020202046373741203B202020202020202020202020202020202064657070616D203B2020202020202020202045373741,
  0x472052414C55534E492044454E5255542052455454454C204C4C414D53204E4954414C2020312E3520232020202020202020202020202020202020202020202020202020202020202020202064696C6176203B2020202020202020202046373741,
  0x4C2044454E5255542052455454454C204C415449504143204E4954414C2020312E3520232020202020202020202031383741203B202020202020202020202020202020202064657070616D203B2020202020202020202030383741,
  0x4C2044454E5255542052455454454C204C4C414D53204E4954414C2020312E3520232020202020202020202020202020202020202020202020202020202020202020202064696C6176203B2020202020202020202031383741,
  0x522052414C55534E492052455454454C204C415449504143204E4954414C2020312E3520232020202020202020202033383741203B202020202020202020202020202020202064657070616D203B2020202020202020202032383741,
  0x522052414C55534E492052455454454C204C4C414D53204E4954414C2020312E3520232020202020202020202020202020202020202020202020202020202020202020202064696C6176203B2020202020202020202033383741,
  0x532052414C55534E492052455454454C204C415449504143204E4954414C2020312E3520232020202020202020202035383741203B202020202020202020202020202020202064657070616D203B2020202020202020202034383741,
  0x532052414C55534E492052455454454C204C4C414D53204E4954414C2020312E3520232020202020202020202020202020202020202020202020202020202020202020202064696C6176203B2020202020202020202035383741,
  0x542052414C55534E492052455454454C204C415449504143204E4954414C2020312E3520232020202020202020202037383741203B202020202020202020202020202020202064657070616D203B2020202020202020202036383741,
  0x544E454343412058454C464D554352494320574F4C2052455454454C205245494649444F4D2E2E542052414C55534E492052455454454C204C4C414D53204E4954414C2020312E3520232020202020202020202020202020202020202020202020202020202020202020202064696C6176203B20202020383837412E2E37383741,
  0x4E47495320534C415551452054524F48532052455454454C205245494649444F4D2E2E4E4F4C4F432052455454454C205245494649444F4D2020312E3520232020202038564E203B2020202020203B20202020202020202020202020202020202064696C6176203B20202020413837412E2E39383741,
  0x4F4C4C49544C41532052455454454C204C415449504143204E4954414C2020312E3520232020202020202020202043383741203B202020202020202020202020202020202064657070616D203B2020202020202020202042383741,
  0x4F4C4C49544C41532052455454454C204C4C414D53204E4954414C2020312E3520232020202020202020202020202020202020202020202020202020202020202020202064696C6176203B2020202020202020202043383741,
  0x482044454E5255542052455454454C204C415449504143204E4954414C2020302E3620232020202020202020202035363230203B202020202020202020202020202020202064657070616D203B2020202020202020202044383741,
  0x544C454220444E41204B4F4F482058454C464F525445522048544957204C2052455454454C204C4C414D53204E4954414C2020302E3620232020202020202020202020202020202020202020202020202020202020202020202064696C6176203B2020202020202020202045383741,
  0x544F44204C414349474F4C4F4E49532052455454454C204E4954414C2020302E3820232020202020202020202020202020202020202020202020202020202020202020202064696C6176203B2020202020202020202046383741,
  0x5245444E45435345442048544957204E2052455454454C204C415449504143204E4954414C2020302E3620232020202020202020202031393741203B202020202020202020202020202020202064657070616D203B2020202020202020202030393741,
  0x5245444E45435345442048544957204E2052455454454C204C4C414D53204E4954414C2020302E3620232020202020202020202020202020202020202020202020202020202020202020202064696C6176203B2020202020202020202031393741,
  0x524142204854495720432052455454454C204C415449504143204E4954414C2020312E3620232020202020202020202033393741203B202020202020202020202020202020202064657070616D203B2020202020202020202032393741,
  0x524142204854495720432052455454454C204C4C414D53204E4954414C2020312E3620232020202020202020202020202020202020202020202020202020202020202020202064696C6176203B2020202020202020202033393741,
  0x4B4F4F48204C4154414C4150204854495720482052455454454C204C4C414D53204E4954414C2E2E4B4F4F48204C4154414C4150204854495720432052455454454C204C4C414D53204E4954414C2020302E3720232020202020202020202020202020202020202020202020202020202020202020202064696C6176203B20202020353937412E2E34393741,
  0x48534952554F4C46204854495720422052455454454C204C415449504143204E4954414C2020302E3720232020202020202020202037393741203B202020202020202020202020202020202064657070616D203B2020202020202020202036393741,
  0x48534952554F4C46204854495720422052455454454C204C4C414D53204E4954414C2020302E3720232020202020202020202020202020202020202020202020202020202020202020202064696C6176203B2020202020202020202037393741,
  0x454B4F525453204854495720462052455454454C204C415449504143204E4954414C2020302E3720232020202020202020202039393741203B202020202020202020202020202020202064657070616D203B2020202020202020202038393741,
  0x454B4F525453204854495720462052455454454C204C4C414D53204E4954414C2020302E3720232020202020202020202020202020202020202020202020202020202020202020202064696C6176203B2020202020202020202039393741,
  0x4541204B5550414C4F562052455454454C204C415449504143204E4954414C2020302E3720232020202020202020202042393741203B202020202020202020202020202020202064657070616D203B2020202020202020202041393741,
  0x4541204B5550414C4F562052455454454C204C4C414D53204E4954414C2020302E3720232020202020202020202020202020202020202020202020202020202020202020202064696C6176203B2020202020202020202042393741,
  0x454F204B5550414C4F562052455454454C204C415449504143204E4954414C2020302E3720232020202020202020202044393741203B202020202020202020202020202020202064657070616D203B2020202020202020202043393741,
  0x454F204B5550414C4F562052455454454C204C4C414D53204E4954414C2020302E3720232020202020202020202020202020202020202020202020202020202020202020202064696C6176203B2020202020202020202044393741,
  0x4555204B5550414C4F562052455454454C204C415449504143204E4954414C2020302E3720232020202020202020202046393741203B202020202020202020202020202020202064657070616D203B2020202020202020202045393741,
  0x4555204B5550414C4F562052455454454C204C4C414D53204E4954414C2020302E3720232020202020202020202020202020202020202020202020202020202020202020202064696C6176203B2020202020202020202046393741,
  0x454B4F52545320455551494C424F204854495720472052455454454C204C415449504143204E4954414C2020302E3620232020202020202020202031413741203B202020202020202020202020202020202064657070616D203B2020202020202020202030413741,
  0x454B4F52545320455551494C424F204854495720472052455454454C204C4C414D53204E4954414C2020302E3620232020202020202020202020202020202020202020202020202020202020202020202064696C6176203B2020202020202020202031413741,
  0x454B4F52545320455551494C424F2048544957204B2052455454454C204C415449504143204E4954414C2020302E3620232020202020202020202033413741203B202020202020202020202020202020202064657070616D203B2020202020202020202032413741,
  0x454B4F52545320455551494C424F2048544957204B2052455454454C204C4C414D53204E4954414C2020302E3620232020202020202020202020202020202020202020202020202020202020202020202064696C6176203B2020202020202020202033413741,
  0x454B4F52545320455551494C424F2048544957204E2052455454454C204C415449504143204E4954414C2020302E3620232020202020202020202035413741203B202020202020202020202020202020202064657070616D203B2020202020202020202034413741,
  0x454B4F52545320455551494C424F2048544957204E2052455454454C204C4C414D53204E4954414C2020302E3620232020202020202020202020202020202020202020202020202020202020202020202064696C6176203B2020202020202020202035413741,
  0x454B4F52545320455551494C424F204854495720522052455454454C204C415449504143204E4954414C2020302E3620232020202020202020202037413741203B202020202020202020202020202020202064657070616D203B2020202020202020202036413741,
  0x454B4F52545320455551494C424F204854495720522052455454454C204C4C414D53204E4954414C2020302E3620232020202020202020202020202020202020202020202020202020202020202020202064696C6176203B2020202020202020202037413741,
  0x454B4F52545320455551494C424F204854495720532052455454454C204C415449504143204E4954414C2020302E3620232020202020202020202039413741203B202020202020202020202020202020202064657070616D203B2020202020202020202038413741,
  0x454B4F52545320455551494C424F204854495720532052455454454C204C4C414D53204E4954414C2020302E3620232020202020202020202020202020202020202020202020202020202020202020202064696C6176203B2020202020202020202039413741,
  0x4B4F4F48204854495720482052455454454C204C415449504143204E4954414C2020312E3620232020202020202020202036363230203B202020202020202020202020202020202064657070616D203B2020202020202020202041413741,
  0x45204E45504F2044455352455645522052455454454C204C415449504143204E4954414C2020302E3720232020202020202020202043353230203B202020202020202020202020202020202064657070616D203B2020202020202020202042413741,
  0x47205450495243532052455454454C204C415449504143204E4954414C2020302E3720232020202020202020202031363230203B202020202020202020202020202020202064657070616D203B2020202020202020202043413741,
  0x544C45422048544957204C2052455454454C204C415449504143204E4954414C2020302E3720232020202020202020202043363230203B202020202020202020202020202020202064657070616D203B2020202020202020202044413741,
  0x49204C415449504143204C4C414D532052455454454C204C415449504143204E4954414C2020302E3920232020202020202020202041363230203B202020202020202020202020202020202064657070616D203B2020202020202020202045413741,
  0x51204C415449504143204C4C414D532052455454454C204E4954414C20302E313120232020202020202020202020202020202020202020202020202020202020202020202064696C6176203B2020202020202020202046413741,
  0x4B2044454E5255542052455454454C204C415449504143204E4954414C2020302E3720232020202020202020202045393230203B202020202020202020202020202020202064657070616D203B2020202020202020202030423741,
  0x542044454E5255542052455454454C204C415449504143204E4954414C2020302E3720232020202020202020202037383230203B202020202020202020202020202020202064657070616D203B2020202020202020202031423741,
  0x4C4941542D444553534F52432048544957204A2052455454454C204C415449504143204E4954414C2020302E3820232020202020202020202044393230203B202020202020202020202020202020202064657070616D203B2020202020202020202032423741,
  0x4948432052455454454C204C415449504143204E4954414C2020302E3820232020202020202020202033354241203B202020202020202020202020202020202064657070616D203B2020202020202020202033423741,
  0x415445422052455454454C204C415449504143204E4954414C2020302E3820232020202020202020202035423741203B202020202020202020202020202020202064657070616D203B2020202020202020202034423741,
  0x415445422052455454454C204C4C414D53204E4954414C2020302E3820232020202020202020202020202020202020202020202020202020202020202020202064696C6176203B2020202020202020202035423741,
  0x4147454D4F2052455454454C204C415449504143204E4954414C2020302E3820232020202020202020202037423741203B202020202020202020202020202020202064657070616D203B2020202020202020202036423741,
  0x4147454D4F2052455454454C204C4C414D53204E4954414C2020302E3820232020202020202020202020202020202020202020202020202020202020202020202064696C6176203B2020202020202020202037423741,
  0x454B4F525453204854495720552052455454454C204C415449504143204E4954414C20302E313120232020202020202020202039423741203B202020202020202020202020202020202064657070616D203B2020202020202020202038423741,
  0x454B4F525453204854495720552052455454454C204C4C414D53204E4954414C20302E313120232020202020202020202020202020202020202020202020202020202020202020202064696C6176203B2020202020202020202039423741,
  0x41204C4154544F4C472052455454454C204C415449504143204E4954414C20302E323120232020202020202020202042423741203B202020202020202020202020202020202064657070616D203B2020202020202020202041423741,
  0x41204C4154544F4C472052455454454C204C4C414D53204E4954414C20302E323120232020202020202020202020202020202020202020202020202020202020202020202064696C6176203B2020202020202020202042423741,
  0x49204C4154544F4C472052455454454C204C415449504143204E4954414C20302E323120232020202020202020202044423741203B202020202020202020202020202020202064657070616D203B2020202020202020202043423741,
  0x49204C4154544F4C472052455454454C204C4C414D53204E4954414C20302E323120232020202020202020202020202020202020202020202020202020202020202020202064696C6176203B2020202020202020202044423741,
  0x55204C4154544F4C472052455454454C204C415449504143204E4954414C20302E323120232020202020202020202046423741203B202020202020202020202020202020202064657070616D203B2020202020202020202045423741,
  0x55204C4154544F4C472052455454454C204C4C414D53204E4954414C20302E323120232020202020202020202020202020202020202020202020202020202020202020202064696C6176203B2020202020202020202046423741,
  0x3E314337412D64657672657365723C2E2E3E304337412D64657672657365723C202020414E202320202020202020202020202020202020202020202020202020202020206465776F6C6C61736964203B20202020314337412E2E30433741,
  0x5720414E4143494C474E412052455454454C204C415449504143204E4954414C20302E323120232020202020202020202033433741203B202020202020202020202020202020202064657070616D203B2020202020202020202032433741,
  0x5720414E4143494C474E412052455454454C204C4C414D53204E4954414C20302E323120232020202020202020202020202020202020202020202020202020202020202020202064696C6176203B2020202020202020202033433741,
  0x4B4F4F48204C4154414C4150204854495720432052455454454C204C415449504143204E4954414C20302E323120232020202020202020202034393741203B202020202020202020202020202020202064657070616D203B2020202020202020202034433741,
  0x4B4F4F48204854495720532052455454454C204C415449504143204E4954414C20302E323120232020202020202020202032383230203B202020202020202020202020202020202064657070616D203B2020202020202020202035433741,
  0x4B4F4F48204C4154414C41502048544957205A2052455454454C204C415449504143204E4954414C20302E323120232020202020202020202045384431203B202020202020202020202020202020202064657070616D203B2020202020202020202036433741,
  0x59414C5245564F20454B4F5254532054524F4853204854495720442052455454454C204C415449504143204E4954414C20302E333120232020202020202020202038433741203B202020202020202020202020202020202064657070616D203B2020202020202020202037433741,
  0x59414C5245564F20454B4F5254532054524F4853204854495720442052455454454C204C4C414D53204E4954414C20302E333120232020202020202020202020202020202020202020202020202020202020202020202064696C6176203B2020202020202020202038433741,
  0x59414C5245564F20454B4F5254532054524F4853204854495720532052455454454C204C415449504143204E4954414C20302E333120232020202020202020202041433741203B202020202020202020202020202020202064657070616D203B2020202020202020202039433741,
  0x59414C5245564F20454B4F5254532054524F4853204854495720532052455454454C204C4C414D53204E4954414C20302E333120232020202020202020202020202020202020202020202020202020202020202020202064696C6176203B2020202020202020202041433741,
  0x3E344637412D64657672657365723C2E2E3E424337412D64657672657365723C202020414E202320202020202020202020202020202020202020202020202020202020206465776F6C6C61736964203B20202020344637412E2E42433741,
  0x4820464C41482044455352455645522052455454454C204C415449504143204E4954414C20302E333120232020202020202020202036463741203B202020202020202020202020202020202064657070616D203B2020202020202020202035463741,
  0x4820464C41482044455352455645522052455454454C204C4C414D53204E4954414C20302E333120232020202020202020202020202020202020202020202020202020202020202020202064696C6176203B2020202020202020202036463741,
  0x492053594157454449532052455454454C2043494850415247495045204E4954414C2020302E3720232020202020202020202020202020202020202020202020202020202020202020202064696C6176203B2020202020202020202037463741,
  0x454B4F52545320485449572048204C4154495041432052455454454C205245494649444F4D2020312E3620232020202020202020202037323130203B202020202020202020202020202020202064657070616D203B2020202020202020202038463741,
  0x454F20455255544147494C204C4C414D532052455454454C205245494649444F4D2020312E3620232020202020202020202033353130203B202020202020202020202020202020202064657070616D203B2020202020202020202039463741,
  0x4D2044454E525554204C415449504143204C4C414D532052455454454C204E4954414C2020302E3620232020202020202020202020202020202020202020202020202020202020202020202064696C6176203B2020202020202020202041463741,
  0x4D20434941484352412052455454454C2043494850415247495045204E4954414C2E2E462044455352455645522052455454454C2043494850415247495045204E4954414C2020312E3520232020202020202020202020202020202020202020202020202020202020202020202064696C6176203B20202020464637412E2E42463741,
  0x4F4F204E474953204C45574F5620495247414E2049544F4C59532E2E412052455454454C20495247414E2049544F4C59532020312E3420232020202020202020202020202020202020202020202020202020202020202020202064696C6176203B20202020373238412E2E30303841,
  0x342D4B52414D20595254454F5020495247414E2049544F4C59532E2E312D4B52414D20595254454F5020495247414E2049544F4C59532020312E3420232020202038564E203B2020202020203B20202020202020202020202020202020202064696C6176203B20202020423238412E2E38323841,
  0x41544E41534148204554414E5245544C41204E47495320495247414E2049544F4C595320302E333120232020202020202020202020202020202020202020202020202020202020202020202064696C6176203B2020202020202020202043323841,
  0x3E463238412D64657672657365723C2E2E3E443238412D64657672657365723C202020414E202320202020202020202020202020202020202020202020202020202020206465776F6C6C61736964203B20202020463238412E2E44323841,
  0x4B52414D20595449544E415551204349444E49204854524F4E2E2E5245545241555120454E4F204E4F495443415246204349444E49204854524F4E2020322E3520232020202038564E203B2020202020203B20202020202020202020202020202020202064696C6176203B20202020393338412E2E30333841,
  0x3E463338412D64657672657365723C2E2E3E413338412D64657672657365723C202020414E202320202020202020202020202020202020202020202020202020202020206465776F6C6C61736964203B20202020463338412E2E41333841,
  0x55444E49424152444E41432052455454454C2041502D53474148502E2E414B2052455454454C2041502D53474148502020302E3520232020202020202020202020202020202020202020202020202020202020202020202064696C6176203B20202020333738412E2E30343841,
  0x4441485320454C42554F44204B52414D2041502D53474148502E2E4B52414D204441454820454C474E49532041502D53474148502020302E3520232020202038564E203B2020202020203B20202020202020202020202020202020202064696C6176203B20202020373738412E2E34373841,
  0x3E463738412D64657672657365723C2E2E3E383738412D64657672657365723C202020414E202320202020202020202020202020202020202020202020202020202020206465776F6C6C61736964203B20202020463738412E2E38373841,
  0x414D41524956204E47495320415254485341525541532E2E4152415653554E41204E47495320415254485341525541532020312E3520232020202020202020202020202020202020202020202020202020202020202020202064696C6176203B20202020344338412E2E30383841,
  0x55444E49424152444E4143204E47495320415254485341525541532020302E3920232020202020202020202020202020202020202020202020202020202020202020202064696C6176203B2020202020202020202035433841,
  0x3E444338412D64657672657365723C2E2E3E364338412D64657672657365723C202020414E202320202020202020202020202020202020202020202020202020202020206465776F6C6C61736964203B20202020444338412E2E36433841,
  0x41444E414420454C42554F4420415254485341525541532E2E41444E414420415254485341525541532020312E3520232020202038564E203B2020202020203B20202020202020202020202020202020202064696C6176203B20202020464338412E2E45433841,
  0x454E494E20544947494420415254485341525541532E2E4F52455A20544947494420415254485341525541532020312E3520232020202020202020202020202020202020202020202020202020202020202020202064696C6176203B20202020394438412E2E30443841,
  0x3E464438412D64657672657365723C2E2E3E414438412D64657672657365723C202020414E202320202020202020202020202020202020202020202020202020202020206465776F6C6C61736964203B20202020464438412E2E41443841,
  0x41484152474156412055444E49424152444E4143204E4749532049524147414E415645442E2E4F52455A2054494749442049524147414E4156454420474E494E49424D4F432020322E3520232020202020202020202020202020202020202020202020202020202020202020202064696C6176203B20202020374638412E2E30453841,
  0x54455241432049524147414E415645442E2E414B495048535550204E4749532049524147414E415645442020322E3520232020202038564E203B2020202020203B20202020202020202020202020202020202064696C6176203B20202020414638412E2E38463841,
  0x454B4F525453444145482049524147414E415645442020322E3520232020202020202020202020202020202020202020202020202020202020202020202064696C6176203B2020202020202020202042463841,
  0x4D414844444953204E4749532049524147414E415645442020302E3820232020202038564E203B2020202020203B20202020202020202020202020202020202064696C6176203B2020202020202020202043463841,
  0x4D4F204E49414A2049524147414E415645442020302E3820232020202020202020202020202020202020202020202020202020202020202020202064696C6176203B2020202020202020202044463841,
  0x5941204E474953204C45574F562049524147414E415645442E2E59412052455454454C2049524147414E4156454420302E313120232020202020202020202020202020202020202020202020202020202020202020202064696C6176203B20202020464638412E2E45463841,
  0x5548504F4C502041594C414320454E4F5420494C20484159414B2E2E4F52455A20544947494420494C20484159414B2020312E3520232020202020202020202020202020202020202020202020202020202020202020202064696C6176203B20202020443239412E2E30303941,
  0x41594853204E47495320494C20484159414B2E2E495743204E47495320494C20484159414B2020312E3520232020202038564E203B2020202020203B20202020202020202020202020202020202064696C6176203B20202020463239412E2E45323941,
  0x414D4152495620474E414A45522E2E414B2052455454454C20474E414A45522020312E3520232020202020202020202020202020202020202020202020202020202020202020202064696C6176203B20202020333539412E2E30333941,
  0x3E453539412D64657672657365723C2E2E3E343539412D64657672657365723C202020414E202320202020202020202020202020202020202020202020202020202020206465776F6C6C61736964203B20202020453539412E2E34353941,
  0x4B52414D204E4F495443455320474E414A45522020312E3520232020202038564E203B2020202020203B20202020202020202020202020202020202064696C6176203B2020202020202020202046353941,
  0x48554549484E49524F4559474E41535320474E4F45534F4843204C55474E41482E2E4D5545494D2D5455454B495420474E4F45534F4843204C55474E41482020322E3520232020202038564E203B2020202020203B20202020202020202020202020202020202064696C6176203B20202020433739412E2E30363941,
  0x3E463739412D64657672657365723C2E2E3E443739412D64657672657365723C202020414E202320202020202020202020202020202020202020202020202020202020206465776F6C6C61736964203B20202020463739412E2E44373941,
  0x4E4F4B474E4150204553454E4156414A2E2E4147474E41594E4150204E474953204553454E4156414A2020322E3520232020202020202020202020202020202020202020202020202020202020202020202064696C6176203B20202020304339412E2E30383941,
  0x48454C4553495020414441502044454E525554204553454E4156414A2E2E4E4147474E45524552205446454C204553454E4156414A2020322E3520232020202038564E203B2020202020203B20202020202020202020202020202020202064696C6176203B20202020444339412E2E31433941,
  0x3E454339412D64657672657365723C202020414E202320202020202020202020202020202020202020202020202020202020206465776F6C6C61736964203B2020202020202020202045433941,
  0x454E494E205449474944204553454E4156414A2E2E50454B474E4152474E4150204553454E4156414A2020322E3520232020202020202020202020202020202020202020202020202020202020202020202064696C6176203B20202020394439412E2E46433941,
  0x3E444439412D64657672657365723C2E2E3E414439412D64657672657365723C202020414E202320202020202020202020202020202020202020202020202020202020206465776F6C6C61736964203B20202020444439412E2E41443941,
  0x4E4553492D4E4553492041444150204553454E4156414A2E2E534554454D55542041545249542041444150204553454E4156414A2020322E3520232020202038564E203B2020202020203B20202020202020202020202020202020202064696C6176203B20202020464439412E2E45443941,
  0x41484220474E49414C204941542052455454454C2052414D4E41594D2E2E414847204E4148532052455454454C2052414D4E41594D2020302E3720232020202020202020202020202020202020202020202020202020202020202020202064696C6176203B20202020454639412E2E30453941,
  0x3E464639412D64657672657365723C202020414E202320202020202020202020202020202020202020202020202020202020206465776F6C6C61736964203B2020202020202020202046463941,
  0x4157204E47495320544E414E4F534E4F43204D4148432E2E412052455454454C204D4148432020312E3520232020202020202020202020202020202020202020202020202020202020202020202064696C6176203B20202020363341412E2E30304141,
  0x3E463341412D64657672657365723C2E2E3E373341412D64657672657365723C202020414E202320202020202020202020202020202020202020202020202020202020206465776F6C6C61736964203B20202020463341412E2E37334141,
  0x48204C414E4946204E47495320544E414E4F534E4F43204D4148432E2E4B204C414E49462052455454454C204D4148432020312E3520232020202020202020202020202020202020202020202020202020202020202020202064696C6176203B20202020443441412E2E30344141,
  0x3E463441412D64657672657365723C2E2E3E453441412D64657672657365723C202020414E202320202020202020202020202020202020202020202020202020202020206465776F6C6C61736964203B20202020463441412E2E45344141,
  0x454E494E205449474944204D4148432E2E4F52455A205449474944204D4148432020312E3520232020202020202020202020202020202020202020202020202020202020202020202064696C6176203B20202020393541412E2E30354141,
  0x3E423541412D64657672657365723C2E2E3E413541412D64657672657365723C202020414E202320202020202020202020202020202020202020202020202020202020206465776F6C6C61736964203B20202020423541412E2E41354141,
  0x41444E414420454C50495254204E4F4954415554434E5550204D4148432E2E4C4152495053204E4F4954415554434E5550204D4148432020312E3520232020202038564E203B2020202020203B20202020202020202020202020202020202064696C6176203B20202020463541412E2E43354141,
  0x4D482049544D41484B204D4152474F474F4C2052414D4E41594D2E2E41472049544D41484B2052455454454C2052414D4E41594D2020322E3520232020202020202020202020202020202020202020202020202020202020202020202064696C6176203B20202020363741412E2E30364141,
  0x4F5754204E4F544941204C4F424D59532052414D4E41594D2E2E4E4F4954414D414C435845204E4F544941204C4F424D59532052414D4E41594D2020322E3520232020202038564E203B2020202020203B20202020202020202020202020202020202064696C6176203B20202020393741412E2E37374141,
  0x454E4F54204E4552414B204F4150204E4749532052414D4E41594D2E2E4152204E4F5449412052455454454C2052414D4E41594D2020322E3520232020202020202020202020202020202020202020202020202020202020202020202064696C6176203B20202020423741412E2E41374141,
  0x41485320474E55414C415020455748532052455454454C2052414D4E41594D2E2E322D454E4F5420474E49414C20494154204E4749532052414D4E41594D2020302E3720232020202020202020202020202020202020202020202020202020202020202020202064696C6176203B20202020463741412E2E43374141,
  0x474E4F532049414D20454E4F542054454956204941542E2E4F4B20574F4C2052455454454C2054454956204941542020322E3520232020202020202020202020202020202020202020202020202020202020202020202064696C6176203B20202020324341412E2E30384141,
  0x3E414441412D64657672657365723C2E2E3E334341412D64657672657365723C202020414E202320202020202020202020202020202020202020202020202020202020206465776F6C6C61736964203B20202020414441412E2E33434141]

def mapText17 : List Nat := [
  0x4D4153204C4F424D59532054454956204941542E2E4E4F4B204C4F424D59532054454956204941542020322E3520232020202020202020202020202020202020202020202020202020202020202020202064696C6176203B20202020444441412E2E42444141,
  0x494F4B20494F4B204C4F424D59532054454956204941542E2E494F48204F48204C4F424D59532054454956204941542020322E3520232020202038564E203B2020202020203B20202020202020202020202020202020202064696C6176203B20202020464441412E2E45444141,
  0x554141204E474953204C45574F56204B4559414D2049455445454D2E2E452052455454454C204B4559414D2049455445454D2020312E3620232020202020202020202020202020202020202020202020202020202020202020202064696C6176203B20202020464541412E2E30454141,
  0x4D414455484B20474E414841204B4559414D2049455445454D2E2E4E41484B49454843204B4559414D2049455445454D2020312E3620232020202038564E203B2020202020203B20202020202020202020202020202020202064696C6176203B20202020314641412E2E30464141,
  0x414D41524956204B4559414D2049455445454D2E2E494A4E41204B4559414D2049455445454D2020312E3620232020202020202020202020202020202020202020202020202020202020202020202064696C6176203B20202020364641412E2E32464141,
  0x3E303042412D64657672657365723C2E2E3E374641412D64657672657365723C202020414E202320202020202020202020202020202020202020202020202020202020206465776F6C6C61736964203B20202020303042412E2E37464141,
  0x4F48545420454C42414C4C5953204349504F494854452E2E5548545420454C42414C4C5953204349504F494854452020302E3620232020202020202020202020202020202020202020202020202020202020202020202064696C6176203B20202020363042412E2E31304241,
  0x3E383042412D64657672657365723C2E2E3E373042412D64657672657365723C202020414E202320202020202020202020202020202020202020202020202020202020206465776F6C6C61736964203B20202020383042412E2E37304241,
  0x4F48444420454C42414C4C5953204349504F494854452E2E5548444420454C42414C4C5953204349504F494854452020302E3620232020202020202020202020202020202020202020202020202020202020202020202064696C6176203B20202020453042412E2E39304241,
  0x3E303142412D64657672657365723C2E2E3E463042412D64657672657365723C202020414E202320202020202020202020202020202020202020202020202020202020206465776F6C6C61736964203B20202020303142412E2E46304241,
  0x4F5A4420454C42414C4C5953204349504F494854452E2E555A4420454C42414C4C5953204349504F494854452020302E3620232020202020202020202020202020202020202020202020202020202020202020202064696C6176203B20202020363142412E2E31314241,
  0x3E463142412D64657672657365723C2E2E3E373142412D64657672657365723C202020414E202320202020202020202020202020202020202020202020202020202020206465776F6C6C61736964203B20202020463142412E2E37314241,
  0x4F4848434320454C42414C4C5953204349504F494854452E2E414848434320454C42414C4C5953204349504F494854452020302E3620232020202020202020202020202020202020202020202020202020202020202020202064696C6176203B20202020363242412E2E30324241,
  0x3E373242412D64657672657365723C202020414E202320202020202020202020202020202020202020202020202020202020206465776F6C6C61736964203B2020202020202020202037324241,
  0x4F424220454C42414C4C5953204349504F494854452E2E41424220454C42414C4C5953204349504F494854452020302E3620232020202020202020202020202020202020202020202020202020202020202020202064696C6176203B20202020453242412E2E38324241,
  0x3E463242412D64657672657365723C202020414E202320202020202020202020202020202020202020202020202020202020206465776F6C6C61736964203B2020202020202020202046324241,
  0x47454C2054484749522054524F4853204854495720592052455454454C204C4C414D53204E4954414C2E2E4148504C41204445525241422052455454454C204C4C414D53204E4954414C2020302E3720232020202020202020202020202020202020202020202020202020202020202020202064696C6176203B20202020413542412E2E30334241,
  0x4556455242204445545245564E492048544957204556455242205245494649444F4D2020302E3720232020202038564E203B2020202020203B20202020202020202020202020202020202064696C6176203B2020202020202020202042354241,
  0x474E4548204C4C414D532052455454454C205245494649444F4D2020302E3720232020202020202020202037323741203B202020202020202020202020202020202064657070616D203B2020202020202020202043354241,
  0x5320595A414C204445545245564E492048544957204C204C4C414D532052455454454C205245494649444F4D2020302E3720232020202020202020202037334241203B202020202020202020202020202020202064657070616D203B2020202020202020202044354241,
  0x45444C495420454C4444494D2048544957204C204C4C414D532052455454454C205245494649444F4D2020302E3720232020202020202020202042363230203B202020202020202020202020202020202064657070616D203B2020202020202020202045354241,
  0x4B4F4F48205446454C20485449572055204C4C414D532052455454454C205245494649444F4D2020302E3720232020202020202020202032354241203B202020202020202020202020202020202064657070616D203B2020202020202020202046354241,
  0x4F552052455454454C204C4C414D53204E4954414C2E2E5441592041484B41532052455454454C204C4C414D53204E4954414C2020302E3820232020202020202020202020202020202020202020202020202020202020202020202064696C6176203B20202020333642412E2E30364241,
  0x4147454D4F204C415449504143204C4C414D532052455454454C204B454552472E2E4148504C41204445545245564E492052455454454C204C4C414D53204E4954414C2020302E3720232020202020202020202020202020202020202020202020202020202020202020202064696C6176203B20202020353642412E2E34364241,
  0x4B4F4F482058454C464F52544552204854495720485041524749442053542052455454454C204C4C414D53204E4954414C2E2E4B4F4F482058454C464F5254455220485449572048504152474944205A442052455454454C204C4C414D53204E4954414C20302E323120232020202020202020202020202020202020202020202020202020202020202020202064696C6176203B20202020373642412E2E36364241,
  0x45444C495420454C4444494D204854495720522044454E5255542052455454454C204C4C414D53204E4954414C20302E333120232020202020202020202020202020202020202020202020202020202020202020202064696C6176203B2020202020202020202038364241,
  0x572044454E525554204C4C414D532052455454454C205245494649444F4D20302E333120232020202020202020202044383230203B202020202020202020202020202020202064657070616D203B2020202020202020202039364241,
  0x4B4341542054484749522052455454454C205245494649444F4D2E2E4B434154205446454C2052455454454C205245494649444F4D20302E333120232020202038564E203B2020202020203B20202020202020202020202020202020202064696C6176203B20202020423642412E2E41364241,
  0x3E463642412D64657672657365723C2E2E3E433642412D64657672657365723C202020414E202320202020202020202020202020202020202020202020202020202020206465776F6C6C61736964203B20202020463642412E2E43364241,
  0x412052455454454C204C4C414D532045454B4F524548432020302E3820232020202020202020202030413331203B202020202020202020202020202020202064657070616D203B2020202020202020202030374241,
  0x452052455454454C204C4C414D532045454B4F524548432020302E3820232020202020202020202031413331203B202020202020202020202020202020202064657070616D203B2020202020202020202031374241,
  0x492052455454454C204C4C414D532045454B4F524548432020302E3820232020202020202020202032413331203B202020202020202020202020202020202064657070616D203B2020202020202020202032374241,
  0x4F2052455454454C204C4C414D532045454B4F524548432020302E3820232020202020202020202033413331203B202020202020202020202020202020202064657070616D203B2020202020202020202033374241,
  0x552052455454454C204C4C414D532045454B4F524548432020302E3820232020202020202020202034413331203B202020202020202020202020202020202064657070616D203B2020202020202020202034374241,
  0x562052455454454C204C4C414D532045454B4F524548432020302E3820232020202020202020202035413331203B202020202020202020202020202020202064657070616D203B2020202020202020202035374241,
  0x41472052455454454C204C4C414D532045454B4F524548432020302E3820232020202020202020202036413331203B202020202020202020202020202020202064657070616D203B2020202020202020202036374241,
  0x414B2052455454454C204C4C414D532045454B4F524548432020302E3820232020202020202020202037413331203B202020202020202020202020202020202064657070616D203B2020202020202020202037374241,
  0x45472052455454454C204C4C414D532045454B4F524548432020302E3820232020202020202020202038413331203B202020202020202020202020202020202064657070616D203B2020202020202020202038374241,
  0x49472052455454454C204C4C414D532045454B4F524548432020302E3820232020202020202020202039413331203B202020202020202020202020202020202064657070616D203B2020202020202020202039374241,
  0x4F472052455454454C204C4C414D532045454B4F524548432020302E3820232020202020202020202041413331203B202020202020202020202020202020202064657070616D203B2020202020202020202041374241,
  0x55472052455454454C204C4C414D532045454B4F524548432020302E3820232020202020202020202042413331203B202020202020202020202020202020202064657070616D203B2020202020202020202042374241,
  0x56472052455454454C204C4C414D532045454B4F524548432020302E3820232020202020202020202043413331203B202020202020202020202020202020202064657070616D203B2020202020202020202043374241,
  0x41482052455454454C204C4C414D532045454B4F524548432020302E3820232020202020202020202044413331203B202020202020202020202020202020202064657070616D203B2020202020202020202044374241,
  0x45482052455454454C204C4C414D532045454B4F524548432020302E3820232020202020202020202045413331203B202020202020202020202020202020202064657070616D203B2020202020202020202045374241,
  0x49482052455454454C204C4C414D532045454B4F524548432020302E3820232020202020202020202046413331203B202020202020202020202020202020202064657070616D203B2020202020202020202046374241,
  0x4F482052455454454C204C4C414D532045454B4F524548432020302E3820232020202020202020202030423331203B202020202020202020202020202020202064657070616D203B2020202020202020202030384241,
  0x55482052455454454C204C4C414D532045454B4F524548432020302E3820232020202020202020202031423331203B202020202020202020202020202020202064657070616D203B2020202020202020202031384241,
  0x56482052455454454C204C4C414D532045454B4F524548432020302E3820232020202020202020202032423331203B202020202020202020202020202020202064657070616D203B2020202020202020202032384241,
  0x414C2052455454454C204C4C414D532045454B4F524548432020302E3820232020202020202020202033423331203B202020202020202020202020202020202064657070616D203B2020202020202020202033384241,
  0x454C2052455454454C204C4C414D532045454B4F524548432020302E3820232020202020202020202034423331203B202020202020202020202020202020202064657070616D203B2020202020202020202034384241,
  0x494C2052455454454C204C4C414D532045454B4F524548432020302E3820232020202020202020202035423331203B202020202020202020202020202020202064657070616D203B2020202020202020202035384241,
  0x4F4C2052455454454C204C4C414D532045454B4F524548432020302E3820232020202020202020202036423331203B202020202020202020202020202020202064657070616D203B2020202020202020202036384241,
  0x554C2052455454454C204C4C414D532045454B4F524548432020302E3820232020202020202020202037423331203B202020202020202020202020202020202064657070616D203B2020202020202020202037384241,
  0x564C2052455454454C204C4C414D532045454B4F524548432020302E3820232020202020202020202038423331203B202020202020202020202020202020202064657070616D203B2020202020202020202038384241,
  0x414D2052455454454C204C4C414D532045454B4F524548432020302E3820232020202020202020202039423331203B202020202020202020202020202020202064657070616D203B2020202020202020202039384241,
  0x454D2052455454454C204C4C414D532045454B4F524548432020302E3820232020202020202020202041423331203B202020202020202020202020202020202064657070616D203B2020202020202020202041384241,
  0x494D2052455454454C204C4C414D532045454B4F524548432020302E3820232020202020202020202042423331203B202020202020202020202020202020202064657070616D203B2020202020202020202042384241,
  0x4F4D2052455454454C204C4C414D532045454B4F524548432020302E3820232020202020202020202043423331203B202020202020202020202020202020202064657070616D203B2020202020202020202043384241,
  0x554D2052455454454C204C4C414D532045454B4F524548432020302E3820232020202020202020202044423331203B202020202020202020202020202020202064657070616D203B2020202020202020202044384241,
  0x414E2052455454454C204C4C414D532045454B4F524548432020302E3820232020202020202020202045423331203B202020202020202020202020202020202064657070616D203B2020202020202020202045384241,
  0x414E482052455454454C204C4C414D532045454B4F524548432020302E3820232020202020202020202046423331203B202020202020202020202020202020202064657070616D203B2020202020202020202046384241,
  0x48414E2052455454454C204C4C414D532045454B4F524548432020302E3820232020202020202020202030433331203B202020202020202020202020202020202064657070616D203B2020202020202020202030394241,
  0x454E2052455454454C204C4C414D532045454B4F524548432020302E3820232020202020202020202031433331203B202020202020202020202020202020202064657070616D203B2020202020202020202031394241,
  0x494E2052455454454C204C4C414D532045454B4F524548432020302E3820232020202020202020202032433331203B202020202020202020202020202020202064657070616D203B2020202020202020202032394241,
  0x4F4E2052455454454C204C4C414D532045454B4F524548432020302E3820232020202020202020202033433331203B202020202020202020202020202020202064657070616D203B2020202020202020202033394241,
  0x554E2052455454454C204C4C414D532045454B4F524548432020302E3820232020202020202020202034433331203B202020202020202020202020202020202064657070616D203B2020202020202020202034394241,
  0x564E2052455454454C204C4C414D532045454B4F524548432020302E3820232020202020202020202035433331203B202020202020202020202020202020202064657070616D203B2020202020202020202035394241,
  0x4155512052455454454C204C4C414D532045454B4F524548432020302E3820232020202020202020202036433331203B202020202020202020202020202020202064657070616D203B2020202020202020202036394241,
  0x4555512052455454454C204C4C414D532045454B4F524548432020302E3820232020202020202020202037433331203B202020202020202020202020202020202064657070616D203B2020202020202020202037394241,
  0x4955512052455454454C204C4C414D532045454B4F524548432020302E3820232020202020202020202038433331203B202020202020202020202020202020202064657070616D203B2020202020202020202038394241,
  0x4F55512052455454454C204C4C414D532045454B4F524548432020302E3820232020202020202020202039433331203B202020202020202020202020202020202064657070616D203B2020202020202020202039394241,
  0x5555512052455454454C204C4C414D532045454B4F524548432020302E3820232020202020202020202041433331203B202020202020202020202020202020202064657070616D203B2020202020202020202041394241,
  0x5655512052455454454C204C4C414D532045454B4F524548432020302E3820232020202020202020202042433331203B202020202020202020202020202020202064657070616D203B2020202020202020202042394241,
  0x41532052455454454C204C4C414D532045454B4F524548432020302E3820232020202020202020202043433331203B202020202020202020202020202020202064657070616D203B2020202020202020202043394241,
  0x532052455454454C204C4C414D532045454B4F524548432020302E3820232020202020202020202044433331203B202020202020202020202020202020202064657070616D203B2020202020202020202044394241,
  0x45532052455454454C204C4C414D532045454B4F524548432020302E3820232020202020202020202045433331203B202020202020202020202020202020202064657070616D203B2020202020202020202045394241,
  0x49532052455454454C204C4C414D532045454B4F524548432020302E3820232020202020202020202046433331203B202020202020202020202020202020202064657070616D203B2020202020202020202046394241,
  0x4F532052455454454C204C4C414D532045454B4F524548432020302E3820232020202020202020202030443331203B202020202020202020202020202020202064657070616D203B2020202020202020202030414241,
  0x55532052455454454C204C4C414D532045454B4F524548432020302E3820232020202020202020202031443331203B202020202020202020202020202020202064657070616D203B2020202020202020202031414241,
  0x56532052455454454C204C4C414D532045454B4F524548432020302E3820232020202020202020202032443331203B202020202020202020202020202020202064657070616D203B2020202020202020202032414241,
  0x41442052455454454C204C4C414D532045454B4F524548432020302E3820232020202020202020202033443331203B202020202020202020202020202020202064657070616D203B2020202020202020202033414241,
  0x41542052455454454C204C4C414D532045454B4F524548432020302E3820232020202020202020202034443331203B202020202020202020202020202020202064657070616D203B2020202020202020202034414241,
  0x45442052455454454C204C4C414D532045454B4F524548432020302E3820232020202020202020202035443331203B202020202020202020202020202020202064657070616D203B2020202020202020202035414241,
  0x45542052455454454C204C4C414D532045454B4F524548432020302E3820232020202020202020202036443331203B202020202020202020202020202020202064657070616D203B2020202020202020202036414241,
  0x49442052455454454C204C4C414D532045454B4F524548432020302E3820232020202020202020202037443331203B202020202020202020202020202020202064657070616D203B2020202020202020202037414241,
  0x49542052455454454C204C4C414D532045454B4F524548432020302E3820232020202020202020202038443331203B202020202020202020202020202020202064657070616D203B2020202020202020202038414241,
  0x4F442052455454454C204C4C414D532045454B4F524548432020302E3820232020202020202020202039443331203B202020202020202020202020202020202064657070616D203B2020202020202020202039414241,
  0x55442052455454454C204C4C414D532045454B4F524548432020302E3820232020202020202020202041443331203B202020202020202020202020202020202064657070616D203B2020202020202020202041414241,
  0x56442052455454454C204C4C414D532045454B4F524548432020302E3820232020202020202020202042443331203B202020202020202020202020202020202064657070616D203B2020202020202020202042414241,
  0x414C442052455454454C204C4C414D532045454B4F524548432020302E3820232020202020202020202043443331203B202020202020202020202020202020202064657070616D203B2020202020202020202043414241,
  0x414C542052455454454C204C4C414D532045454B4F524548432020302E3820232020202020202020202044443331203B202020202020202020202020202020202064657070616D203B2020202020202020202044414241,
  0x454C542052455454454C204C4C414D532045454B4F524548432020302E3820232020202020202020202045443331203B202020202020202020202020202020202064657070616D203B2020202020202020202045414241,
  0x494C542052455454454C204C4C414D532045454B4F524548432020302E3820232020202020202020202046443331203B202020202020202020202020202020202064657070616D203B2020202020202020202046414241,
  0x4F4C542052455454454C204C4C414D532045454B4F524548432020302E3820232020202020202020202030453331203B202020202020202020202020202020202064657070616D203B2020202020202020202030424241,
  0x554C542052455454454C204C4C414D532045454B4F524548432020302E3820232020202020202020202031453331203B202020202020202020202020202020202064657070616D203B2020202020202020202031424241,
  0x564C542052455454454C204C4C414D532045454B4F524548432020302E3820232020202020202020202032453331203B202020202020202020202020202020202064657070616D203B2020202020202020202032424241,
  0x4153542052455454454C204C4C414D532045454B4F524548432020302E3820232020202020202020202033453331203B202020202020202020202020202020202064657070616D203B2020202020202020202033424241,
  0x4553542052455454454C204C4C414D532045454B4F524548432020302E3820232020202020202020202034453331203B202020202020202020202020202020202064657070616D203B2020202020202020202034424241,
  0x4953542052455454454C204C4C414D532045454B4F524548432020302E3820232020202020202020202035453331203B202020202020202020202020202020202064657070616D203B2020202020202020202035424241,
  0x4F53542052455454454C204C4C414D532045454B4F524548432020302E3820232020202020202020202036453331203B202020202020202020202020202020202064657070616D203B2020202020202020202036424241,
  0x5553542052455454454C204C4C414D532045454B4F524548432020302E3820232020202020202020202037453331203B202020202020202020202020202020202064657070616D203B2020202020202020202037424241,
  0x5653542052455454454C204C4C414D532045454B4F524548432020302E3820232020202020202020202038453331203B202020202020202020202020202020202064657070616D203B2020202020202020202038424241,
  0x41572052455454454C204C4C414D532045454B4F524548432020302E3820232020202020202020202039453331203B202020202020202020202020202020202064657070616D203B2020202020202020202039424241,
  0x45572052455454454C204C4C414D532045454B4F524548432020302E3820232020202020202020202041453331203B202020202020202020202020202020202064657070616D203B2020202020202020202041424241,
  0x49572052455454454C204C4C414D532045454B4F524548432020302E3820232020202020202020202042453331203B202020202020202020202020202020202064657070616D203B2020202020202020202042424241,
  0x4F572052455454454C204C4C414D532045454B4F524548432020302E3820232020202020202020202043453331203B202020202020202020202020202020202064657070616D203B2020202020202020202043424241,
  0x55572052455454454C204C4C414D532045454B4F524548432020302E3820232020202020202020202044453331203B202020202020202020202020202020202064657070616D203B2020202020202020202044424241,
  0x56572052455454454C204C4C414D532045454B4F524548432020302E3820232020202020202020202045453331203B202020202020202020202020202020202064657070616D203B2020202020202020202045424241,
  0x41592052455454454C204C4C414D532045454B4F524548432020302E3820232020202020202020202046453331203B202020202020202020202020202020202064657070616D203B2020202020202020202046424241,
  0x474E554E204E474953204C45574F56204B4559414D2049455445454D2E2E4B4F4B2052455454454C204B4559414D2049455445454D2020322E3520232020202020202020202020202020202020202020202020202020202020202020202064696C6176203B20202020414542412E2E30434241,
  0x4945484B49454843204B4559414D2049455445454D2020322E3520232020202038564E203B2020202020203B20202020202020202020202020202020202064696C6176203B2020202020202020202042454241,
  0x4B455949204E555041204B4559414D2049455445454D2E2E4B455949204D554C204B4559414D2049455445454D2020322E3520232020202020202020202020202020202020202020202020202020202020202020202064696C6176203B20202020444542412E2E43454241,
  0x3E464542412D64657672657365723C2E2E3E454542412D64657672657365723C202020414E202320202020202020202020202020202020202020202020202020202020206465776F6C6C61736964203B20202020464542412E2E45454241,
  0x454E494E205449474944204B4559414D2049455445454D2E2E4F52455A205449474944204B4559414D2049455445454D2020322E3520232020202020202020202020202020202020202020202020202020202020202020202064696C6176203B20202020394642412E2E30464241,
  0x3E464642412D64657672657365723C2E2E3E414642412D64657672657365723C202020414E202320202020202020202020202020202020202020202020202020202020206465776F6C6C61736964203B20202020464642412E2E41464241,
  0x48494820454C42414C4C5953204C55474E41482E2E414720454C42414C4C5953204C55474E41482020302E3220232020202020202020202020202020202020202020202020202020202020202020202064696C6176203B20202020334137442E2E30304341,
  0x3E464137442D64657672657365723C2E2E3E344137442D64657672657365723C202020414E202320202020202020202020202020202020202020202020202020202020206465776F6C6C61736964203B20202020464137442E2E34413744,
  0x452D414541524120474E4F4553474E554A204C55474E41482E2E4F45592D4F20474E4F4553474E554A204C55474E41482020322E3520232020202038564E203B2020202020203B20202020202020202020202020202020202064696C6176203B20202020364337442E2E30423744,
  0x3E414337442D64657672657365723C2E2E3E374337442D64657672657365723C202020414E202320202020202020202020202020202020202020202020202020202020206465776F6C6C61736964203B20202020414337442E2E37433744,
  0x485455454948542D4850554549485020474E4F4553474E4F4A204C55474E41482E2E4C554549522D4E5545494E20474E4F4553474E4F4A204C55474E41482020322E3520232020202038564E203B2020202020203B20202020202020202020202020202020202064696C6176203B20202020424637442E2E42433744,
  0x3E464637442D64657672657365723C2E2E3E434637442D64657672657365723C202020414E202320202020202020202020202020202020202020202020202020202020206465776F6C6C61736964203B20202020464637442E2E43463744,
  0x3E464646442D657461676F727275733C2E2E3E303038442D657461676F727275733C2020302E32202320202020202020202020202020202020202020202020202020202020206465776F6C6C61736964203B20202020464646442E2E30303844,
  0x3E464638462D6573752D657461766972703C2E2E3E303030452D6573752D657461766972703C2020312E31202320202020202020202020202020202020202020202020202020202020206465776F6C6C61736964203B20202020464638462E2E30303045,
  0x303039462D48504152474F454449205954494C4942495441504D4F43204B4A432020312E3120232020202020202020202038344338203B202020202020202020202020202020202064657070616D203B2020202020202020202030303946,
  0x313039462D48504152474F454449205954494C4942495441504D4F43204B4A432020312E3120232020202020202020202034463636203B202020202020202020202020202020202064657070616D203B2020202020202020202031303946,
  0x323039462D48504152474F454449205954494C4942495441504D4F43204B4A432020312E3120232020202020202020202041434538203B202020202020202020202020202020202064657070616D203B2020202020202020202032303946,
  0x333039462D48504152474F454449205954494C4942495441504D4F43204B4A432020312E3120232020202020202020202038434338203B202020202020202020202020202020202064657070616D203B2020202020202020202033303946,
  0x343039462D48504152474F454449205954494C4942495441504D4F43204B4A432020312E3120232020202020202020202031444536203B202020202020202020202020202020202064657070616D203B2020202020202020202034303946,
  0x353039462D48504152474F454449205954494C4942495441504D4F43204B4A432020312E3120232020202020202020202032334534203B202020202020202020202020202020202064657070616D203B2020202020202020202035303946,
  0x363039462D48504152474F454449205954494C4942495441504D4F43204B4A432020312E3120232020202020202020202035453335203B202020202020202020202020202020202064657070616D203B2020202020202020202036303946,
  0x383039462D48504152474F454449205954494C4942495441504D4F43204B4A432E2E373039462D48504152474F454449205954494C4942495441504D4F43204B4A432020312E3120232020202020202020202043394639203B202020202020202020202020202020202064657070616D203B20202020383039462E2E37303946,
  0x393039462D48504152474F454449205954494C4942495441504D4F43204B4A432020312E3120232020202020202020202031353935203B202020202020202020202020202020202064657070616D203B2020202020202020202039303946,
  0x413039462D48504152474F454449205954494C4942495441504D4F43204B4A432020312E3120232020202020202020202031443139203B202020202020202020202020202020202064657070616D203B2020202020202020202041303946,
  0x423039462D48504152474F454449205954494C4942495441504D4F43204B4A432020312E3120232020202020202020202037383535203B202020202020202020202020202020202064657070616D203B2020202020202020202042303946,
  0x433039462D48504152474F454449205954494C4942495441504D4F43204B4A432020312E3120232020202020202020202038343935203B202020202020202020202020202020202064657070616D203B2020202020202020202043303946,
  0x443039462D48504152474F454449205954494C4942495441504D4F43204B4A432020312E3120232020202020202020202036463136203B202020202020202020202020202020202064657070616D203B2020202020202020202044303946,
  0x453039462D48504152474F454449205954494C4942495441504D4F43204B4A432020312E3120232020202020202020202039363637203B202020202020202020202020202020202064657070616D203B2020202020202020202045303946,
  0x463039462D48504152474F454449205954494C4942495441504D4F43204B4A432020312E3120232020202020202020202035384637203B202020202020202020202020202020202064657070616D203B2020202020202020202046303946,
  0x303139462D48504152474F454449205954494C4942495441504D4F43204B4A432020312E3120232020202020202020202046333638203B202020202020202020202020202020202064657070616D203B2020202020202020202030313946,
  0x313139462D48504152474F454449205954494C4942495441504D4F43204B4A432020312E3120232020202020202020202041423738203B202020202020202020202020202020202064657070616D203B2020202020202020202031313946,
  0x323139462D48504152474F454449205954494C4942495441504D4F43204B4A432020312E3120232020202020202020202038463838203B202020202020202020202020202020202064657070616D203B2020202020202020202032313946,
  0x333139462D48504152474F454449205954494C4942495441504D4F43204B4A432020312E3120232020202020202020202046383039203B202020202020202020202020202020202064657070616D203B2020202020202020202033313946,
  0x343139462D48504152474F454449205954494C4942495441504D4F43204B4A432020312E3120232020202020202020202032304136203B202020202020202020202020202020202064657070616D203B2020202020202020202034313946,
  0x353139462D48504152474F454449205954494C4942495441504D4F43204B4A432020312E3120232020202020202020202042314436203B202020202020202020202020202020202064657070616D203B2020202020202020202035313946,
  0x363139462D48504152474F454449205954494C4942495441504D4F43204B4A432020312E3120232020202020202020202039443037203B202020202020202020202020202020202064657070616D203B2020202020202020202036313946,
  0x373139462D48504152474F454449205954494C4942495441504D4F43204B4A432020312E3120232020202020202020202045443337203B202020202020202020202020202020202064657070616D203B2020202020202020202037313946,
  0x383139462D48504152474F454449205954494C4942495441504D4F43204B4A432020312E3120232020202020202020202044333438203B202020202020202020202020202020202064657070616D203B2020202020202020202038313946,
  0x393139462D48504152474F454449205954494C4942495441504D4F43204B4A432020312E3120232020202020202020202041363139203B202020202020202020202020202020202064657070616D203B2020202020202020202039313946,
  0x413139462D48504152474F454449205954494C4942495441504D4F43204B4A432020312E3120232020202020202020202031463939203B202020202020202020202020202020202064657070616D203B2020202020202020202041313946,
  0x423139462D48504152474F454449205954494C4942495441504D4F43204B4A432020312E3120232020202020202020202032384534203B202020202020202020202020202020202064657070616D203B2020202020202020202042313946,
  0x433139462D48504152474F454449205954494C4942495441504D4F43204B4A432020312E3120232020202020202020202035373335203B202020202020202020202020202020202064657070616D203B2020202020202020202043313946,
  0x443139462D48504152474F454449205954494C4942495441504D4F43204B4A432020312E3120232020202020202020202034304236203B202020202020202020202020202020202064657070616D203B2020202020202020202044313946,
  0x453139462D48504152474F454449205954494C4942495441504D4F43204B4A432020312E3120232020202020202020202042313237203B202020202020202020202020202020202064657070616D203B2020202020202020202045313946,
  0x463139462D48504152474F454449205954494C4942495441504D4F43204B4A432020312E3120232020202020202020202044323638203B202020202020202020202020202020202064657070616D203B2020202020202020202046313946,
  0x303239462D48504152474F454449205954494C4942495441504D4F43204B4A432020312E3120232020202020202020202045314539203B202020202020202020202020202020202064657070616D203B2020202020202020202030323946,
  0x313239462D48504152474F454449205954494C4942495441504D4F43204B4A432020312E3120232020202020202020202030354435203B202020202020202020202020202020202064657070616D203B2020202020202020202031323946,
  0x323239462D48504152474F454449205954494C4942495441504D4F43204B4A432020312E3120232020202020202020202042454636203B202020202020202020202020202020202064657070616D203B2020202020202020202032323946,
  0x333239462D48504152474F454449205954494C4942495441504D4F43204B4A432020312E3120232020202020202020202044433538203B202020202020202020202020202020202064657070616D203B2020202020202020202033323946,
  0x343239462D48504152474F454449205954494C4942495441504D4F43204B4A432020312E3120232020202020202020202034363938203B202020202020202020202020202020202064657070616D203B2020202020202020202034323946,
  0x353239462D48504152474F454449205954494C4942495441504D4F43204B4A432020312E3120232020202020202020202039433236203B202020202020202020202020202020202064657070616D203B2020202020202020202035323946,
  0x363239462D48504152474F454449205954494C4942495441504D4F43204B4A432020312E3120232020202020202020202038443138203B202020202020202020202020202020202064657070616D203B2020202020202020202036323946,
  0x373239462D48504152474F454449205954494C4942495441504D4F43204B4A432020312E3120232020202020202020202046313838203B202020202020202020202020202020202064657070616D203B2020202020202020202037323946,
  0x383239462D48504152474F454449205954494C4942495441504D4F43204B4A432020312E3120232020202020202020202041434535203B202020202020202020202020202020202064657070616D203B2020202020202020202038323946,
  0x393239462D48504152474F454449205954494C4942495441504D4F43204B4A432020312E3120232020202020202020202037313736203B202020202020202020202020202020202064657070616D203B2020202020202020202039323946,
  0x413239462D48504152474F454449205954494C4942495441504D4F43204B4A432020312E3120232020202020202020202041364436203B202020202020202020202020202020202064657070616D203B2020202020202020202041323946,
  0x423239462D48504152474F454449205954494C4942495441504D4F43204B4A432020312E3120232020202020202020202043463237203B202020202020202020202020202020202064657070616D203B2020202020202020202042323946,
  0x433239462D48504152474F454449205954494C4942495441504D4F43204B4A432020312E3120232020202020202020202045433039203B202020202020202020202020202020202064657070616D203B2020202020202020202043323946,
  0x443239462D48504152474F454449205954494C4942495441504D4F43204B4A432020312E3120232020202020202020202036384634203B202020202020202020202020202020202064657070616D203B2020202020202020202044323946,
  0x453239462D48504152474F454449205954494C4942495441504D4F43204B4A432020312E3120232020202020202020202037423135203B202020202020202020202020202020202064657070616D203B2020202020202020202045323946,
  0x463239462D48504152474F454449205954494C4942495441504D4F43204B4A432020312E3120232020202020202020202045443235203B202020202020202020202020202020202064657070616D203B2020202020202020202046323946,
  0x303339462D48504152474F454449205954494C4942495441504D4F43204B4A432020312E3120232020202020202020202034433436203B202020202020202020202020202020202064657070616D203B2020202020202020202030333946,
  0x313339462D48504152474F454449205954494C4942495441504D4F43204B4A432020312E3120232020202020202020202033444136203B202020202020202020202020202020202064657070616D203B2020202020202020202031333946,
  0x323339462D48504152474F454449205954494C4942495441504D4F43204B4A432020312E3120232020202020202020202030313237203B202020202020202020202020202020202064657070616D203B2020202020202020202032333946,
  0x333339462D48504152474F454449205954494C4942495441504D4F43204B4A432020312E3120232020202020202020202037453637203B202020202020202020202020202020202064657070616D203B2020202020202020202033333946,
  0x343339462D48504152474F454449205954494C4942495441504D4F43204B4A432020312E3120232020202020202020202031303038203B202020202020202020202020202020202064657070616D203B2020202020202020202034333946,
  0x353339462D48504152474F454449205954494C4942495441504D4F43204B4A432020312E3120232020202020202020202036303638203B202020202020202020202020202020202064657070616D203B2020202020202020202035333946,
  0x363339462D48504152474F454449205954494C4942495441504D4F43204B4A432020312E3120232020202020202020202043353638203B202020202020202020202020202020202064657070616D203B2020202020202020202036333946,
  0x373339462D48504152474F454449205954494C4942495441504D4F43204B4A432020312E3120232020202020202020202046454438203B202020202020202020202020202020202064657070616D203B2020202020202020202037333946,
  0x383339462D48504152474F454449205954494C4942495441504D4F43204B4A432020312E3120232020202020202020202032333739203B202020202020202020202020202020202064657070616D203B2020202020202020202038333946,
  0x393339462D48504152474F454449205954494C4942495441504D4F43204B4A432020312E3120232020202020202020202046364239203B202020202020202020202020202020202064657070616D203B2020202020202020202039333946,
  0x413339462D48504152474F454449205954494C4942495441504D4F43204B4A432020312E3120232020202020202020202041464439203B202020202020202020202020202020202064657070616D203B2020202020202020202041333946,
  0x423339462D48504152474F454449205954494C4942495441504D4F43204B4A432020312E3120232020202020202020202043383837203B202020202020202020202020202020202064657070616D203B2020202020202020202042333946,
  0x433339462D48504152474F454449205954494C4942495441504D4F43204B4A432020312E3120232020202020202020202046373937203B202020202020202020202020202020202064657070616D203B2020202020202020202043333946,
  0x443339462D48504152474F454449205954494C4942495441504D4F43204B4A432020312E3120232020202020202020202030414437203B202020202020202020202020202020202064657070616D203B2020202020202020202044333946,
  0x453339462D48504152474F454449205954494C4942495441504D4F43204B4A432020312E3120232020202020202020202039433338203B202020202020202020202020202020202064657070616D203B2020202020202020202045333946,
  0x463339462D48504152474F454449205954494C4942495441504D4F43204B4A432020312E3120232020202020202020202034303339203B202020202020202020202020202020202064657070616D203B2020202020202020202046333946,
  0x303439462D48504152474F454449205954494C4942495441504D4F43204B4A432020312E3120232020202020202020202046374539203B202020202020202020202020202020202064657070616D203B2020202020202020202030343946,
  0x313439462D48504152474F454449205954494C4942495441504D4F43204B4A432020312E3120232020202020202020202036444138203B202020202020202020202020202020202064657070616D203B2020202020202020202031343946,
  0x323439462D48504152474F454449205954494C4942495441504D4F43204B4A432020312E3120232020202020202020202046443835203B202020202020202020202020202020202064657070616D203B2020202020202020202032343946,
  0x333439462D48504152474F454449205954494C4942495441504D4F43204B4A432020312E3120232020202020202020202034304635203B202020202020202020202020202020202064657070616D203B2020202020202020202033343946,
  0x343439462D48504152474F454449205954494C4942495441504D4F43204B4A432020312E3120232020202020202020202030364337203B202020202020202020202020202020202064657070616D203B2020202020202020202034343946,
  0x353439462D48504152474F454449205954494C4942495441504D4F43204B4A432020312E3120232020202020202020202045373038203B202020202020202020202020202020202064657070616D203B2020202020202020202035343946,
  0x363439462D48504152474F454449205954494C4942495441504D4F43204B4A432020312E3120232020202020202020202032363237203B202020202020202020202020202020202064657070616D203B2020202020202020202036343946,
  0x373439462D48504152474F454449205954494C4942495441504D4F43204B4A432020312E3120232020202020202020202041433837203B202020202020202020202020202020202064657070616D203B2020202020202020202037343946,
  0x383439462D48504152474F454449205954494C4942495441504D4F43204B4A432020312E3120232020202020202020202032434338203B202020202020202020202020202020202064657070616D203B2020202020202020202038343946,
  0x393439462D48504152474F454449205954494C4942495441504D4F43204B4A432020312E3120232020202020202020202037463639203B202020202020202020202020202020202064657070616D203B2020202020202020202039343946,
  0x413439462D48504152474F454449205954494C4942495441504D4F43204B4A432020312E3120232020202020202020202038443835203B202020202020202020202020202020202064657070616D203B2020202020202020202041343946,
  0x423439462D48504152474F454449205954494C4942495441504D4F43204B4A432020312E3120232020202020202020202032364335203B202020202020202020202020202020202064657070616D203B2020202020202020202042343946,
  0x433439462D48504152474F454449205954494C4942495441504D4F43204B4A432020312E3120232020202020202020202033314136203B202020202020202020202020202020202064657070616D203B2020202020202020202043343946,
  0x443439462D48504152474F454449205954494C4942495441504D4F43204B4A432020312E3120232020202020202020202041444436203B202020202020202020202020202020202064657070616D203B2020202020202020202044343946,
  0x453439462D48504152474F454449205954494C4942495441504D4F43204B4A432020312E3120232020202020202020202046304636203B202020202020202020202020202020202064657070616D203B2020202020202020202045343946,
  0x463439462D48504152474F454449205954494C4942495441504D4F43204B4A432020312E3120232020202020202020202046324437203B202020202020202020202020202020202064657070616D203B2020202020202020202046343946,
  0x303539462D48504152474F454449205954494C4942495441504D4F43204B4A432020312E3120232020202020202020202037334537203B202020202020202020202020202020202064657070616D203B2020202020202020202030353946,
  0x313539462D48504152474F454449205954494C4942495441504D4F43204B4A432020312E3120232020202020202020202042343639203B202020202020202020202020202020202064657070616D203B2020202020202020202031353946,
  0x323539462D48504152474F454449205954494C4942495441504D4F43204B4A432020312E3120232020202020202020202032443235203B202020202020202020202020202020202064657070616D203B2020202020202020202032353946,
  0x333539462D48504152474F454449205954494C4942495441504D4F43204B4A432020312E3120232020202020202020202042383038203B202020202020202020202020202020202064657070616D203B2020202020202020202033353946,
  0x343539462D48504152474F454449205954494C4942495441504D4F43204B4A432020312E3120232020202020202020202043443135203B202020202020202020202020202020202064657070616D203B2020202020202020202034353946,
  0x353539462D48504152474F454449205954494C4942495441504D4F43204B4A432020312E3120232020202020202020202043433135203B202020202020202020202020202020202064657070616D203B2020202020202020202035353946,
  0x363539462D48504152474F454449205954494C4942495441504D4F43204B4A432020312E3120232020202020202020202043314137203B202020202020202020202020202020202064657070616D203B2020202020202020202036353946,
  0x373539462D48504152474F454449205954494C4942495441504D4F43204B4A432020312E3120232020202020202020202045424437203B202020202020202020202020202020202064657070616D203B2020202020202020202037353946,
  0x383539462D48504152474F454449205954494C4942495441504D4F43204B4A432020312E3120232020202020202020202031463338203B202020202020202020202020202020202064657070616D203B2020202020202020202038353946,
  0x393539462D48504152474F454449205954494C4942495441504D4F43204B4A432020312E3120232020202020202020202035373639203B202020202020202020202020202020202064657070616D203B2020202020202020202039353946,
  0x413539462D48504152474F454449205954494C4942495441504D4F43204B4A432020312E3120232020202020202020202030384238203B202020202020202020202020202020202064657070616D203B2020202020202020202041353946,
  0x423539462D48504152474F454449205954494C4942495441504D4F43204B4A432020312E3120232020202020202020202046433236203B202020202020202020202020202020202064657070616D203B2020202020202020202042353946,
  0x433539462D48504152474F454449205954494C4942495441504D4F43204B4A432020312E3120232020202020202020202032304136203B202020202020202020202020202020202064657070616D203B2020202020202020202043353946,
  0x443539462D48504152474F454449205954494C4942495441504D4F43204B4A432020312E3120232020202020202020202045464138203B202020202020202020202020202020202064657070616D203B2020202020202020202044353946,
  0x453539462D48504152474F454449205954494C4942495441504D4F43204B4A432020312E3120232020202020202020202039334534203B202020202020202020202020202020202064657070616D203B2020202020202020202045353946,
  0x463539462D48504152474F454449205954494C4942495441504D4F43204B4A432020312E3120232020202020202020202037454235203B202020202020202020202020202020202064657070616D203B2020202020202020202046353946,
  0x303639462D48504152474F454449205954494C4942495441504D4F43204B4A432020312E3120232020202020202020202032313036203B202020202020202020202020202020202064657070616D203B2020202020202020202030363946,
  0x313639462D48504152474F454449205954494C4942495441504D4F43204B4A432020312E3120232020202020202020202037383337203B202020202020202020202020202020202064657070616D203B2020202020202020202031363946,
  0x323639462D48504152474F454449205954494C4942495441504D4F43204B4A432020312E3120232020202020202020202030373537203B202020202020202020202020202020202064657070616D203B2020202020202020202032363946,
  0x333639462D48504152474F454449205954494C4942495441504D4F43204B4A432020312E3120232020202020202020202037313335203B202020202020202020202020202020202064657070616D203B2020202020202020202033363946,
  0x343639462D48504152474F454449205954494C4942495441504D4F43204B4A432020312E3120232020202020202020202042463837203B202020202020202020202020202020202064657070616D203B2020202020202020202034363946,
  0x353639462D48504152474F454449205954494C4942495441504D4F43204B4A432020312E3120232020202020202020202046424634203B202020202020202020202020202020202064657070616D203B2020202020202020202035363946,
  0x363639462D48504152474F454449205954494C4942495441504D4F43204B4A432020312E3120232020202020202020202039414635203B202020202020202020202020202020202064657070616D203B2020202020202020202036363946,
  0x373639462D48504152474F454449205954494C4942495441504D4F43204B4A432020312E3120232020202020202020202044304534203B202020202020202020202020202020202064657070616D203B2020202020202020202037363946,
  0x383639462D48504152474F454449205954494C4942495441504D4F43204B4A432020312E3120232020202020202020202043434336203B202020202020202020202020202020202064657070616D203B2020202020202020202038363946,
  0x393639462D48504152474F454449205954494C4942495441504D4F43204B4A432020312E3120232020202020202020202038373536203B202020202020202020202020202020202064657070616D203B2020202020202020202039363946,
  0x413639462D48504152474F454449205954494C4942495441504D4F43204B4A432020312E3120232020202020202020202032324437203B202020202020202020202020202020202064657070616D203B2020202020202020202041363946,
  0x423639462D48504152474F454449205954494C4942495441504D4F43204B4A432020312E3120232020202020202020202033433335203B202020202020202020202020202020202064657070616D203B2020202020202020202042363946,
  0x433639462D48504152474F454449205954494C4942495441504D4F43204B4A432020312E3120232020202020202020202045353835203B202020202020202020202020202020202064657070616D203B2020202020202020202043363946,
  0x443639462D48504152474F454449205954494C4942495441504D4F43204B4A432020312E3120232020202020202020202031303737203B202020202020202020202020202020202064657070616D203B2020202020202020202044363946,
  0x453639462D48504152474F454449205954494C4942495441504D4F43204B4A432020312E3120232020202020202020202039343438203B202020202020202020202020202020202064657070616D203B2020202020202020202045363946,
  0x463639462D48504152474F454449205954494C4942495441504D4F43204B4A432020312E3120232020202020202020202041414138203B202020202020202020202020202020202064657070616D203B2020202020202020202046363946,
  0x303739462D48504152474F454449205954494C4942495441504D4F43204B4A432020312E3120232020202020202020202041424236203B202020202020202020202020202020202064657070616D203B2020202020202020202030373946,
  0x313739462D48504152474F454449205954494C4942495441504D4F43204B4A432020312E3120232020202020202020202030424638203B202020202020202020202020202020202064657070616D203B2020202020202020202031373946,
  0x323739462D48504152474F454449205954494C4942495441504D4F43204B4A432020312E3120232020202020202020202038384336203B202020202020202020202020202020202064657070616D203B2020202020202020202032373946,
  0x333739462D48504152474F454449205954494C4942495441504D4F43204B4A432020312E3120232020202020202020202045463236203B202020202020202020202020202020202064657070616D203B2020202020202020202033373946,
  0x343739462D48504152474F454449205954494C4942495441504D4F43204B4A432020312E3120232020202020202020202035453238203B202020202020202020202020202020202064657070616D203B2020202020202020202034373946,
  0x353739462D48504152474F454449205954494C4942495441504D4F43204B4A432020312E3120232020202020202020202030413336203B202020202020202020202020202020202064657070616D203B2020202020202020202035373946,
  0x363739462D48504152474F454449205954494C4942495441504D4F43204B4A432020312E3120232020202020202020202035363537203B202020202020202020202020202020202064657070616D203B2020202020202020202036373946,
  0x373739462D48504152474F454449205954494C4942495441504D4F43204B4A432020312E3120232020202020202020202045414534203B202020202020202020202020202020202064657070616D203B2020202020202020202037373946,
  0x383739462D48504152474F454449205954494C4942495441504D4F43204B4A432020312E3120232020202020202020202039363135203B202020202020202020202020202020202064657070616D203B2020202020202020202038373946,
  0x393739462D48504152474F454449205954494C4942495441504D4F43204B4A432020312E3120232020202020202020202039433135203B202020202020202020202020202020202064657070616D203B2020202020202020202039373946,
  0x413739462D48504152474F454449205954494C4942495441504D4F43204B4A432020312E3120232020202020202020202031383836203B202020202020202020202020202020202064657070616D203B2020202020202020202041373946,
  0x423739462D48504152474F454449205954494C4942495441504D4F43204B4A432020312E3120232020202020202020202037454337203B202020202020202020202020202020202064657070616D203B2020202020202020202042373946,
  0x433739462D48504152474F454449205954494C4942495441504D4F43204B4A432020312E3120232020202020202020202046363238203B202020202020202020202020202020202064657070616D203B2020202020202020202043373946,
  0x443739462D48504152474F454449205954494C4942495441504D4F43204B4A432020312E3120232020202020202020202032444138203B202020202020202020202020202020202064657070616D203B2020202020202020202044373946,
  0x453739462D48504152474F454449205954494C4942495441504D4F43204B4A432020312E3120232020202020202020202046433139203B202020202020202020202020202020202064657070616D203B2020202020202020202045373946,
  0x463739462D48504152474F454449205954494C4942495441504D4F43204B4A432020312E3120232020202020202020202035463235203B202020202020202020202020202020202064657070616D203B2020202020202020202046373946]

def mapText18 : List Nat := [
  0x303839462D48504152474F454449205954494C4942495441504D4F43204B4A432020312E3120232020202020202020202032343435203B202020202020202020202020202020202064657070616D203B2020202020202020202030383946,
  0x313839462D48504152474F454449205954494C4942495441504D4F43204B4A432020312E3120232020202020202020202033373935203B202020202020202020202020202020202064657070616D203B2020202020202020202031383946,
  0x323839462D48504152474F454449205954494C4942495441504D4F43204B4A432020312E3120232020202020202020202043454535203B202020202020202020202020202020202064657070616D203B2020202020202020202032383946,
  0x333839462D48504152474F454449205954494C4942495441504D4F43204B4A432020312E3120232020202020202020202035433536203B202020202020202020202020202020202064657070616D203B2020202020202020202033383946,
  0x343839462D48504152474F454449205954494C4942495441504D4F43204B4A432020312E3120232020202020202020202045464636203B202020202020202020202020202020202064657070616D203B2020202020202020202034383946,
  0x353839462D48504152474F454449205954494C4942495441504D4F43204B4A432020312E3120232020202020202020202041323937203B202020202020202020202020202020202064657070616D203B2020202020202020202035383946,
  0x363839462D48504152474F454449205954494C4942495441504D4F43204B4A432020312E3120232020202020202020202044413539203B202020202020202020202020202020202064657070616D203B2020202020202020202036383946,
  0x373839462D48504152474F454449205954494C4942495441504D4F43204B4A432020312E3120232020202020202020202041364139203B202020202020202020202020202020202064657070616D203B2020202020202020202037383946,
  0x383839462D48504152474F454449205954494C4942495441504D4F43204B4A432020312E3120232020202020202020202037394539203B202020202020202020202020202020202064657070616D203B2020202020202020202038383946,
  0x393839462D48504152474F454449205954494C4942495441504D4F43204B4A432020312E3120232020202020202020202045434539203B202020202020202020202020202020202064657070616D203B2020202020202020202039383946,
  0x413839462D48504152474F454449205954494C4942495441504D4F43204B4A432020312E3120232020202020202020202042393235203B202020202020202020202020202020202064657070616D203B2020202020202020202041383946,
  0x423839462D48504152474F454449205954494C4942495441504D4F43204B4A432020312E3120232020202020202020202036433636203B202020202020202020202020202020202064657070616D203B2020202020202020202042383946,
  0x433839462D48504152474F454449205954494C4942495441504D4F43204B4A432020312E3120232020202020202020202037374236203B202020202020202020202020202020202064657070616D203B2020202020202020202043383946,
  0x443839462D48504152474F454449205954494C4942495441504D4F43204B4A432020312E3120232020202020202020202032364638203B202020202020202020202020202020202064657070616D203B2020202020202020202044383946,
  0x453839462D48504152474F454449205954494C4942495441504D4F43204B4A432020312E3120232020202020202020202034374535203B202020202020202020202020202020202064657070616D203B2020202020202020202045383946,
  0x463839462D48504152474F454449205954494C4942495441504D4F43204B4A432020312E3120232020202020202020202030393136203B202020202020202020202020202020202064657070616D203B2020202020202020202046383946,
  0x303939462D48504152474F454449205954494C4942495441504D4F43204B4A432020312E3120232020202020202020202030303236203B202020202020202020202020202020202064657070616D203B2020202020202020202030393946,
  0x313939462D48504152474F454449205954494C4942495441504D4F43204B4A432020312E3120232020202020202020202041393436203B202020202020202020202020202020202064657070616D203B2020202020202020202031393946,
  0x323939462D48504152474F454449205954494C4942495441504D4F43204B4A432020312E3120232020202020202020202033324636203B202020202020202020202020202020202064657070616D203B2020202020202020202032393946,
  0x333939462D48504152474F454449205954494C4942495441504D4F43204B4A432020312E3120232020202020202020202039343137203B202020202020202020202020202020202064657070616D203B2020202020202020202033393946,
  0x343939462D48504152474F454449205954494C4942495441504D4F43204B4A432020312E3120232020202020202020202039383437203B202020202020202020202020202020202064657070616D203B2020202020202020202034393946,
  0x353939462D48504152474F454449205954494C4942495441504D4F43204B4A432020312E3120232020202020202020202041433937203B202020202020202020202020202020202064657070616D203B2020202020202020202035393946,
  0x363939462D48504152474F454449205954494C4942495441504D4F43204B4A432020312E3120232020202020202020202034464437203B202020202020202020202020202020202064657070616D203B2020202020202020202036393946,
  0x373939462D48504152474F454449205954494C4942495441504D4F43204B4A432020312E3120232020202020202020202046363038203B202020202020202020202020202020202064657070616D203B2020202020202020202037393946,
  0x383939462D48504152474F454449205954494C4942495441504D4F43204B4A432020312E3120232020202020202020202036324638203B202020202020202020202020202020202064657070616D203B2020202020202020202038393946,
  0x393939462D48504152474F454449205954494C4942495441504D4F43204B4A432020312E3120232020202020202020202045453438203B202020202020202020202020202020202064657070616D203B2020202020202020202039393946,
  0x413939462D48504152474F454449205954494C4942495441504D4F43204B4A432020312E3120232020202020202020202033323039203B202020202020202020202020202020202064657070616D203B2020202020202020202041393946,
  0x423939462D48504152474F454449205954494C4942495441504D4F43204B4A432020312E3120232020202020202020202041343339203B202020202020202020202020202020202064657070616D203B2020202020202020202042393946,
  0x433939462D48504152474F454449205954494C4942495441504D4F43204B4A432020312E3120232020202020202020202037313235203B202020202020202020202020202020202064657070616D203B2020202020202020202043393946,
  0x443939462D48504152474F454449205954494C4942495441504D4F43204B4A432020312E3120232020202020202020202033413235203B202020202020202020202020202020202064657070616D203B2020202020202020202044393946,
  0x453939462D48504152474F454449205954494C4942495441504D4F43204B4A432020312E3120232020202020202020202044423435203B202020202020202020202020202020202064657070616D203B2020202020202020202045393946,
  0x463939462D48504152474F454449205954494C4942495441504D4F43204B4A432020312E3120232020202020202020202038433037203B202020202020202020202020202020202064657070616D203B2020202020202020202046393946,
  0x304139462D48504152474F454449205954494C4942495441504D4F43204B4A432020312E3120232020202020202020202032433838203B202020202020202020202020202020202064657070616D203B2020202020202020202030413946,
  0x314139462D48504152474F454449205954494C4942495441504D4F43204B4A432020312E3120232020202020202020202041414138203B202020202020202020202020202020202064657070616D203B2020202020202020202031413946,
  0x324139462D48504152474F454449205954494C4942495441504D4F43204B4A432020312E3120232020202020202020202039434535203B202020202020202020202020202020202064657070616D203B2020202020202020202032413946,
  0x334139462D48504152474F454449205954494C4942495441504D4F43204B4A432020312E3120232020202020202020202035464635203B202020202020202020202020202020202064657070616D203B2020202020202020202033413946,
  0x344139462D48504152474F454449205954494C4942495441504D4F43204B4A432020312E3120232020202020202020202042373336203B202020202020202020202020202020202064657070616D203B2020202020202020202034413946,
  0x354139462D48504152474F454449205954494C4942495441504D4F43204B4A432020312E3120232020202020202020202045414236203B202020202020202020202020202020202064657070616D203B2020202020202020202035413946,
  0x364139462D48504152474F454449205954494C4942495441504D4F43204B4A432020312E3120232020202020202020202045334337203B202020202020202020202020202020202064657070616D203B2020202020202020202036413946,
  0x374139462D48504152474F454449205954494C4942495441504D4F43204B4A432020312E3120232020202020202020202035373337203B202020202020202020202020202020202064657070616D203B2020202020202020202037413946,
  0x384139462D48504152474F454449205954494C4942495441504D4F43204B4A432020312E3120232020202020202020202034454534203B202020202020202020202020202020202064657070616D203B2020202020202020202038413946,
  0x394139462D48504152474F454449205954494C4942495441504D4F43204B4A432020312E3120232020202020202020202039463635203B202020202020202020202020202020202064657070616D203B2020202020202020202039413946,
  0x414139462D48504152474F454449205954494C4942495441504D4F43204B4A432020312E3120232020202020202020202037454235203B202020202020202020202020202020202064657070616D203B2020202020202020202041413946,
  0x424139462D48504152474F454449205954494C4942495441504D4F43204B4A432020312E3120232020202020202020202041424435203B202020202020202020202020202020202064657070616D203B2020202020202020202042413946,
  0x434139462D48504152474F454449205954494C4942495441504D4F43204B4A432020312E3120232020202020202020202043313036203B202020202020202020202020202020202064657070616D203B2020202020202020202043413946,
  0x444139462D48504152474F454449205954494C4942495441504D4F43204B4A432020312E3120232020202020202020202032423337203B202020202020202020202020202020202064657070616D203B2020202020202020202044413946,
  0x454139462D48504152474F454449205954494C4942495441504D4F43204B4A432020312E3120232020202020202020202039363437203B202020202020202020202020202020202064657070616D203B2020202020202020202045413946,
  0x464139462D48504152474F454449205954494C4942495441504D4F43204B4A432020312E3120232020202020202020202041394637203B202020202020202020202020202020202064657070616D203B2020202020202020202046413946,
  0x304239462D48504152474F454449205954494C4942495441504D4F43204B4A432020312E3120232020202020202020202036343038203B202020202020202020202020202020202064657070616D203B2020202020202020202030423946,
  0x314239462D48504152474F454449205954494C4942495441504D4F43204B4A432020312E3120232020202020202020202034333239203B202020202020202020202020202020202064657070616D203B2020202020202020202031423946,
  0x324239462D48504152474F454449205954494C4942495441504D4F43204B4A432020312E3120232020202020202020202036463639203B202020202020202020202020202020202064657070616D203B2020202020202020202032423946,
  0x334239462D48504152474F454449205954494C4942495441504D4F43204B4A432020312E3120232020202020202020202038343739203B202020202020202020202020202020202064657070616D203B2020202020202020202033423946,
  0x344239462D48504152474F454449205954494C4942495441504D4F43204B4A432020312E3120232020202020202020202038313839203B202020202020202020202020202020202064657070616D203B2020202020202020202034423946,
  0x354239462D48504152474F454449205954494C4942495441504D4F43204B4A432020312E3120232020202020202020202042384634203B202020202020202020202020202020202064657070616D203B2020202020202020202035423946,
  0x364239462D48504152474F454449205954494C4942495441504D4F43204B4A432020312E3120232020202020202020202045413937203B202020202020202020202020202020202064657070616D203B2020202020202020202036423946,
  0x374239462D48504152474F454449205954494C4942495441504D4F43204B4A432020312E3120232020202020202020202034423139203B202020202020202020202020202020202064657070616D203B2020202020202020202037423946,
  0x384239462D48504152474F454449205954494C4942495441504D4F43204B4A432020312E3120232020202020202020202038423639203B202020202020202020202020202020202064657070616D203B2020202020202020202038423946,
  0x394239462D48504152474F454449205954494C4942495441504D4F43204B4A432020312E3120232020202020202020202031453036203B202020202020202020202020202020202064657070616D203B2020202020202020202039423946,
  0x414239462D48504152474F454449205954494C4942495441504D4F43204B4A432020312E3120232020202020202020202036384534203B202020202020202020202020202020202064657070616D203B2020202020202020202041423946,
  0x424239462D48504152474F454449205954494C4942495441504D4F43204B4A432020312E3120232020202020202020202041443035203B202020202020202020202020202020202064657070616D203B2020202020202020202042423946,
  0x434239462D48504152474F454449205954494C4942495441504D4F43204B4A432020312E3120232020202020202020202045454235203B202020202020202020202020202020202064657070616D203B2020202020202020202043423946,
  0x444239462D48504152474F454449205954494C4942495441504D4F43204B4A432020312E3120232020202020202020202046334335203B202020202020202020202020202020202064657070616D203B2020202020202020202044423946,
  0x454239462D48504152474F454449205954494C4942495441504D4F43204B4A432020312E3120232020202020202020202039393536203B202020202020202020202020202020202064657070616D203B2020202020202020202045423946,
  0x464239462D48504152474F454449205954494C4942495441504D4F43204B4A432020312E3120232020202020202020202032304136203B202020202020202020202020202020202064657070616D203B2020202020202020202046423946,
  0x304339462D48504152474F454449205954494C4942495441504D4F43204B4A432020312E3120232020202020202020202045433137203B202020202020202020202020202020202064657070616D203B2020202020202020202030433946,
  0x314339462D48504152474F454449205954494C4942495441504D4F43204B4A432020312E3120232020202020202020202032343637203B202020202020202020202020202020202064657070616D203B2020202020202020202031433946,
  0x324339462D48504152474F454449205954494C4942495441504D4F43204B4A432020312E3120232020202020202020202043463438203B202020202020202020202020202020202064657070616D203B2020202020202020202032433946,
  0x334339462D48504152474F454449205954494C4942495441504D4F43204B4A432020312E3120232020202020202020202043373039203B202020202020202020202020202020202064657070616D203B2020202020202020202033433946,
  0x344339462D48504152474F454449205954494C4942495441504D4F43204B4A432020312E3120232020202020202020202044384639203B202020202020202020202020202020202064657070616D203B2020202020202020202034433946,
  0x354339462D48504152474F454449205954494C4942495441504D4F43204B4A432020312E3120232020202020202020202038383636203B202020202020202020202020202020202064657070616D203B2020202020202020202035433946,
  0x364339462D48504152474F454449205954494C4942495441504D4F43204B4A432020312E3120232020202020202020202045323639203B202020202020202020202020202020202064657070616D203B2020202020202020202036433946,
  0x374339462D48504152474F454449205954494C4942495441504D4F43204B4A432020312E3120232020202020202020202039383235203B202020202020202020202020202020202064657070616D203B2020202020202020202037433946,
  0x384339462D48504152474F454449205954494C4942495441504D4F43204B4A432020312E3120232020202020202020202042373736203B202020202020202020202020202020202064657070616D203B2020202020202020202038433946,
  0x394339462D48504152474F454449205954494C4942495441504D4F43204B4A432020312E3120232020202020202020202033463736203B202020202020202020202020202020202064657070616D203B2020202020202020202039433946,
  0x414339462D48504152474F454449205954494C4942495441504D4F43204B4A432020312E3120232020202020202020202031344436203B202020202020202020202020202020202064657070616D203B2020202020202020202041433946,
  0x424339462D48504152474F454449205954494C4942495441504D4F43204B4A432020312E3120232020202020202020202043394536203B202020202020202020202020202020202064657070616D203B2020202020202020202042433946,
  0x434339462D48504152474F454449205954494C4942495441504D4F43204B4A432020312E3120232020202020202020202039303437203B202020202020202020202020202020202064657070616D203B2020202020202020202043433946,
  0x444339462D48504152474F454449205954494C4942495441504D4F43204B4A432020312E3120232020202020202020202039353537203B202020202020202020202020202020202064657070616D203B2020202020202020202044433946,
  0x454339462D48504152474F454449205954494C4942495441504D4F43204B4A432020312E3120232020202020202020202042363837203B202020202020202020202020202020202064657070616D203B2020202020202020202045433946,
  0x464339462D48504152474F454449205954494C4942495441504D4F43204B4A432020312E3120232020202020202020202030314437203B202020202020202020202020202020202064657070616D203B2020202020202020202046433946,
  0x304439462D48504152474F454449205954494C4942495441504D4F43204B4A432020312E3120232020202020202020202045353839203B202020202020202020202020202020202064657070616D203B2020202020202020202030443946,
  0x314439462D48504152474F454449205954494C4942495441504D4F43204B4A432020312E3120232020202020202020202044363135203B202020202020202020202020202020202064657070616D203B2020202020202020202031443946,
  0x324439462D48504152474F454449205954494C4942495441504D4F43204B4A432020312E3120232020202020202020202045323236203B202020202020202020202020202020202064657070616D203B2020202020202020202032443946,
  0x334439462D48504152474F454449205954494C4942495441504D4F43204B4A432020312E3120232020202020202020202038373639203B202020202020202020202020202020202064657070616D203B2020202020202020202033443946,
  0x344439462D48504152474F454449205954494C4942495441504D4F43204B4A432020312E3120232020202020202020202042323035203B202020202020202020202020202020202064657070616D203B2020202020202020202034443946,
  0x354439462D48504152474F454449205954494C4942495441504D4F43204B4A432020312E3120232020202020202020202039314435203B202020202020202020202020202020202064657070616D203B2020202020202020202035443946,
  0x364439462D48504152474F454449205954494C4942495441504D4F43204B4A432020312E3120232020202020202020202041454436203B202020202020202020202020202020202064657070616D203B2020202020202020202036443946,
  0x374439462D48504152474F454449205954494C4942495441504D4F43204B4A432020312E3120232020202020202020202041324638203B202020202020202020202020202020202064657070616D203B2020202020202020202037443946,
  0x384439462D48504152474F454449205954494C4942495441504D4F43204B4A432020312E3120232020202020202020202042384635203B202020202020202020202020202020202064657070616D203B2020202020202020202038443946,
  0x394439462D48504152474F454449205954494C4942495441504D4F43204B4A432020312E3120232020202020202020202034343136203B202020202020202020202020202020202064657070616D203B2020202020202020202039443946,
  0x414439462D48504152474F454449205954494C4942495441504D4F43204B4A432020312E3120232020202020202020202037313836203B202020202020202020202020202020202064657070616D203B2020202020202020202041443946,
  0x424439462D48504152474F454449205954494C4942495441504D4F43204B4A432020312E3120232020202020202020202037383337203B202020202020202020202020202020202064657070616D203B2020202020202020202042443946,
  0x434439462D48504152474F454449205954494C4942495441504D4F43204B4A432020312E3120232020202020202020202036383639203B202020202020202020202020202020202064657070616D203B2020202020202020202043443946,
  0x444439462D48504152474F454449205954494C4942495441504D4F43204B4A432020312E3120232020202020202020202039323235203B202020202020202020202020202020202064657070616D203B2020202020202020202044443946,
  0x454439462D48504152474F454449205954494C4942495441504D4F43204B4A432020312E3120232020202020202020202046303435203B202020202020202020202020202020202064657070616D203B2020202020202020202045443946,
  0x464439462D48504152474F454449205954494C4942495441504D4F43204B4A432020312E3120232020202020202020202035364335203B202020202020202020202020202020202064657070616D203B2020202020202020202046443946,
  0x304539462D48504152474F454449205954494C4942495441504D4F43204B4A432020312E3120232020202020202020202033313636203B202020202020202020202020202020202064657070616D203B2020202020202020202030453946,
  0x314539462D48504152474F454449205954494C4942495441504D4F43204B4A432020312E3120232020202020202020202045343736203B202020202020202020202020202020202064657070616D203B2020202020202020202031453946,
  0x324539462D48504152474F454449205954494C4942495441504D4F43204B4A432020312E3120232020202020202020202038413836203B202020202020202020202020202020202064657070616D203B2020202020202020202032453946,
  0x334539462D48504152474F454449205954494C4942495441504D4F43204B4A432020312E3120232020202020202020202035454336203B202020202020202020202020202020202064657070616D203B2020202020202020202033453946,
  0x344539462D48504152474F454449205954494C4942495441504D4F43204B4A432020312E3120232020202020202020202036303437203B202020202020202020202020202020202064657070616D203B2020202020202020202034453946,
  0x354539462D48504152474F454449205954494C4942495441504D4F43204B4A432020312E3120232020202020202020202032453537203B202020202020202020202020202020202064657070616D203B2020202020202020202035453946,
  0x364539462D48504152474F454449205954494C4942495441504D4F43204B4A432020312E3120232020202020202020202039374637203B202020202020202020202020202020202064657070616D203B2020202020202020202036453946,
  0x374539462D48504152474F454449205954494C4942495441504D4F43204B4A432020312E3120232020202020202020202046433838203B202020202020202020202020202020202064657070616D203B2020202020202020202037453946,
  0x384539462D48504152474F454449205954494C4942495441504D4F43204B4A432020312E3120232020202020202020202031453838203B202020202020202020202020202020202064657070616D203B2020202020202020202038453946,
  0x394539462D48504152474F454449205954494C4942495441504D4F43204B4A432020312E3120232020202020202020202043433139203B202020202020202020202020202020202064657070616D203B2020202020202020202039453946,
  0x414539462D48504152474F454449205954494C4942495441504D4F43204B4A432020312E3120232020202020202020202032453639203B202020202020202020202020202020202064657070616D203B2020202020202020202041453946,
  0x424539462D48504152474F454449205954494C4942495441504D4F43204B4A432020312E3120232020202020202020202046333335203B202020202020202020202020202020202064657070616D203B2020202020202020202042453946,
  0x434539462D48504152474F454449205954494C4942495441504D4F43204B4A432020312E3120232020202020202020202041424536203B202020202020202020202020202020202064657070616D203B2020202020202020202043453946,
  0x444539462D48504152474F454449205954494C4942495441504D4F43204B4A432020312E3120232020202020202020202044313435203B202020202020202020202020202020202064657070616D203B2020202020202020202044453946,
  0x454539462D48504152474F454449205954494C4942495441504D4F43204B4A432020312E3120232020202020202020202030443137203B202020202020202020202020202020202064657070616D203B2020202020202020202045453946,
  0x464539462D48504152474F454449205954494C4942495441504D4F43204B4A432020312E3120232020202020202020202038393437203B202020202020202020202020202020202064657070616D203B2020202020202020202046453946,
  0x304639462D48504152474F454449205954494C4942495441504D4F43204B4A432020312E3120232020202020202020202041463538203B202020202020202020202020202020202064657070616D203B2020202020202020202030463946,
  0x314639462D48504152474F454449205954494C4942495441504D4F43204B4A432020312E3120232020202020202020202033413639203B202020202020202020202020202020202064657070616D203B2020202020202020202031463946,
  0x324639462D48504152474F454449205954494C4942495441504D4F43204B4A432020312E3120232020202020202020202037354339203B202020202020202020202020202020202064657070616D203B2020202020202020202032463946,
  0x334639462D48504152474F454449205954494C4942495441504D4F43204B4A432020312E3120232020202020202020202046394539203B202020202020202020202020202020202064657070616D203B2020202020202020202033463946,
  0x344639462D48504152474F454449205954494C4942495441504D4F43204B4A432020312E3120232020202020202020202037393736203B202020202020202020202020202020202064657070616D203B2020202020202020202034463946,
  0x354639462D48504152474F454449205954494C4942495441504D4F43204B4A432020312E3120232020202020202020202042434436203B202020202020202020202020202020202064657070616D203B2020202020202020202035463946,
  0x364639462D48504152474F454449205954494C4942495441504D4F43204B4A432020312E3120232020202020202020202038453138203B202020202020202020202020202020202064657070616D203B2020202020202020202036463946,
  0x374639462D48504152474F454449205954494C4942495441504D4F43204B4A432020312E3120232020202020202020202042434137203B202020202020202020202020202020202064657070616D203B2020202020202020202037463946,
  0x384639462D48504152474F454449205954494C4942495441504D4F43204B4A432020312E3120232020202020202020202030324237203B202020202020202020202020202020202064657070616D203B2020202020202020202038463946,
  0x394639462D48504152474F454449205954494C4942495441504D4F43204B4A432020312E3120232020202020202020202032394337203B202020202020202020202020202020202064657070616D203B2020202020202020202039463946,
  0x414639462D48504152474F454449205954494C4942495441504D4F43204B4A432020312E3120232020202020202020202030433237203B202020202020202020202020202020202064657070616D203B2020202020202020202041463946,
  0x424639462D48504152474F454449205954494C4942495441504D4F43204B4A432020312E3120232020202020202020202039393037203B202020202020202020202020202020202064657070616D203B2020202020202020202042463946,
  0x434639462D48504152474F454449205954494C4942495441504D4F43204B4A432020312E3120232020202020202020202038354238203B202020202020202020202020202020202064657070616D203B2020202020202020202043463946,
  0x444639462D48504152474F454449205954494C4942495441504D4F43204B4A432020312E3120232020202020202020202030434534203B202020202020202020202020202020202064657070616D203B2020202020202020202044463946,
  0x454639462D48504152474F454449205954494C4942495441504D4F43204B4A432020312E3120232020202020202020202036333338203B202020202020202020202020202020202064657070616D203B2020202020202020202045463946,
  0x464639462D48504152474F454449205954494C4942495441504D4F43204B4A432020312E3120232020202020202020202041333235203B202020202020202020202020202020202064657070616D203B2020202020202020202046463946,
  0x303041462D48504152474F454449205954494C4942495441504D4F43204B4A432020312E3120232020202020202020202037303235203B202020202020202020202020202020202064657070616D203B2020202020202020202030304146,
  0x313041462D48504152474F454449205954494C4942495441504D4F43204B4A432020312E3120232020202020202020202036414535203B202020202020202020202020202020202064657070616D203B2020202020202020202031304146,
  0x323041462D48504152474F454449205954494C4942495441504D4F43204B4A432020312E3120232020202020202020202033443236203B202020202020202020202020202020202064657070616D203B2020202020202020202032304146,
  0x333041462D48504152474F454449205954494C4942495441504D4F43204B4A432020312E3120232020202020202020202036444337203B202020202020202020202020202020202064657070616D203B2020202020202020202033304146,
  0x343041462D48504152474F454449205954494C4942495441504D4F43204B4A432020312E3120232020202020202020202035384235203B202020202020202020202020202020202064657070616D203B2020202020202020202034304146,
  0x353041462D48504152474F454449205954494C4942495441504D4F43204B4A432020312E3120232020202020202020202045314436203B202020202020202020202020202020202064657070616D203B2020202020202020202035304146,
  0x363041462D48504152474F454449205954494C4942495441504D4F43204B4A432020312E3120232020202020202020202034423636203B202020202020202020202020202020202064657070616D203B2020202020202020202036304146,
  0x373041462D48504152474F454449205954494C4942495441504D4F43204B4A432020312E3120232020202020202020202042334638203B202020202020202020202020202020202064657070616D203B2020202020202020202037304146,
  0x383041462D48504152474F454449205954494C4942495441504D4F43204B4A432020312E3120232020202020202020202043343838203B202020202020202020202020202020202064657070616D203B2020202020202020202038304146,
  0x393041462D48504152474F454449205954494C4942495441504D4F43204B4A432020312E3120232020202020202020202044343639203B202020202020202020202020202020202064657070616D203B2020202020202020202039304146,
  0x413041462D48504152474F454449205954494C4942495441504D4F43204B4A432020312E3120232020202020202020202042383938203B202020202020202020202020202020202064657070616D203B2020202020202020202041304146,
  0x423041462D48504152474F454449205954494C4942495441504D4F43204B4A432020312E3120232020202020202020202033444535203B202020202020202020202020202020202064657070616D203B2020202020202020202042304146,
  0x433041462D48504152474F454449205954494C4942495441504D4F43204B4A432020312E3120232020202020202020202030343135203B202020202020202020202020202020202064657070616D203B2020202020202020202043304146,
  0x443041462D48504152474F454449205954494C4942495441504D4F43204B4A432020312E3120232020202020202020202030433535203B202020202020202020202020202020202064657070616D203B2020202020202020202044304146,
  0x463041462D48504152474F454449205954494C4942495441504D4F43204B4A432E2E453041462D48504152474F454449205954494C4942495441504D4F43204B4A432020312E3120232020202020202020202020202020202020202020202020202020202020202020202064696C6176203B20202020463041462E2E45304146,
  0x303141462D48504152474F454449205954494C4942495441504D4F43204B4A432020312E3120232020202020202020202041353835203B202020202020202020202020202020202064657070616D203B2020202020202020202030314146,
  0x313141462D48504152474F454449205954494C4942495441504D4F43204B4A432020312E3120232020202020202020202020202020202020202020202020202020202020202020202064696C6176203B2020202020202020202031314146,
  0x323141462D48504152474F454449205954494C4942495441504D4F43204B4A432020312E3120232020202020202020202034373636203B202020202020202020202020202020202064657070616D203B2020202020202020202032314146,
  0x343141462D48504152474F454449205954494C4942495441504D4F43204B4A432E2E333141462D48504152474F454449205954494C4942495441504D4F43204B4A432020312E3120232020202020202020202020202020202020202020202020202020202020202020202064696C6176203B20202020343141462E2E33314146,
  0x353141462D48504152474F454449205954494C4942495441504D4F43204B4A432020312E3120232020202020202020202045443135203B202020202020202020202020202020202064657070616D203B2020202020202020202035314146,
  0x363141462D48504152474F454449205954494C4942495441504D4F43204B4A432020312E3120232020202020202020202041323337203B202020202020202020202020202020202064657070616D203B2020202020202020202036314146,
  0x373141462D48504152474F454449205954494C4942495441504D4F43204B4A432020312E3120232020202020202020202041433637203B202020202020202020202020202020202064657070616D203B2020202020202020202037314146,
  0x383141462D48504152474F454449205954494C4942495441504D4F43204B4A432020312E3120232020202020202020202043333937203B202020202020202020202020202020202064657070616D203B2020202020202020202038314146,
  0x393141462D48504152474F454449205954494C4942495441504D4F43204B4A432020312E3120232020202020202020202045353937203B202020202020202020202020202020202064657070616D203B2020202020202020202039314146,
  0x413141462D48504152474F454449205954494C4942495441504D4F43204B4A432020312E3120232020202020202020202035363937203B202020202020202020202020202020202064657070616D203B2020202020202020202041314146,
  0x423141462D48504152474F454449205954494C4942495441504D4F43204B4A432020312E3120232020202020202020202046383937203B202020202020202020202020202020202064657070616D203B2020202020202020202042314146,
  0x433141462D48504152474F454449205954494C4942495441504D4F43204B4A432020312E3120232020202020202020202036353739203B202020202020202020202020202020202064657070616D203B2020202020202020202043314146,
  0x443141462D48504152474F454449205954494C4942495441504D4F43204B4A432020312E3120232020202020202020202045424337203B202020202020202020202020202020202064657070616D203B2020202020202020202044314146,
  0x453141462D48504152474F454449205954494C4942495441504D4F43204B4A432020312E3120232020202020202020202044424637203B202020202020202020202020202020202064657070616D203B2020202020202020202045314146,
  0x463141462D48504152474F454449205954494C4942495441504D4F43204B4A432020312E3120232020202020202020202020202020202020202020202020202020202020202020202064696C6176203B2020202020202020202046314146,
  0x303241462D48504152474F454449205954494C4942495441504D4F43204B4A432020312E3120232020202020202020202032313638203B202020202020202020202020202020202064657070616D203B2020202020202020202030324146,
  0x313241462D48504152474F454449205954494C4942495441504D4F43204B4A432020312E3120232020202020202020202020202020202020202020202020202020202020202020202064696C6176203B2020202020202020202031324146,
  0x323241462D48504152474F454449205954494C4942495441504D4F43204B4A432020312E3120232020202020202020202038464138203B202020202020202020202020202020202064657070616D203B2020202020202020202032324146,
  0x343241462D48504152474F454449205954494C4942495441504D4F43204B4A432E2E333241462D48504152474F454449205954494C4942495441504D4F43204B4A432020312E3120232020202020202020202020202020202020202020202020202020202020202020202064696C6176203B20202020343241462E2E33324146,
  0x353241462D48504152474F454449205954494C4942495441504D4F43204B4A432020312E3120232020202020202020202038333039203B202020202020202020202020202020202064657070616D203B2020202020202020202035324146,
  0x363241462D48504152474F454449205954494C4942495441504D4F43204B4A432020312E3120232020202020202020202044463039203B202020202020202020202020202020202064657070616D203B2020202020202020202036324146,
  0x393241462D48504152474F454449205954494C4942495441504D4F43204B4A432E2E373241462D48504152474F454449205954494C4942495441504D4F43204B4A432020312E3120232020202020202020202020202020202020202020202020202020202020202020202064696C6176203B20202020393241462E2E37324146,
  0x413241462D48504152474F454449205954494C4942495441504D4F43204B4A432020312E3120232020202020202020202046453839203B202020202020202020202020202020202064657070616D203B2020202020202020202041324146,
  0x423241462D48504152474F454449205954494C4942495441504D4F43204B4A432020312E3120232020202020202020202043463839203B202020202020202020202020202020202064657070616D203B2020202020202020202042324146,
  0x433241462D48504152474F454449205954494C4942495441504D4F43204B4A432020312E3120232020202020202020202038323939203B202020202020202020202020202020202064657070616D203B2020202020202020202043324146,
  0x443241462D48504152474F454449205954494C4942495441504D4F43204B4A432020312E3120232020202020202020202034424439203B202020202020202020202020202020202064657070616D203B2020202020202020202044324146,
  0x453241462D48504152474F454449205954494C4942495441504D4F43204B4A432020312E3620232020202020202020202045443039203B202020202020202020202020202020202064657070616D203B2020202020202020202045324146,
  0x463241462D48504152474F454449205954494C4942495441504D4F43204B4A432020312E3620232020202020202020202037423639203B202020202020202020202020202020202064657070616D203B2020202020202020202046324146,
  0x303341462D48504152474F454449205954494C4942495441504D4F43204B4A432020322E3320232020202020202020202045414634203B202020202020202020202020202020202064657070616D203B2020202020202020202030334146,
  0x313341462D48504152474F454449205954494C4942495441504D4F43204B4A432020322E3320232020202020202020202037453035203B202020202020202020202020202020202064657070616D203B2020202020202020202031334146,
  0x323341462D48504152474F454449205954494C4942495441504D4F43204B4A432020322E3320232020202020202020202044343135203B202020202020202020202020202020202064657070616D203B2020202020202020202032334146,
  0x333341462D48504152474F454449205954494C4942495441504D4F43204B4A432020322E3320232020202020202020202039433235203B202020202020202020202020202020202064657070616D203B2020202020202020202033334146,
  0x343341462D48504152474F454449205954494C4942495441504D4F43204B4A432020322E3320232020202020202020202034453235203B202020202020202020202020202020202064657070616D203B2020202020202020202034334146,
  0x353341462D48504152474F454449205954494C4942495441504D4F43204B4A432020322E3320232020202020202020202031353335203B202020202020202020202020202020202064657070616D203B2020202020202020202035334146,
  0x363341462D48504152474F454449205954494C4942495441504D4F43204B4A432020322E3320232020202020202020202044393535203B202020202020202020202020202020202064657070616D203B2020202020202020202036334146,
  0x373341462D48504152474F454449205954494C4942495441504D4F43204B4A432020322E3320232020202020202020202036303635203B202020202020202020202020202020202064657070616D203B2020202020202020202037334146,
  0x383341462D48504152474F454449205954494C4942495441504D4F43204B4A432020322E3320232020202020202020202038363635203B202020202020202020202020202020202064657070616D203B2020202020202020202038334146,
  0x393341462D48504152474F454449205954494C4942495441504D4F43204B4A432020322E3320232020202020202020202030343835203B202020202020202020202020202020202064657070616D203B2020202020202020202039334146,
  0x413341462D48504152474F454449205954494C4942495441504D4F43204B4A432020322E3320232020202020202020202038413835203B202020202020202020202020202020202064657070616D203B2020202020202020202041334146,
  0x423341462D48504152474F454449205954494C4942495441504D4F43204B4A432020322E3320232020202020202020202034364335203B202020202020202020202020202020202064657070616D203B2020202020202020202042334146,
  0x433341462D48504152474F454449205954494C4942495441504D4F43204B4A432020322E3320232020202020202020202045364335203B202020202020202020202020202020202064657070616D203B2020202020202020202043334146,
  0x443341462D48504152474F454449205954494C4942495441504D4F43204B4A432020322E3320232020202020202020202034393036203B202020202020202020202020202020202064657070616D203B2020202020202020202044334146,
  0x453341462D48504152474F454449205954494C4942495441504D4F43204B4A432020322E3320232020202020202020202038363136203B202020202020202020202020202020202064657070616D203B2020202020202020202045334146,
  0x463341462D48504152474F454449205954494C4942495441504D4F43204B4A432020322E3320232020202020202020202045383136203B202020202020202020202020202020202064657070616D203B2020202020202020202046334146,
  0x303441462D48504152474F454449205954494C4942495441504D4F43204B4A432020322E3320232020202020202020202032463136203B202020202020202020202020202020202064657070616D203B2020202020202020202030344146,
  0x313441462D48504152474F454449205954494C4942495441504D4F43204B4A432020322E3320232020202020202020202046343536203B202020202020202020202020202020202064657070616D203B2020202020202020202031344146,
  0x323441462D48504152474F454449205954494C4942495441504D4F43204B4A432020322E3320232020202020202020202032453536203B202020202020202020202020202020202064657070616D203B2020202020202020202032344146,
  0x333441462D48504152474F454449205954494C4942495441504D4F43204B4A432020322E3320232020202020202020202031393636203B202020202020202020202020202020202064657070616D203B2020202020202020202033344146,
  0x343441462D48504152474F454449205954494C4942495441504D4F43204B4A432020322E3320232020202020202020202035383836203B202020202020202020202020202020202064657070616D203B2020202020202020202034344146,
  0x353441462D48504152474F454449205954494C4942495441504D4F43204B4A432020322E3320232020202020202020202037374436203B202020202020202020202020202020202064657070616D203B2020202020202020202035344146,
  0x363441462D48504152474F454449205954494C4942495441504D4F43204B4A432020322E3320232020202020202020202041314536203B202020202020202020202020202020202064657070616D203B2020202020202020202036344146,
  0x373441462D48504152474F454449205954494C4942495441504D4F43204B4A432020322E3320232020202020202020202032324636203B202020202020202020202020202020202064657070616D203B2020202020202020202037344146,
  0x383441462D48504152474F454449205954494C4942495441504D4F43204B4A432020322E3320232020202020202020202045363137203B202020202020202020202020202020202064657070616D203B2020202020202020202038344146,
  0x393441462D48504152474F454449205954494C4942495441504D4F43204B4A432020322E3320232020202020202020202042323237203B202020202020202020202020202020202064657070616D203B2020202020202020202039344146,
  0x413441462D48504152474F454449205954494C4942495441504D4F43204B4A432020322E3320232020202020202020202032323437203B202020202020202020202020202020202064657070616D203B2020202020202020202041344146,
  0x423441462D48504152474F454449205954494C4942495441504D4F43204B4A432020322E3320232020202020202020202031393837203B202020202020202020202020202020202064657070616D203B2020202020202020202042344146,
  0x433441462D48504152474F454449205954494C4942495441504D4F43204B4A432020322E3320232020202020202020202045333937203B202020202020202020202020202020202064657070616D203B2020202020202020202043344146,
  0x443441462D48504152474F454449205954494C4942495441504D4F43204B4A432020322E3320232020202020202020202039343937203B202020202020202020202020202020202064657070616D203B2020202020202020202044344146,
  0x453441462D48504152474F454449205954494C4942495441504D4F43204B4A432020322E3320232020202020202020202038343937203B202020202020202020202020202020202064657070616D203B2020202020202020202045344146,
  0x463441462D48504152474F454449205954494C4942495441504D4F43204B4A432020322E3320232020202020202020202030353937203B202020202020202020202020202020202064657070616D203B2020202020202020202046344146,
  0x303541462D48504152474F454449205954494C4942495441504D4F43204B4A432020322E3320232020202020202020202036353937203B202020202020202020202020202020202064657070616D203B2020202020202020202030354146,
  0x313541462D48504152474F454449205954494C4942495441504D4F43204B4A432020322E3320232020202020202020202044353937203B202020202020202020202020202020202064657070616D203B2020202020202020202031354146,
  0x323541462D48504152474F454449205954494C4942495441504D4F43204B4A432020322E3320232020202020202020202044383937203B202020202020202020202020202020202064657070616D203B2020202020202020202032354146,
  0x333541462D48504152474F454449205954494C4942495441504D4F43204B4A432020322E3320232020202020202020202045383937203B202020202020202020202020202020202064657070616D203B2020202020202020202033354146,
  0x343541462D48504152474F454449205954494C4942495441504D4F43204B4A432020322E3320232020202020202020202030344137203B202020202020202020202020202020202064657070616D203B2020202020202020202034354146,
  0x353541462D48504152474F454449205954494C4942495441504D4F43204B4A432020322E3320232020202020202020202031384137203B202020202020202020202020202020202064657070616D203B2020202020202020202035354146,
  0x363541462D48504152474F454449205954494C4942495441504D4F43204B4A432020322E3320232020202020202020202030434237203B202020202020202020202020202020202064657070616D203B2020202020202020202036354146,
  0x373541462D48504152474F454449205954494C4942495441504D4F43204B4A432020322E3320232020202020202020202034464437203B202020202020202020202020202020202064657070616D203B2020202020202020202037354146,
  0x383541462D48504152474F454449205954494C4942495441504D4F43204B4A432020322E3320232020202020202020202039304537203B202020202020202020202020202020202064657070616D203B2020202020202020202038354146,
  0x393541462D48504152474F454449205954494C4942495441504D4F43204B4A432020322E3320232020202020202020202031344537203B202020202020202020202020202020202064657070616D203B2020202020202020202039354146,
  0x413541462D48504152474F454449205954494C4942495441504D4F43204B4A432020322E3320232020202020202020202032374637203B202020202020202020202020202020202064657070616D203B2020202020202020202041354146,
  0x423541462D48504152474F454449205954494C4942495441504D4F43204B4A432020322E3320232020202020202020202035303038203B202020202020202020202020202020202064657070616D203B2020202020202020202042354146,
  0x433541462D48504152474F454449205954494C4942495441504D4F43204B4A432020322E3320232020202020202020202044453138203B202020202020202020202020202020202064657070616D203B2020202020202020202043354146,
  0x453541462D48504152474F454449205954494C4942495441504D4F43204B4A432E2E443541462D48504152474F454449205954494C4942495441504D4F43204B4A432020322E3320232020202020202020202039373238203B202020202020202020202020202020202064657070616D203B20202020453541462E2E44354146,
  0x463541462D48504152474F454449205954494C4942495441504D4F43204B4A432020322E3320232020202020202020202037353438203B202020202020202020202020202020202064657070616D203B2020202020202020202046354146,
  0x303641462D48504152474F454449205954494C4942495441504D4F43204B4A432020322E3320232020202020202020202030313938203B202020202020202020202020202020202064657070616D203B2020202020202020202030364146,
  0x313641462D48504152474F454449205954494C4942495441504D4F43204B4A432020322E3320232020202020202020202036393938203B202020202020202020202020202020202064657070616D203B2020202020202020202031364146,
  0x323641462D48504152474F454449205954494C4942495441504D4F43204B4A432020322E3320232020202020202020202031304238203B202020202020202020202020202020202064657070616D203B2020202020202020202032364146,
  0x333641462D48504152474F454449205954494C4942495441504D4F43204B4A432020322E3320232020202020202020202039334238203B202020202020202020202020202020202064657070616D203B2020202020202020202033364146,
  0x343641462D48504152474F454449205954494C4942495441504D4F43204B4A432020322E3320232020202020202020202033444338203B202020202020202020202020202020202064657070616D203B2020202020202020202034364146,
  0x353641462D48504152474F454449205954494C4942495441504D4F43204B4A432020322E3320232020202020202020202038304438203B202020202020202020202020202020202064657070616D203B2020202020202020202035364146,
  0x363641462D48504152474F454449205954494C4942495441504D4F43204B4A432020322E3320232020202020202020202036424638203B202020202020202020202020202020202064657070616D203B2020202020202020202036364146,
  0x373641462D48504152474F454449205954494C4942495441504D4F43204B4A432020322E3320232020202020202020202038333039203B202020202020202020202020202020202064657070616D203B2020202020202020202037364146,
  0x383641462D48504152474F454449205954494C4942495441504D4F43204B4A432020322E3320232020202020202020202033453639203B202020202020202020202020202020202064657070616D203B2020202020202020202038364146,
  0x393641462D48504152474F454449205954494C4942495441504D4F43204B4A432020322E3320232020202020202020202046463739203B202020202020202020202020202020202064657070616D203B2020202020202020202039364146,
  0x413641462D48504152474F454449205954494C4942495441504D4F43204B4A432020322E3320232020202020202020202042333839203B202020202020202020202020202020202064657070616D203B2020202020202020202041364146,
  0x423641462D48504152474F454449205954494C4942495441504D4F43204B4A432020322E3520232020202020202020202035373036203B202020202020202020202020202020202064657070616D203B2020202020202020202042364146,
  0x433641462D48504152474F454449205954494C4942495441504D4F43204B4A432020322E3520232020202020202020204545323432203B202020202020202020202020202020202064657070616D203B2020202020202020202043364146,
  0x443641462D48504152474F454449205954494C4942495441504D4F43204B4A432020322E3520232020202020202020202038313238203B202020202020202020202020202020202064657070616D203B2020202020202020202044364146,
  0x3E463641462D64657672657365723C2E2E3E453641462D64657672657365723C202020414E202320202020202020202020202020202020202020202020202020202020206465776F6C6C61736964203B20202020463641462E2E45364146,
  0x303741462D48504152474F454449205954494C4942495441504D4F43204B4A432020312E3420232020202020202020202036324534203B202020202020202020202020202020202064657070616D203B2020202020202020202030374146,
  0x313741462D48504152474F454449205954494C4942495441504D4F43204B4A432020312E3420232020202020202020202035423135203B202020202020202020202020202020202064657070616D203B2020202020202020202031374146,
  0x323741462D48504152474F454449205954494C4942495441504D4F43204B4A432020312E3420232020202020202020202038363135203B202020202020202020202020202020202064657070616D203B2020202020202020202032374146,
  0x333741462D48504152474F454449205954494C4942495441504D4F43204B4A432020312E3420232020202020202020202030384634203B202020202020202020202020202020202064657070616D203B2020202020202020202033374146,
  0x343741462D48504152474F454449205954494C4942495441504D4F43204B4A432020312E3420232020202020202020202035343135203B202020202020202020202020202020202064657070616D203B2020202020202020202034374146,
  0x353741462D48504152474F454449205954494C4942495441504D4F43204B4A432020312E3420232020202020202020202030383135203B202020202020202020202020202020202064657070616D203B2020202020202020202035374146,
  0x363741462D48504152474F454449205954494C4942495441504D4F43204B4A432020312E3420232020202020202020202037433235203B202020202020202020202020202020202064657070616D203B2020202020202020202036374146,
  0x373741462D48504152474F454449205954494C4942495441504D4F43204B4A432020312E3420232020202020202020202041463235203B202020202020202020202020202020202064657070616D203B2020202020202020202037374146,
  0x383741462D48504152474F454449205954494C4942495441504D4F43204B4A432020312E3420232020202020202020202044393535203B202020202020202020202020202020202064657070616D203B2020202020202020202038374146,
  0x393741462D48504152474F454449205954494C4942495441504D4F43204B4A432020312E3420232020202020202020202035353535203B202020202020202020202020202020202064657070616D203B2020202020202020202039374146,
  0x413741462D48504152474F454449205954494C4942495441504D4F43204B4A432020312E3420232020202020202020202039393535203B202020202020202020202020202020202064657070616D203B2020202020202020202041374146,
  0x423741462D48504152474F454449205954494C4942495441504D4F43204B4A432020312E3420232020202020202020202032453535203B202020202020202020202020202020202064657070616D203B2020202020202020202042374146,
  0x433741462D48504152474F454449205954494C4942495441504D4F43204B4A432020312E3420232020202020202020202041353835203B202020202020202020202020202020202064657070616D203B2020202020202020202043374146,
  0x443741462D48504152474F454449205954494C4942495441504D4F43204B4A432020312E3420232020202020202020202033423835203B202020202020202020202020202020202064657070616D203B2020202020202020202044374146,
  0x453741462D48504152474F454449205954494C4942495441504D4F43204B4A432020312E3420232020202020202020202034343935203B202020202020202020202020202020202064657070616D203B2020202020202020202045374146,
  0x463741462D48504152474F454449205954494C4942495441504D4F43204B4A432020312E3420232020202020202020202034353935203B202020202020202020202020202020202064657070616D203B2020202020202020202046374146,
  0x303841462D48504152474F454449205954494C4942495441504D4F43204B4A432020312E3420232020202020202020202032364135203B202020202020202020202020202020202064657070616D203B2020202020202020202030384146]

def mapText19 : List Nat := [
  0x313841462D48504152474F454449205954494C4942495441504D4F43204B4A432020312E3420232020202020202020202038324235203B202020202020202020202020202020202064657070616D203B2020202020202020202031384146,
  0x323841462D48504152474F454449205954494C4942495441504D4F43204B4A432020312E3420232020202020202020202032444535203B202020202020202020202020202020202064657070616D203B2020202020202020202032384146,
  0x333841462D48504152474F454449205954494C4942495441504D4F43204B4A432020312E3420232020202020202020202039444535203B202020202020202020202020202020202064657070616D203B2020202020202020202033384146,
  0x343841462D48504152474F454449205954494C4942495441504D4F43204B4A432020312E3420232020202020202020202039364635203B202020202020202020202020202020202064657070616D203B2020202020202020202034384146,
  0x353841462D48504152474F454449205954494C4942495441504D4F43204B4A432020312E3420232020202020202020202044414635203B202020202020202020202020202020202064657070616D203B2020202020202020202035384146,
  0x363841462D48504152474F454449205954494C4942495441504D4F43204B4A432020312E3420232020202020202020202038443036203B202020202020202020202020202020202064657070616D203B2020202020202020202036384146,
  0x373841462D48504152474F454449205954494C4942495441504D4F43204B4A432020312E3420232020202020202020202045343136203B202020202020202020202020202020202064657070616D203B2020202020202020202037384146,
  0x383841462D48504152474F454449205954494C4942495441504D4F43204B4A432020312E3420232020202020202020202038303136203B202020202020202020202020202020202064657070616D203B2020202020202020202038384146,
  0x393841462D48504152474F454449205954494C4942495441504D4F43204B4A432020312E3420232020202020202020202045383136203B202020202020202020202020202020202064657070616D203B2020202020202020202039384146,
  0x413841462D48504152474F454449205954494C4942495441504D4F43204B4A432020312E3420232020202020202020202030363136203B202020202020202020202020202020202064657070616D203B2020202020202020202041384146,
  0x423841462D48504152474F454449205954494C4942495441504D4F43204B4A432020312E3420232020202020202020202032463136203B202020202020202020202020202020202064657070616D203B2020202020202020202042384146,
  0x433841462D48504152474F454449205954494C4942495441504D4F43204B4A432020312E3420232020202020202020202034333236203B202020202020202020202020202020202064657070616D203B2020202020202020202043384146,
  0x443841462D48504152474F454449205954494C4942495441504D4F43204B4A432020312E3420232020202020202020202034433336203B202020202020202020202020202020202064657070616D203B2020202020202020202044384146,
  0x453841462D48504152474F454449205954494C4942495441504D4F43204B4A432020312E3420232020202020202020202043313436203B202020202020202020202020202020202064657070616D203B2020202020202020202045384146,
  0x463841462D48504152474F454449205954494C4942495441504D4F43204B4A432020312E3420232020202020202020202032353436203B202020202020202020202020202020202064657070616D203B2020202020202020202046384146,
  0x303941462D48504152474F454449205954494C4942495441504D4F43204B4A432020312E3420232020202020202020202036353536203B202020202020202020202020202020202064657070616D203B2020202020202020202030394146,
  0x313941462D48504152474F454449205954494C4942495441504D4F43204B4A432020312E3420232020202020202020202034373636203B202020202020202020202020202020202064657070616D203B2020202020202020202031394146,
  0x323941462D48504152474F454449205954494C4942495441504D4F43204B4A432020312E3420232020202020202020202037313736203B202020202020202020202020202020202064657070616D203B2020202020202020202032394146,
  0x333941462D48504152474F454449205954494C4942495441504D4F43204B4A432020312E3420232020202020202020202042313736203B202020202020202020202020202020202064657070616D203B2020202020202020202033394146,
  0x343941462D48504152474F454449205954494C4942495441504D4F43204B4A432020312E3420232020202020202020202036353736203B202020202020202020202020202020202064657070616D203B2020202020202020202034394146,
  0x353941462D48504152474F454449205954494C4942495441504D4F43204B4A432020312E3420232020202020202020202039374236203B202020202020202020202020202020202064657070616D203B2020202020202020202035394146,
  0x363941462D48504152474F454449205954494C4942495441504D4F43204B4A432020312E3420232020202020202020202041424236203B202020202020202020202020202020202064657070616D203B2020202020202020202036394146,
  0x373941462D48504152474F454449205954494C4942495441504D4F43204B4A432020312E3420232020202020202020202031344436203B202020202020202020202020202020202064657070616D203B2020202020202020202037394146,
  0x383941462D48504152474F454449205954494C4942495441504D4F43204B4A432020312E3420232020202020202020202042444536203B202020202020202020202020202020202064657070616D203B2020202020202020202038394146,
  0x393941462D48504152474F454449205954494C4942495441504D4F43204B4A432020312E3420232020202020202020202042434536203B202020202020202020202020202020202064657070616D203B2020202020202020202039394146,
  0x413941462D48504152474F454449205954494C4942495441504D4F43204B4A432020312E3420232020202020202020202032324636203B202020202020202020202020202020202064657070616D203B2020202020202020202041394146,
  0x423941462D48504152474F454449205954494C4942495441504D4F43204B4A432020312E3420232020202020202020202045313037203B202020202020202020202020202020202064657070616D203B2020202020202020202042394146,
  0x433941462D48504152474F454449205954494C4942495441504D4F43204B4A432020312E3420232020202020202020202045363137203B202020202020202020202020202020202064657070616D203B2020202020202020202043394146,
  0x443941462D48504152474F454449205954494C4942495441504D4F43204B4A432020312E3420232020202020202020202037413737203B202020202020202020202020202020202064657070616D203B2020202020202020202044394146,
  0x453941462D48504152474F454449205954494C4942495441504D4F43204B4A432020312E3420232020202020202020202035333237203B202020202020202020202020202020202064657070616D203B2020202020202020202045394146,
  0x463941462D48504152474F454449205954494C4942495441504D4F43204B4A432020312E3420232020202020202020202046413237203B202020202020202020202020202020202064657070616D203B2020202020202020202046394146,
  0x304141462D48504152474F454449205954494C4942495441504D4F43204B4A432020312E3420232020202020202020202041323337203B202020202020202020202020202020202064657070616D203B2020202020202020202030414146,
  0x314141462D48504152474F454449205954494C4942495441504D4F43204B4A432020312E3420232020202020202020202031373437203B202020202020202020202020202020202064657070616D203B2020202020202020202031414146,
  0x324141462D48504152474F454449205954494C4942495441504D4F43204B4A432020312E3420232020202020202020202036303537203B202020202020202020202020202020202064657070616D203B2020202020202020202032414146,
  0x334141462D48504152474F454449205954494C4942495441504D4F43204B4A432020312E3420232020202020202020202042333537203B202020202020202020202020202020202064657070616D203B2020202020202020202033414146,
  0x344141462D48504152474F454449205954494C4942495441504D4F43204B4A432020312E3420232020202020202020202044313637203B202020202020202020202020202020202064657070616D203B2020202020202020202034414146,
  0x354141462D48504152474F454449205954494C4942495441504D4F43204B4A432020312E3420232020202020202020202046313637203B202020202020202020202020202020202064657070616D203B2020202020202020202035414146,
  0x364141462D48504152474F454449205954494C4942495441504D4F43204B4A432020312E3420232020202020202020202041433637203B202020202020202020202020202020202064657070616D203B2020202020202020202036414146,
  0x374141462D48504152474F454449205954494C4942495441504D4F43204B4A432020312E3420232020202020202020202042443637203B202020202020202020202020202020202064657070616D203B2020202020202020202037414146,
  0x384141462D48504152474F454449205954494C4942495441504D4F43204B4A432020312E3420232020202020202020202034463637203B202020202020202020202020202020202064657070616D203B2020202020202020202038414146,
  0x394141462D48504152474F454449205954494C4942495441504D4F43204B4A432020312E3420232020202020202020202041343737203B202020202020202020202020202020202064657070616D203B2020202020202020202039414146,
  0x414141462D48504152474F454449205954494C4942495441504D4F43204B4A432020312E3420232020202020202020202030343737203B202020202020202020202020202020202064657070616D203B2020202020202020202041414146,
  0x424141462D48504152474F454449205954494C4942495441504D4F43204B4A432020312E3420232020202020202020202043433837203B202020202020202020202020202020202064657070616D203B2020202020202020202042414146,
  0x434141462D48504152474F454449205954494C4942495441504D4F43204B4A432020312E3420232020202020202020202031424137203B202020202020202020202020202020202064657070616D203B2020202020202020202043414146,
  0x444141462D48504152474F454449205954494C4942495441504D4F43204B4A432020312E3420232020202020202020202030434237203B202020202020202020202020202020202064657070616D203B2020202020202020202044414146,
  0x454141462D48504152474F454449205954494C4942495441504D4F43204B4A432020312E3420232020202020202020202042374337203B202020202020202020202020202020202064657070616D203B2020202020202020202045414146,
  0x464141462D48504152474F454449205954494C4942495441504D4F43204B4A432020312E3420232020202020202020202042354437203B202020202020202020202020202020202064657070616D203B2020202020202020202046414146,
  0x304241462D48504152474F454449205954494C4942495441504D4F43204B4A432020312E3420232020202020202020202034464437203B202020202020202020202020202020202064657070616D203B2020202020202020202030424146,
  0x314241462D48504152474F454449205954494C4942495441504D4F43204B4A432020312E3420232020202020202020202045334637203B202020202020202020202020202020202064657070616D203B2020202020202020202031424146,
  0x324241462D48504152474F454449205954494C4942495441504D4F43204B4A432020312E3420232020202020202020202035303038203B202020202020202020202020202020202064657070616D203B2020202020202020202032424146,
  0x334241462D48504152474F454449205954494C4942495441504D4F43204B4A432020312E3420232020202020202020202032353338203B202020202020202020202020202020202064657070616D203B2020202020202020202033424146,
  0x344241462D48504152474F454449205954494C4942495441504D4F43204B4A432020312E3420232020202020202020202046453338203B202020202020202020202020202020202064657070616D203B2020202020202020202034424146,
  0x354241462D48504152474F454449205954494C4942495441504D4F43204B4A432020312E3420232020202020202020202039373738203B202020202020202020202020202020202064657070616D203B2020202020202020202035424146,
  0x364241462D48504152474F454449205954494C4942495441504D4F43204B4A432020312E3420232020202020202020202031343938203B202020202020202020202020202020202064657070616D203B2020202020202020202036424146,
  0x374241462D48504152474F454449205954494C4942495441504D4F43204B4A432020312E3420232020202020202020202036383938203B202020202020202020202020202020202064657070616D203B2020202020202020202037424146,
  0x384241462D48504152474F454449205954494C4942495441504D4F43204B4A432020312E3420232020202020202020202036393938203B202020202020202020202020202020202064657070616D203B2020202020202020202038424146,
  0x394241462D48504152474F454449205954494C4942495441504D4F43204B4A432020312E3420232020202020202020202046424138203B202020202020202020202020202020202064657070616D203B2020202020202020202039424146,
  0x414241462D48504152474F454449205954494C4942495441504D4F43204B4A432020312E3420232020202020202020202038464138203B202020202020202020202020202020202064657070616D203B2020202020202020202041424146,
  0x424241462D48504152474F454449205954494C4942495441504D4F43204B4A432020312E3420232020202020202020202042434138203B202020202020202020202020202020202064657070616D203B2020202020202020202042424146,
  0x434241462D48504152474F454449205954494C4942495441504D4F43204B4A432020312E3420232020202020202020202031304238203B202020202020202020202020202020202064657070616D203B2020202020202020202043424146,
  0x444241462D48504152474F454449205954494C4942495441504D4F43204B4A432020312E3420232020202020202020202045464138203B202020202020202020202020202020202064657070616D203B2020202020202020202044424146,
  0x454241462D48504152474F454449205954494C4942495441504D4F43204B4A432020312E3420232020202020202020202044454138203B202020202020202020202020202020202064657070616D203B2020202020202020202045424146,
  0x464241462D48504152474F454449205954494C4942495441504D4F43204B4A432020312E3420232020202020202020202039334238203B202020202020202020202020202020202064657070616D203B2020202020202020202046424146,
  0x304341462D48504152474F454449205954494C4942495441504D4F43204B4A432020312E3420232020202020202020202041384238203B202020202020202020202020202020202064657070616D203B2020202020202020202030434146,
  0x314341462D48504152474F454449205954494C4942495441504D4F43204B4A432020312E3420232020202020202020202038304438203B202020202020202020202020202020202064657070616D203B2020202020202020202031434146,
  0x324341462D48504152474F454449205954494C4942495441504D4F43204B4A432020312E3420232020202020202020202038334638203B202020202020202020202020202020202064657070616D203B2020202020202020202032434146,
  0x334341462D48504152474F454449205954494C4942495441504D4F43204B4A432020312E3420232020202020202020202032373039203B202020202020202020202020202020202064657070616D203B2020202020202020202033434146,
  0x344341462D48504152474F454449205954494C4942495441504D4F43204B4A432020312E3420232020202020202020202039393139203B202020202020202020202020202020202064657070616D203B2020202020202020202034434146,
  0x354341462D48504152474F454449205954494C4942495441504D4F43204B4A432020312E3420232020202020202020202036373239203B202020202020202020202020202020202064657070616D203B2020202020202020202035434146,
  0x364341462D48504152474F454449205954494C4942495441504D4F43204B4A432020312E3420232020202020202020202043373639203B202020202020202020202020202020202064657070616D203B2020202020202020202036434146,
  0x374341462D48504152474F454449205954494C4942495441504D4F43204B4A432020312E3420232020202020202020202033453639203B202020202020202020202020202020202064657070616D203B2020202020202020202037434146,
  0x384341462D48504152474F454449205954494C4942495441504D4F43204B4A432020312E3420232020202020202020202036353739203B202020202020202020202020202020202064657070616D203B2020202020202020202038434146,
  0x394341462D48504152474F454449205954494C4942495441504D4F43204B4A432020312E3420232020202020202020202042443739203B202020202020202020202020202020202064657070616D203B2020202020202020202039434146,
  0x414341462D48504152474F454449205954494C4942495441504D4F43204B4A432020312E3420232020202020202020202046463739203B202020202020202020202020202020202064657070616D203B2020202020202020202041434146,
  0x424341462D48504152474F454449205954494C4942495441504D4F43204B4A432020312E3420232020202020202020202042303839203B202020202020202020202020202020202064657070616D203B2020202020202020202042434146,
  0x434341462D48504152474F454449205954494C4942495441504D4F43204B4A432020312E3420232020202020202020202042333839203B202020202020202020202020202020202064657070616D203B2020202020202020202043434146,
  0x444341462D48504152474F454449205954494C4942495441504D4F43204B4A432020312E3420232020202020202020202032314239203B202020202020202020202020202020202064657070616D203B2020202020202020202044434146,
  0x454341462D48504152474F454449205954494C4942495441504D4F43204B4A432020312E3420232020202020202020202043394639203B202020202020202020202020202020202064657070616D203B2020202020202020202045434146,
  0x464341462D48504152474F454449205954494C4942495441504D4F43204B4A432020312E3420232020202020202020204134383232203B202020202020202020202020202020202064657070616D203B2020202020202020202046434146,
  0x304441462D48504152474F454449205954494C4942495441504D4F43204B4A432020312E3420232020202020202020203434383232203B202020202020202020202020202020202064657070616D203B2020202020202020202030444146,
  0x314441462D48504152474F454449205954494C4942495441504D4F43204B4A432020312E3420232020202020202020203544333332203B202020202020202020202020202020202064657070616D203B2020202020202020202031444146,
  0x324441462D48504152474F454449205954494C4942495441504D4F43204B4A432020312E3420232020202020202020202044394233203B202020202020202020202020202020202064657070616D203B2020202020202020202032444146,
  0x334441462D48504152474F454449205954494C4942495441504D4F43204B4A432020312E3420232020202020202020202038313034203B202020202020202020202020202020202064657070616D203B2020202020202020202033444146,
  0x344441462D48504152474F454449205954494C4942495441504D4F43204B4A432020312E3420232020202020202020202039333034203B202020202020202020202020202020202064657070616D203B2020202020202020202034444146,
  0x354441462D48504152474F454449205954494C4942495441504D4F43204B4A432020312E3420232020202020202020203934323532203B202020202020202020202020202020202064657070616D203B2020202020202020202035444146,
  0x364441462D48504152474F454449205954494C4942495441504D4F43204B4A432020312E3420232020202020202020203044433532203B202020202020202020202020202020202064657070616D203B2020202020202020202036444146,
  0x374441462D48504152474F454449205954494C4942495441504D4F43204B4A432020312E3420232020202020202020203344453732203B202020202020202020202020202020202064657070616D203B2020202020202020202037444146,
  0x384441462D48504152474F454449205954494C4942495441504D4F43204B4A432020312E3420232020202020202020202033344639203B202020202020202020202020202020202064657070616D203B2020202020202020202038444146,
  0x394441462D48504152474F454449205954494C4942495441504D4F43204B4A432020312E3420232020202020202020202045384639203B202020202020202020202020202020202064657070616D203B2020202020202020202039444146,
  0x3E464641462D64657672657365723C2E2E3E414441462D64657672657365723C202020414E202320202020202020202020202020202020202020202020202020202020206465776F6C6C61736964203B20202020464641462E2E41444146,
  0x464620455255544147494C204C4C414D53204E4954414C2020312E3120232020202020363630302036363030203B202020202020202020202020202020202064657070616D203B2020202020202020202030304246,
  0x494620455255544147494C204C4C414D53204E4954414C2020312E3120232020202020393630302036363030203B202020202020202020202020202020202064657070616D203B2020202020202020202031304246,
  0x4C4620455255544147494C204C4C414D53204E4954414C2020312E3120232020202020433630302036363030203B202020202020202020202020202020202064657070616D203B2020202020202020202032304246,
  0x49464620455255544147494C204C4C414D53204E4954414C2020312E3123203936303020363630302036363030203B202020202020202020202020202020202064657070616D203B2020202020202020202033304246,
  0x4C464620455255544147494C204C4C414D53204E4954414C2020312E3123204336303020363630302036363030203B202020202020202020202020202020202064657070616D203B2020202020202020202034304246,
  0x545320455255544147494C204C4C414D53204E4954414C2E2E54205320474E4F4C20455255544147494C204C4C414D53204E4954414C2020312E3120232020202020343730302033373030203B202020202020202020202020202020202064657070616D203B20202020363042462E2E35304246,
  0x3E323142462D64657672657365723C2E2E3E373042462D64657672657365723C202020414E202320202020202020202020202020202020202020202020202020202020206465776F6C6C61736964203B20202020323142462E2E37304246,
  0x574F4E204E454D20455255544147494C204C4C414D53204E41494E454D52412020312E3120232020202020363735302034373530203B202020202020202020202020202020202064657070616D203B2020202020202020202033314246,
  0x484345204E454D20455255544147494C204C4C414D53204E41494E454D52412020312E3120232020202020353635302034373530203B202020202020202020202020202020202064657070616D203B2020202020202020202034314246,
  0x494E49204E454D20455255544147494C204C4C414D53204E41494E454D52412020312E3120232020202020423635302034373530203B202020202020202020202020202020202064657070616D203B2020202020202020202035314246,
  0x574F4E2057455620455255544147494C204C4C414D53204E41494E454D52412020312E3120232020202020363735302045373530203B202020202020202020202020202020202064657070616D203B2020202020202020202036314246,
  0x484558204E454D20455255544147494C204C4C414D53204E41494E454D52412020312E3120232020202020443635302034373530203B202020202020202020202020202020202064657070616D203B2020202020202020202037314246,
  0x3E433142462D64657672657365723C2E2E3E383142462D64657672657365723C202020414E202320202020202020202020202020202020202020202020202020202020206465776F6C6C61736964203B20202020433142462E2E38314246,
  0x5149524948204854495720444F592052455454454C205745524245482020302E3320232020202020344235302039443530203B202020202020202020202020202020202064657070616D203B2020202020202020202044314246,
  0x414B49524156204853494E4150532D4F4544554A20544E494F50205745524245482020312E3120232020202020202020202020202020202020202020202020202020202020202020202064696C6176203B2020202020202020202045314246,
  0x484154415020444F5920444F59204853494444495920455255544147494C205745524245482020312E3120232020202020374235302032463530203B202020202020202020202020202020202064657070616D203B2020202020202020202046314246,
  0x4E4959412045564954414E5245544C412052455454454C205745524245482020312E3120232020202020202020202032453530203B202020202020202020202020202020202064657070616D203B2020202020202020202030324246,
  0x46454C4120454449572052455454454C205745524245482020312E3120232020202020202020202030443530203B202020202020202020202020202020202064657070616D203B2020202020202020202031324246,
  0x54454C414420454449572052455454454C205745524245482020312E3120232020202020202020202033443530203B202020202020202020202020202020202064657070616D203B2020202020202020202032324246,
  0x454820454449572052455454454C205745524245482020312E3120232020202020202020202034443530203B202020202020202020202020202020202064657070616D203B2020202020202020202033324246,
  0x46414B20454449572052455454454C205745524245482020312E3120232020202020202020202042443530203B202020202020202020202020202020202064657070616D203B2020202020202020202034324246,
  0x44454D414C20454449572052455454454C205745524245482020312E3120232020202020202020202043443530203B202020202020202020202020202020202064657070616D203B2020202020202020202035324246,
  0x4D454D204C414E494620454449572052455454454C205745524245482020312E3120232020202020202020202044443530203B202020202020202020202020202020202064657070616D203B2020202020202020202036324246,
  0x4853455220454449572052455454454C205745524245482020312E3120232020202020202020202038453530203B202020202020202020202020202020202064657070616D203B2020202020202020202037324246,
  0x56415420454449572052455454454C205745524245482020312E3120232020202020202020202041453530203B202020202020202020202020202020202064657070616D203B2020202020202020202038324246,
  0x4E4749532053554C502045564954414E5245544C412052455454454C205745524245482020312E3120232020202020202020202042323030203B2064657070616D5F334454535F6465776F6C6C61736964203B2020202020202020202039324246,
  0x544F44204E4948532048544957204E4948532052455454454C205745524245482020312E3120232020202020314335302039453530203B202020202020202020202020202020202064657070616D203B2020202020202020202041324246,
  0x544F44204E49532048544957204E4948532052455454454C205745524245482020312E3120232020202020324335302039453530203B202020202020202020202020202020202064657070616D203B2020202020202020202042324246,
  0x544F44204E49485320444E41204853454741442048544957204E4948532052455454454C205745524245482020312E3123203143353020434235302039453530203B202020202020202020202020202020202064657070616D203B2020202020202020202043324246,
  0x544F44204E495320444E41204853454741442048544957204E4948532052455454454C205745524245482020312E3123203243353020434235302039453530203B202020202020202020202020202020202064657070616D203B2020202020202020202044324246,
  0x484154415020485449572046454C412052455454454C205745524245482020312E3120232020202020374235302030443530203B202020202020202020202020202020202064657070616D203B2020202020202020202045324246,
  0x5354414D415120485449572046454C412052455454454C205745524245482020312E3120232020202020384235302030443530203B202020202020202020202020202020202064657070616D203B2020202020202020202046324246,
  0x514950414D20485449572046454C412052455454454C205745524245482020312E3120232020202020434235302030443530203B202020202020202020202020202020202064657070616D203B2020202020202020202030334246,
  0x4853454741442048544957205445422052455454454C205745524245482020312E3120232020202020434235302031443530203B202020202020202020202020202020202064657070616D203B2020202020202020202031334246,
  0x4853454741442048544957204C454D49472052455454454C205745524245482020312E3120232020202020434235302032443530203B202020202020202020202020202020202064657070616D203B2020202020202020202032334246,
  0x48534547414420485449572054454C41442052455454454C205745524245482020312E3120232020202020434235302033443530203B202020202020202020202020202020202064657070616D203B2020202020202020202033334246,
  0x514950414D20485449572045482052455454454C205745524245482020312E3120232020202020434235302034443530203B202020202020202020202020202020202064657070616D203B2020202020202020202034334246,
  0x4853454741442048544957205641562052455454454C205745524245482020312E3120232020202020434235302035443530203B202020202020202020202020202020202064657070616D203B2020202020202020202035334246,
  0x4853454741442048544957204E4959415A2052455454454C205745524245482020312E3120232020202020434235302036443530203B202020202020202020202020202020202064657070616D203B2020202020202020202036334246,
  0x3E373342462D64657672657365723C202020414E202320202020202020202020202020202020202020202020202020202020206465776F6C6C61736964203B2020202020202020202037334246,
  0x4853454741442048544957205445542052455454454C205745524245482020312E3120232020202020434235302038443530203B202020202020202020202020202020202064657070616D203B2020202020202020202038334246,
  0x485345474144204854495720444F592052455454454C205745524245482020312E3120232020202020434235302039443530203B202020202020202020202020202020202064657070616D203B2020202020202020202039334246,
  0x48534547414420485449572046414B204C414E49462052455454454C205745524245482020312E3120232020202020434235302041443530203B202020202020202020202020202020202064657070616D203B2020202020202020202041334246,
  0x48534547414420485449572046414B2052455454454C205745524245482020312E3120232020202020434235302042443530203B202020202020202020202020202020202064657070616D203B2020202020202020202042334246,
  0x48534547414420485449572044454D414C2052455454454C205745524245482020312E3120232020202020434235302043443530203B202020202020202020202020202020202064657070616D203B2020202020202020202043334246,
  0x3E443342462D64657672657365723C202020414E202320202020202020202020202020202020202020202020202020202020206465776F6C6C61736964203B2020202020202020202044334246,
  0x4853454741442048544957204D454D2052455454454C205745524245482020312E3120232020202020434235302045443530203B202020202020202020202020202020202064657070616D203B2020202020202020202045334246,
  0x3E463342462D64657672657365723C202020414E202320202020202020202020202020202020202020202020202020202020206465776F6C6C61736964203B2020202020202020202046334246,
  0x4853454741442048544957204E554E2052455454454C205745524245482020312E3120232020202020434235302030453530203B202020202020202020202020202020202064657070616D203B2020202020202020202030344246,
  0x485345474144204854495720484B454D41532052455454454C205745524245482020312E3120232020202020434235302031453530203B202020202020202020202020202020202064657070616D203B2020202020202020202031344246,
  0x3E323442462D64657672657365723C202020414E202320202020202020202020202020202020202020202020202020202020206465776F6C6C61736964203B2020202020202020202032344246,
  0x4853454741442048544957204550204C414E49462052455454454C205745524245482020312E3120232020202020434235302033453530203B202020202020202020202020202020202064657070616D203B2020202020202020202033344246,
  0x48534547414420485449572045502052455454454C205745524245482020312E3120232020202020434235302034453530203B202020202020202020202020202020202064657070616D203B2020202020202020202034344246,
  0x3E353442462D64657672657365723C202020414E202320202020202020202020202020202020202020202020202020202020206465776F6C6C61736964203B2020202020202020202035344246,
  0x48534547414420485449572049444153542052455454454C205745524245482020312E3120232020202020434235302036453530203B202020202020202020202020202020202064657070616D203B2020202020202020202036344246,
  0x485345474144204854495720464F512052455454454C205745524245482020312E3120232020202020434235302037453530203B202020202020202020202020202020202064657070616D203B2020202020202020202037344246,
  0x485345474144204854495720485345522052455454454C205745524245482020312E3120232020202020434235302038453530203B202020202020202020202020202020202064657070616D203B2020202020202020202038344246,
  0x4853454741442048544957204E4948532052455454454C205745524245482020312E3120232020202020434235302039453530203B202020202020202020202020202020202064657070616D203B2020202020202020202039344246,
  0x4853454741442048544957205641542052455454454C205745524245482020312E3120232020202020434235302041453530203B202020202020202020202020202020202064657070616D203B2020202020202020202041344246,
  0x4D414C4F482048544957205641562052455454454C205745524245482020312E3120232020202020394235302035443530203B202020202020202020202020202020202064657070616D203B2020202020202020202042344246,
  0x454641522048544957205445422052455454454C205745524245482020312E3120232020202020464235302031443530203B202020202020202020202020202020202064657070616D203B2020202020202020202043344246,
  0x4546415220485449572046414B2052455454454C205745524245482020312E3120232020202020464235302042443530203B202020202020202020202020202020202064657070616D203B2020202020202020202044344246,
  0x4546415220485449572045502052455454454C205745524245482020312E3120232020202020464235302034453530203B202020202020202020202020202020202064657070616D203B2020202020202020202045344246,
  0x44454D414C2046454C4120455255544147494C205745524245482020312E3120232020202020434435302030443530203B202020202020202020202020202020202064657070616D203B2020202020202020202046344246,
  0x4D524F46204C414E494620414C5341572046454C412052455454454C204349424152412E2E4D524F4620444554414C4F534920414C5341572046454C412052455454454C204349424152412020312E3120232020202020202020202031373630203B202020202020202020202020202020202064657070616D203B20202020313542462E2E30354246,
  0x4D524F46204C414944454D20484545422052455454454C204349424152412E2E4D524F4620444554414C4F534920484545422052455454454C204349424152412020312E3120232020202020202020202042373630203B202020202020202020202020202020202064657070616D203B20202020353542462E2E32354246,
  0x4D524F46204C414944454D204845502052455454454C204349424152412E2E4D524F4620444554414C4F5349204845502052455454454C204349424152412020312E3120232020202020202020202045373630203B202020202020202020202020202020202064657070616D203B20202020393542462E2E36354246,
  0x4D524F46204C414944454D2048454845422052455454454C204349424152412E2E4D524F4620444554414C4F53492048454845422052455454454C204349424152412020312E3120232020202020202020202030383630203B202020202020202020202020202020202064657070616D203B20202020443542462E2E41354246,
  0x4D524F46204C414944454D204845484554542052455454454C204349424152412E2E4D524F4620444554414C4F5349204845484554542052455454454C204349424152412020312E3120232020202020202020202041373630203B202020202020202020202020202020202064657070616D203B20202020313642462E2E45354246,
  0x4D524F46204C414944454D2048454845542052455454454C204349424152412E2E4D524F4620444554414C4F53492048454845542052455454454C204349424152412020312E3120232020202020202020202046373630203B202020202020202020202020202020202064657070616D203B20202020353642462E2E32364246,
  0x4D524F46204C414944454D20484554542052455454454C204349424152412E2E4D524F4620444554414C4F534920484554542052455454454C204349424152412020312E3120232020202020202020202039373630203B202020202020202020202020202020202064657070616D203B20202020393642462E2E36364246,
  0x4D524F46204C414944454D204845562052455454454C204349424152412E2E4D524F4620444554414C4F5349204845562052455454454C204349424152412020312E3120232020202020202020202034413630203B202020202020202020202020202020202064657070616D203B20202020443642462E2E41364246,
  0x4D524F46204C414944454D2048454845502052455454454C204349424152412E2E4D524F4620444554414C4F53492048454845502052455454454C204349424152412020312E3120232020202020202020202036413630203B202020202020202020202020202020202064657070616D203B20202020313742462E2E45364246,
  0x4D524F46204C414944454D20484559442052455454454C204349424152412E2E4D524F4620444554414C4F534920484559442052455454454C204349424152412020312E3120232020202020202020202034383630203B202020202020202020202020202020202064657070616D203B20202020353742462E2E32374246,
  0x4D524F46204C414944454D204845594E2052455454454C204349424152412E2E4D524F4620444554414C4F5349204845594E2052455454454C204349424152412020312E3120232020202020202020202033383630203B202020202020202020202020202020202064657070616D203B20202020393742462E2E36374246,
  0x4D524F46204C414944454D2048454843542052455454454C204349424152412E2E4D524F4620444554414C4F53492048454843542052455454454C204349424152412020312E3120232020202020202020202036383630203B202020202020202020202020202020202064657070616D203B20202020443742462E2E41374246,
  0x4D524F46204C414944454D20484548454843542052455454454C204349424152412E2E4D524F4620444554414C4F534920484548454843542052455454454C204349424152412020312E3120232020202020202020202037383630203B202020202020202020202020202020202064657070616D203B20202020313842462E2E45374246,
  0x4D524F46204C414E4946204C41484144442052455454454C204349424152412E2E4D524F4620444554414C4F5349204C41484144442052455454454C204349424152412020312E3120232020202020202020202044383630203B202020202020202020202020202020202064657070616D203B20202020333842462E2E32384246,
  0x4D524F46204C414E4946204C414841442052455454454C204349424152412E2E4D524F4620444554414C4F5349204C414841442052455454454C204349424152412020312E3120232020202020202020202043383630203B202020202020202020202020202020202064657070616D203B20202020353842462E2E34384246,
  0x4D524F46204C414E4946204C55442052455454454C204349424152412E2E4D524F4620444554414C4F5349204C55442052455454454C204349424152412020312E3120232020202020202020202045383630203B202020202020202020202020202020202064657070616D203B20202020373842462E2E36384246,
  0x4D524F46204C414E4946204C4144442052455454454C204349424152412E2E4D524F4620444554414C4F5349204C4144442052455454454C204349424152412020312E3120232020202020202020202038383630203B202020202020202020202020202020202064657070616D203B20202020393842462E2E38384246,
  0x4D524F46204C414E49462048454A2052455454454C204349424152412E2E4D524F4620444554414C4F53492048454A2052455454454C204349424152412020312E3120232020202020202020202038393630203B202020202020202020202020202020202064657070616D203B20202020423842462E2E41384246,
  0x4D524F46204C414E494620484552522052455454454C204349424152412E2E4D524F4620444554414C4F534920484552522052455454454C204349424152412020312E3120232020202020202020202031393630203B202020202020202020202020202020202064657070616D203B20202020443842462E2E43384246,
  0x4D524F46204C414944454D20484548454B2052455454454C204349424152412E2E4D524F4620444554414C4F534920484548454B2052455454454C204349424152412020312E3120232020202020202020202039413630203B202020202020202020202020202020202064657070616D203B20202020313942462E2E45384246,
  0x4D524F46204C414944454D204641472052455454454C204349424152412E2E4D524F4620444554414C4F5349204641472052455454454C204349424152412020312E3120232020202020202020202046413630203B202020202020202020202020202020202064657070616D203B20202020353942462E2E32394246,
  0x4D524F46204C414944454D20484555472052455454454C204349424152412E2E4D524F4620444554414C4F534920484555472052455454454C204349424152412020312E3120232020202020202020202033423630203B202020202020202020202020202020202064657070616D203B20202020393942462E2E36394246,
  0x4D524F46204C414944454D2048454F474E2052455454454C204349424152412E2E4D524F4620444554414C4F53492048454F474E2052455454454C204349424152412020312E3120232020202020202020202031423630203B202020202020202020202020202020202064657070616D203B20202020443942462E2E41394246,
  0x4D524F46204C414E494620414E4E554847204E4F4F4E2052455454454C204349424152412E2E4D524F4620444554414C4F534920414E4E554847204E4F4F4E2052455454454C204349424152412020312E3120232020202020202020202041423630203B202020202020202020202020202020202064657070616D203B20202020463942462E2E45394246,
  0x4D524F46204C414944454D204E4F4F4E522052455454454C204349424152412E2E4D524F4620444554414C4F5349204E4F4F4E522052455454454C204349424152412020312E3120232020202020202020202042423630203B202020202020202020202020202020202064657070616D203B20202020334142462E2E30414246,
  0x4D524F46204C414E49462045564F4241204845592048544957204845482052455454454C204349424152412E2E4D524F4620444554414C4F53492045564F4241204845592048544957204845482052455454454C204349424152412020312E3120232020202020202020202030433630203B202020202020202020202020202020202064657070616D203B20202020354142462E2E34414246,
  0x4D524F46204C414944454D204C414F47204845482052455454454C204349424152412E2E4D524F4620444554414C4F5349204C414F47204845482052455454454C204349424152412020312E3120232020202020202020202031433630203B202020202020202020202020202020202064657070616D203B20202020394142462E2E36414246,
  0x4D524F46204C414944454D2045454D4853414843414F44204845482052455454454C204349424152412E2E4D524F4620444554414C4F53492045454D4853414843414F44204845482052455454454C204349424152412020312E3120232020202020202020202045423630203B202020202020202020202020202020202064657070616D203B20202020444142462E2E41414246,
  0x4D524F46204C414E494620454552524142204845592052455454454C204349424152412E2E4D524F4620444554414C4F534920454552524142204845592052455454454C204349424152412020312E3120232020202020202020202032443630203B202020202020202020202020202020202064657070616D203B20202020464142462E2E45414246,
  0x4D524F46204C414E49462045564F424120415A4D4148204854495720454552524142204845592052455454454C204349424152412E2E4D524F4620444554414C4F53492045564F424120415A4D4148204854495720454552524142204845592052455454454C204349424152412020312E3120232020202020202020202033443630203B202020202020202020202020202020202064657070616D203B20202020314242462E2E30424246,
  0x574F4C454220484154204C4C414D53204C4F424D5953204349424152412E2E45564F424120544F44204C4F424D5953204349424152412020302E3620232020202038564E203B2020202020203B20202020202020202020202020202020202064696C6176203B20202020314342462E2E32424246,
  0x3E324442462D64657672657365723C2E2E3E324342462D64657672657365723C202020414E202320202020202020202020202020202020202020202020202020202020206465776F6C6C61736964203B20202020324442462E2E32434246,
  0x4D524F46204C414944454D20474E2052455454454C204349424152412E2E4D524F4620444554414C4F534920474E2052455454454C204349424152412020312E3120232020202020202020202044413630203B202020202020202020202020202020202064657070616D203B20202020364442462E2E33444246,
  0x4D524F46204C414E494620552052455454454C204349424152412E2E4D524F4620444554414C4F534920552052455454454C204349424152412020312E3120232020202020202020202037433630203B202020202020202020202020202020202064657070616D203B20202020384442462E2E37444246,
  0x4D524F46204C414E494620454F2052455454454C204349424152412E2E4D524F4620444554414C4F534920454F2052455454454C204349424152412020312E3120232020202020202020202036433630203B202020202020202020202020202020202064657070616D203B20202020414442462E2E39444246,
  0x4D524F46204C414E49462055592052455454454C204349424152412E2E4D524F4620444554414C4F53492055592052455454454C204349424152412020312E3120232020202020202020202038433630203B202020202020202020202020202020202064657070616D203B20202020434442462E2E42444246,
  0x4D524F4620444554414C4F53492045564F424120415A4D4148204854495720552052455454454C204349424152412020312E3120232020202020343736302037433630203B202020202020202020202020202020202064657070616D203B2020202020202020202044444246,
  0x4D524F46204C414E49462045562052455454454C204349424152412E2E4D524F4620444554414C4F53492045562052455454454C204349424152412020312E3120232020202020202020202042433630203B202020202020202020202020202020202064657070616D203B20202020464442462E2E45444246,
  0x4D524F46204C414E494620454F205A49484752494B2052455454454C204349424152412E2E4D524F4620444554414C4F534920454F205A49484752494B2052455454454C204349424152412020312E3120232020202020202020202035433630203B202020202020202020202020202020202064657070616D203B20202020314542462E2E30454246,
  0x4D524F46204C414E4946205559205A49484752494B2052455454454C204349424152412E2E4D524F4620444554414C4F5349205559205A49484752494B2052455454454C204349424152412020312E3120232020202020202020202039433630203B202020202020202020202020202020202064657070616D203B20202020334542462E2E32454246,
  0x4D524F46204C414944454D20452052455454454C204349424152412E2E4D524F4620444554414C4F534920452052455454454C204349424152412020312E3120232020202020202020202030443630203B202020202020202020202020202020202064657070616D203B20202020374542462E2E34454246,
  0x4D524F46204C414944454D20415255534B414D2046454C41205A49484752494B20484B415A414B205255484749552052455454454C204349424152412E2E4D524F46204C414954494E4920415255534B414D2046454C41205A49484752494B20484B415A414B205255484749552052455454454C204349424152412020312E3120232020202020202020202039343630203B202020202020202020202020202020202064657070616D203B20202020394542462E2E38454246,
  0x4D524F46204C414E49462046454C4120485449572045564F424120415A4D414820485449572048455920455255544147494C204349424152412E2E4D524F4620444554414C4F53492046454C4120485449572045564F424120415A4D414820485449572048455920455255544147494C204349424152412020312E3120232020202020373236302036323630203B202020202020202020202020202020202064657070616D203B20202020424542462E2E41454246,
  0x4D524F46204C414E494620454120485449572045564F424120415A4D414820485449572048455920455255544147494C204349424152412E2E4D524F4620444554414C4F534920454120485449572045564F424120415A4D414820485449572048455920455255544147494C204349424152412020312E3120232020202020354436302036323630203B202020202020202020202020202020202064657070616D203B20202020444542462E2E43454246,
  0x4D524F46204C414E49462057415720485449572045564F424120415A4D414820485449572048455920455255544147494C204349424152412E2E4D524F4620444554414C4F53492057415720485449572045564F424120415A4D414820485449572048455920455255544147494C204349424152412020312E3120232020202020383436302036323630203B202020202020202020202020202020202064657070616D203B20202020464542462E2E45454246,
  0x4D524F46204C414E4946205520485449572045564F424120415A4D414820485449572048455920455255544147494C204349424152412E2E4D524F4620444554414C4F5349205520485449572045564F424120415A4D414820485449572048455920455255544147494C204349424152412020312E3120232020202020374336302036323630203B202020202020202020202020202020202064657070616D203B20202020314642462E2E30464246,
  0x4D524F46204C414E494620454F20485449572045564F424120415A4D414820485449572048455920455255544147494C204349424152412E2E4D524F4620444554414C4F534920454F20485449572045564F424120415A4D414820485449572048455920455255544147494C204349424152412020312E3120232020202020364336302036323630203B202020202020202020202020202020202064657070616D203B20202020334642462E2E32464246,
  0x4D524F46204C414E494620555920485449572045564F424120415A4D414820485449572048455920455255544147494C204349424152412E2E4D524F4620444554414C4F534920555920485449572045564F424120415A4D414820485449572048455920455255544147494C204349424152412020312E3120232020202020384336302036323630203B202020202020202020202020202020202064657070616D203B20202020354642462E2E34464246,
  0x4D524F46204C414954494E49204520485449572045564F424120415A4D414820485449572048455920455255544147494C204349424152412E2E4D524F4620444554414C4F5349204520485449572045564F424120415A4D414820485449572048455920455255544147494C204349424152412020312E3120232020202020304436302036323630203B202020202020202020202020202020202064657070616D203B20202020384642462E2E36464246,
  0x4D524F46204C414954494E4920415255534B414D2046454C4120485449572045564F424120415A4D4148204854495720484559205A49484752494B2052554847495520455255544147494C204349424152412E2E4D524F4620444554414C4F534920415255534B414D2046454C4120485449572045564F424120415A4D4148204854495720484559205A49484752494B2052554847495520455255544147494C204349424152412020312E3120232020202020393436302036323630203B202020202020202020202020202020202064657070616D203B20202020424642462E2E39464246,
  0x4D524F46204C414944454D204845592049535241462052455454454C204349424152412E2E4D524F4620444554414C4F5349204845592049535241462052455454454C204349424152412020312E3120232020202020202020202043433630203B202020202020202020202020202020202064657070616D203B20202020464642462E2E43464246,
  0x4D524F4620444554414C4F5349204D45454A20485449572045564F424120415A4D414820485449572048455920455255544147494C204349424152412020312E3120232020202020433236302036323630203B202020202020202020202020202020202064657070616D203B2020202020202020202030304346,
  0x4D524F4620444554414C4F53492048414820485449572045564F424120415A4D414820485449572048455920455255544147494C204349424152412020312E3120232020202020443236302036323630203B202020202020202020202020202020202064657070616D203B2020202020202020202031304346,
  0x4D524F4620444554414C4F5349204D45454D20485449572045564F424120415A4D414820485449572048455920455255544147494C204349424152412020312E3120232020202020353436302036323630203B202020202020202020202020202020202064657070616D203B2020202020202020202032304346,
  0x4D524F4620444554414C4F534920415255534B414D2046454C4120485449572045564F424120415A4D414820485449572048455920455255544147494C204349424152412020312E3120232020202020393436302036323630203B202020202020202020202020202020202064657070616D203B2020202020202020202033304346,
  0x4D524F4620444554414C4F53492048455920485449572045564F424120415A4D414820485449572048455920455255544147494C204349424152412020312E3120232020202020413436302036323630203B202020202020202020202020202020202064657070616D203B2020202020202020202034304346,
  0x4D524F4620444554414C4F5349204D45454A20485449572048454220455255544147494C204349424152412020312E3120232020202020433236302038323630203B202020202020202020202020202020202064657070616D203B2020202020202020202035304346,
  0x4D524F4620444554414C4F53492048414820485449572048454220455255544147494C204349424152412020312E3120232020202020443236302038323630203B202020202020202020202020202020202064657070616D203B2020202020202020202036304346,
  0x4D524F4620444554414C4F5349204841484B20485449572048454220455255544147494C204349424152412020312E3120232020202020453236302038323630203B202020202020202020202020202020202064657070616D203B2020202020202020202037304346,
  0x4D524F4620444554414C4F5349204D45454D20485449572048454220455255544147494C204349424152412020312E3120232020202020353436302038323630203B202020202020202020202020202020202064657070616D203B2020202020202020202038304346,
  0x4D524F4620444554414C4F534920415255534B414D2046454C4120485449572048454220455255544147494C204349424152412020312E3120232020202020393436302038323630203B202020202020202020202020202020202064657070616D203B2020202020202020202039304346,
  0x4D524F4620444554414C4F53492048455920485449572048454220455255544147494C204349424152412020312E3120232020202020413436302038323630203B202020202020202020202020202020202064657070616D203B2020202020202020202041304346,
  0x4D524F4620444554414C4F5349204D45454A20485449572048455420455255544147494C204349424152412020312E3120232020202020433236302041323630203B202020202020202020202020202020202064657070616D203B2020202020202020202042304346,
  0x4D524F4620444554414C4F53492048414820485449572048455420455255544147494C204349424152412020312E3120232020202020443236302041323630203B202020202020202020202020202020202064657070616D203B2020202020202020202043304346,
  0x4D524F4620444554414C4F5349204841484B20485449572048455420455255544147494C204349424152412020312E3120232020202020453236302041323630203B202020202020202020202020202020202064657070616D203B2020202020202020202044304346,
  0x4D524F4620444554414C4F5349204D45454D20485449572048455420455255544147494C204349424152412020312E3120232020202020353436302041323630203B202020202020202020202020202020202064657070616D203B2020202020202020202045304346,
  0x4D524F4620444554414C4F534920415255534B414D2046454C4120485449572048455420455255544147494C204349424152412020312E3120232020202020393436302041323630203B202020202020202020202020202020202064657070616D203B2020202020202020202046304346,
  0x4D524F4620444554414C4F53492048455920485449572048455420455255544147494C204349424152412020312E3120232020202020413436302041323630203B202020202020202020202020202020202064657070616D203B2020202020202020202030314346,
  0x4D524F4620444554414C4F5349204D45454A2048544957204845485420455255544147494C204349424152412020312E3120232020202020433236302042323630203B202020202020202020202020202020202064657070616D203B2020202020202020202031314346,
  0x4D524F4620444554414C4F5349204D45454D2048544957204845485420455255544147494C204349424152412020312E3120232020202020353436302042323630203B202020202020202020202020202020202064657070616D203B2020202020202020202032314346,
  0x4D524F4620444554414C4F534920415255534B414D2046454C412048544957204845485420455255544147494C204349424152412020312E3120232020202020393436302042323630203B202020202020202020202020202020202064657070616D203B2020202020202020202033314346,
  0x4D524F4620444554414C4F5349204845592048544957204845485420455255544147494C204349424152412020312E3120232020202020413436302042323630203B202020202020202020202020202020202064657070616D203B2020202020202020202034314346,
  0x4D524F4620444554414C4F5349204841482048544957204D45454A20455255544147494C204349424152412020312E3120232020202020443236302043323630203B202020202020202020202020202020202064657070616D203B2020202020202020202035314346,
  0x4D524F4620444554414C4F5349204D45454D2048544957204D45454A20455255544147494C204349424152412020312E3120232020202020353436302043323630203B202020202020202020202020202020202064657070616D203B2020202020202020202036314346,
  0x4D524F4620444554414C4F5349204D45454A20485449572048414820455255544147494C204349424152412020312E3120232020202020433236302044323630203B202020202020202020202020202020202064657070616D203B2020202020202020202037314346,
  0x4D524F4620444554414C4F5349204D45454D20485449572048414820455255544147494C204349424152412020312E3120232020202020353436302044323630203B202020202020202020202020202020202064657070616D203B2020202020202020202038314346,
  0x4D524F4620444554414C4F5349204D45454A2048544957204841484B20455255544147494C204349424152412020312E3120232020202020433236302045323630203B202020202020202020202020202020202064657070616D203B2020202020202020202039314346,
  0x4D524F4620444554414C4F5349204841482048544957204841484B20455255544147494C204349424152412020312E3120232020202020443236302045323630203B202020202020202020202020202020202064657070616D203B2020202020202020202041314346,
  0x4D524F4620444554414C4F5349204D45454D2048544957204841484B20455255544147494C204349424152412020312E3120232020202020353436302045323630203B202020202020202020202020202020202064657070616D203B2020202020202020202042314346,
  0x4D524F4620444554414C4F5349204D45454A2048544957204E45455320455255544147494C204349424152412020312E3120232020202020433236302033333630203B202020202020202020202020202020202064657070616D203B2020202020202020202043314346,
  0x4D524F4620444554414C4F5349204841482048544957204E45455320455255544147494C204349424152412020312E3120232020202020443236302033333630203B202020202020202020202020202020202064657070616D203B2020202020202020202044314346,
  0x4D524F4620444554414C4F5349204841484B2048544957204E45455320455255544147494C204349424152412020312E3120232020202020453236302033333630203B202020202020202020202020202020202064657070616D203B2020202020202020202045314346,
  0x4D524F4620444554414C4F5349204D45454D2048544957204E45455320455255544147494C204349424152412020312E3120232020202020353436302033333630203B202020202020202020202020202020202064657070616D203B2020202020202020202046314346,
  0x4D524F4620444554414C4F53492048414820485449572044415320455255544147494C204349424152412020312E3120232020202020443236302035333630203B202020202020202020202020202020202064657070616D203B2020202020202020202030324346,
  0x4D524F4620444554414C4F5349204D45454D20485449572044415320455255544147494C204349424152412020312E3120232020202020353436302035333630203B202020202020202020202020202020202064657070616D203B2020202020202020202031324346,
  0x4D524F4620444554414C4F5349204D45454A20485449572044414420455255544147494C204349424152412020312E3120232020202020433236302036333630203B202020202020202020202020202020202064657070616D203B2020202020202020202032324346,
  0x4D524F4620444554414C4F53492048414820485449572044414420455255544147494C204349424152412020312E3120232020202020443236302036333630203B202020202020202020202020202020202064657070616D203B2020202020202020202033324346,
  0x4D524F4620444554414C4F5349204841484B20485449572044414420455255544147494C204349424152412020312E3120232020202020453236302036333630203B202020202020202020202020202020202064657070616D203B2020202020202020202034324346,
  0x4D524F4620444554414C4F5349204D45454D20485449572044414420455255544147494C204349424152412020312E3120232020202020353436302036333630203B202020202020202020202020202020202064657070616D203B2020202020202020202035324346,
  0x4D524F4620444554414C4F53492048414820485449572048415420455255544147494C204349424152412020312E3120232020202020443236302037333630203B202020202020202020202020202020202064657070616D203B2020202020202020202036324346,
  0x4D524F4620444554414C4F5349204D45454D20485449572048415420455255544147494C204349424152412020312E3120232020202020353436302037333630203B202020202020202020202020202020202064657070616D203B2020202020202020202037324346,
  0x4D524F4620444554414C4F5349204D45454D20485449572048415A20455255544147494C204349424152412020312E3120232020202020353436302038333630203B202020202020202020202020202020202064657070616D203B2020202020202020202038324346,
  0x4D524F4620444554414C4F5349204D45454A2048544957204E494120455255544147494C204349424152412020312E3120232020202020433236302039333630203B202020202020202020202020202020202064657070616D203B2020202020202020202039324346,
  0x4D524F4620444554414C4F5349204D45454D2048544957204E494120455255544147494C204349424152412020312E3120232020202020353436302039333630203B202020202020202020202020202020202064657070616D203B2020202020202020202041324346,
  0x4D524F4620444554414C4F5349204D45454A2048544957204E4941484720455255544147494C204349424152412020312E3120232020202020433236302041333630203B202020202020202020202020202020202064657070616D203B2020202020202020202042324346,
  0x4D524F4620444554414C4F5349204D45454D2048544957204E4941484720455255544147494C204349424152412020312E3120232020202020353436302041333630203B202020202020202020202020202020202064657070616D203B2020202020202020202043324346]

def mapText20 : List Nat := [
  0x4D524F4620444554414C4F5349204D45454A20485449572048454620455255544147494C204349424152412020312E3120232020202020433236302031343630203B202020202020202020202020202020202064657070616D203B2020202020202020202044324346,
  0x4D524F4620444554414C4F53492048414820485449572048454620455255544147494C204349424152412020312E3120232020202020443236302031343630203B202020202020202020202020202020202064657070616D203B2020202020202020202045324346,
  0x4D524F4620444554414C4F5349204841484B20485449572048454620455255544147494C204349424152412020312E3120232020202020453236302031343630203B202020202020202020202020202020202064657070616D203B2020202020202020202046324346,
  0x4D524F4620444554414C4F5349204D45454D20485449572048454620455255544147494C204349424152412020312E3120232020202020353436302031343630203B202020202020202020202020202020202064657070616D203B2020202020202020202030334346,
  0x4D524F4620444554414C4F534920415255534B414D2046454C4120485449572048454620455255544147494C204349424152412020312E3120232020202020393436302031343630203B202020202020202020202020202020202064657070616D203B2020202020202020202031334346,
  0x4D524F4620444554414C4F53492048455920485449572048454620455255544147494C204349424152412020312E3120232020202020413436302031343630203B202020202020202020202020202020202064657070616D203B2020202020202020202032334346,
  0x4D524F4620444554414C4F53492048414820485449572046415120455255544147494C204349424152412020312E3120232020202020443236302032343630203B202020202020202020202020202020202064657070616D203B2020202020202020202033334346,
  0x4D524F4620444554414C4F5349204D45454D20485449572046415120455255544147494C204349424152412020312E3120232020202020353436302032343630203B202020202020202020202020202020202064657070616D203B2020202020202020202034334346,
  0x4D524F4620444554414C4F534920415255534B414D2046454C4120485449572046415120455255544147494C204349424152412020312E3120232020202020393436302032343630203B202020202020202020202020202020202064657070616D203B2020202020202020202035334346,
  0x4D524F4620444554414C4F53492048455920485449572046415120455255544147494C204349424152412020312E3120232020202020413436302032343630203B202020202020202020202020202020202064657070616D203B2020202020202020202036334346,
  0x4D524F4620444554414C4F53492046454C4120485449572046414B20455255544147494C204349424152412020312E3120232020202020373236302033343630203B202020202020202020202020202020202064657070616D203B2020202020202020202037334346,
  0x4D524F4620444554414C4F5349204D45454A20485449572046414B20455255544147494C204349424152412020312E3120232020202020433236302033343630203B202020202020202020202020202020202064657070616D203B2020202020202020202038334346,
  0x4D524F4620444554414C4F53492048414820485449572046414B20455255544147494C204349424152412020312E3120232020202020443236302033343630203B202020202020202020202020202020202064657070616D203B2020202020202020202039334346,
  0x4D524F4620444554414C4F5349204841484B20485449572046414B20455255544147494C204349424152412020312E3120232020202020453236302033343630203B202020202020202020202020202020202064657070616D203B2020202020202020202041334346,
  0x4D524F4620444554414C4F5349204D414C20485449572046414B20455255544147494C204349424152412020312E3120232020202020343436302033343630203B202020202020202020202020202020202064657070616D203B2020202020202020202042334346,
  0x4D524F4620444554414C4F5349204D45454D20485449572046414B20455255544147494C204349424152412020312E3120232020202020353436302033343630203B202020202020202020202020202020202064657070616D203B2020202020202020202043334346,
  0x4D524F4620444554414C4F534920415255534B414D2046454C4120485449572046414B20455255544147494C204349424152412020312E3120232020202020393436302033343630203B202020202020202020202020202020202064657070616D203B2020202020202020202044334346,
  0x4D524F4620444554414C4F53492048455920485449572046414B20455255544147494C204349424152412020312E3120232020202020413436302033343630203B202020202020202020202020202020202064657070616D203B2020202020202020202045334346,
  0x4D524F4620444554414C4F5349204D45454A2048544957204D414C20455255544147494C204349424152412020312E3120232020202020433236302034343630203B202020202020202020202020202020202064657070616D203B2020202020202020202046334346,
  0x4D524F4620444554414C4F5349204841482048544957204D414C20455255544147494C204349424152412020312E3120232020202020443236302034343630203B202020202020202020202020202020202064657070616D203B2020202020202020202030344346,
  0x4D524F4620444554414C4F5349204841484B2048544957204D414C20455255544147494C204349424152412020312E3120232020202020453236302034343630203B202020202020202020202020202020202064657070616D203B2020202020202020202031344346,
  0x4D524F4620444554414C4F5349204D45454D2048544957204D414C20455255544147494C204349424152412020312E3120232020202020353436302034343630203B202020202020202020202020202020202064657070616D203B2020202020202020202032344346,
  0x4D524F4620444554414C4F534920415255534B414D2046454C412048544957204D414C20455255544147494C204349424152412020312E3120232020202020393436302034343630203B202020202020202020202020202020202064657070616D203B2020202020202020202033344346,
  0x4D524F4620444554414C4F5349204845592048544957204D414C20455255544147494C204349424152412020312E3120232020202020413436302034343630203B202020202020202020202020202020202064657070616D203B2020202020202020202034344346,
  0x4D524F4620444554414C4F5349204D45454A2048544957204D45454D20455255544147494C204349424152412020312E3120232020202020433236302035343630203B202020202020202020202020202020202064657070616D203B2020202020202020202035344346,
  0x4D524F4620444554414C4F5349204841482048544957204D45454D20455255544147494C204349424152412020312E3120232020202020443236302035343630203B202020202020202020202020202020202064657070616D203B2020202020202020202036344346,
  0x4D524F4620444554414C4F5349204841484B2048544957204D45454D20455255544147494C204349424152412020312E3120232020202020453236302035343630203B202020202020202020202020202020202064657070616D203B2020202020202020202037344346,
  0x4D524F4620444554414C4F5349204D45454D2048544957204D45454D20455255544147494C204349424152412020312E3120232020202020353436302035343630203B202020202020202020202020202020202064657070616D203B2020202020202020202038344346,
  0x4D524F4620444554414C4F534920415255534B414D2046454C412048544957204D45454D20455255544147494C204349424152412020312E3120232020202020393436302035343630203B202020202020202020202020202020202064657070616D203B2020202020202020202039344346,
  0x4D524F4620444554414C4F5349204845592048544957204D45454D20455255544147494C204349424152412020312E3120232020202020413436302035343630203B202020202020202020202020202020202064657070616D203B2020202020202020202041344346,
  0x4D524F4620444554414C4F5349204D45454A2048544957204E4F4F4E20455255544147494C204349424152412020312E3120232020202020433236302036343630203B202020202020202020202020202020202064657070616D203B2020202020202020202042344346,
  0x4D524F4620444554414C4F5349204841482048544957204E4F4F4E20455255544147494C204349424152412020312E3120232020202020443236302036343630203B202020202020202020202020202020202064657070616D203B2020202020202020202043344346,
  0x4D524F4620444554414C4F5349204841484B2048544957204E4F4F4E20455255544147494C204349424152412020312E3120232020202020453236302036343630203B202020202020202020202020202020202064657070616D203B2020202020202020202044344346,
  0x4D524F4620444554414C4F5349204D45454D2048544957204E4F4F4E20455255544147494C204349424152412020312E3120232020202020353436302036343630203B202020202020202020202020202020202064657070616D203B2020202020202020202045344346,
  0x4D524F4620444554414C4F534920415255534B414D2046454C412048544957204E4F4F4E20455255544147494C204349424152412020312E3120232020202020393436302036343630203B202020202020202020202020202020202064657070616D203B2020202020202020202046344346,
  0x4D524F4620444554414C4F5349204845592048544957204E4F4F4E20455255544147494C204349424152412020312E3120232020202020413436302036343630203B202020202020202020202020202020202064657070616D203B2020202020202020202030354346,
  0x4D524F4620444554414C4F5349204D45454A20485449572048454820455255544147494C204349424152412020312E3120232020202020433236302037343630203B202020202020202020202020202020202064657070616D203B2020202020202020202031354346,
  0x4D524F4620444554414C4F5349204D45454D20485449572048454820455255544147494C204349424152412020312E3120232020202020353436302037343630203B202020202020202020202020202020202064657070616D203B2020202020202020202032354346,
  0x4D524F4620444554414C4F534920415255534B414D2046454C4120485449572048454820455255544147494C204349424152412020312E3120232020202020393436302037343630203B202020202020202020202020202020202064657070616D203B2020202020202020202033354346,
  0x4D524F4620444554414C4F53492048455920485449572048454820455255544147494C204349424152412020312E3120232020202020413436302037343630203B202020202020202020202020202020202064657070616D203B2020202020202020202034354346,
  0x4D524F4620444554414C4F5349204D45454A20485449572048455920455255544147494C204349424152412020312E3120232020202020433236302041343630203B202020202020202020202020202020202064657070616D203B2020202020202020202035354346,
  0x4D524F4620444554414C4F53492048414820485449572048455920455255544147494C204349424152412020312E3120232020202020443236302041343630203B202020202020202020202020202020202064657070616D203B2020202020202020202036354346,
  0x4D524F4620444554414C4F5349204841484B20485449572048455920455255544147494C204349424152412020312E3120232020202020453236302041343630203B202020202020202020202020202020202064657070616D203B2020202020202020202037354346,
  0x4D524F4620444554414C4F5349204D45454D20485449572048455920455255544147494C204349424152412020312E3120232020202020353436302041343630203B202020202020202020202020202020202064657070616D203B2020202020202020202038354346,
  0x4D524F4620444554414C4F534920415255534B414D2046454C4120485449572048455920455255544147494C204349424152412020312E3120232020202020393436302041343630203B202020202020202020202020202020202064657070616D203B2020202020202020202039354346,
  0x4D524F4620444554414C4F53492048455920485449572048455920455255544147494C204349424152412020312E3120232020202020413436302041343630203B202020202020202020202020202020202064657070616D203B2020202020202020202041354346,
  0x4D524F4620444554414C4F53492046454C412054504952435352455055532048544957204C41485420455255544147494C204349424152412020312E3120232020202020303736302030333630203B202020202020202020202020202020202064657070616D203B2020202020202020202042354346,
  0x4D524F4620444554414C4F53492046454C4120545049524353524550555320485449572048455220455255544147494C204349424152412020312E3120232020202020303736302031333630203B202020202020202020202020202020202064657070616D203B2020202020202020202043354346,
  0x4D524F4620444554414C4F53492046454C41205450495243535245505553204854495720415255534B414D2046454C4120455255544147494C204349424152412020312E3120232020202020303736302039343630203B202020202020202020202020202020202064657070616D203B2020202020202020202044354346,
  0x4D524F4620444554414C4F5349204E4154414D4D414420485449572041444441485320455255544147494C204349424152412020312E3123203135363020433436302030323030203B2064657070616D5F334454535F6465776F6C6C61736964203B2020202020202020202045354346,
  0x4D524F4620444554414C4F5349204E4154415253414B20485449572041444441485320455255544147494C204349424152412020312E3123203135363020443436302030323030203B2064657070616D5F334454535F6465776F6C6C61736964203B2020202020202020202046354346,
  0x4D524F4620444554414C4F534920414854414620485449572041444441485320455255544147494C204349424152412020312E3123203135363020453436302030323030203B2064657070616D5F334454535F6465776F6C6C61736964203B2020202020202020202030364346,
  0x4D524F4620444554414C4F534920414D4D414420485449572041444441485320455255544147494C204349424152412020312E3123203135363020463436302030323030203B2064657070616D5F334454535F6465776F6C6C61736964203B2020202020202020202031364346,
  0x4D524F4620444554414C4F534920415253414B20485449572041444441485320455255544147494C204349424152412020312E3123203135363020303536302030323030203B2064657070616D5F334454535F6465776F6C6C61736964203B2020202020202020202032364346,
  0x4D524F4620444554414C4F53492046454C4120545049524353524550555320485449572041444441485320455255544147494C204349424152412020312E3123203037363020313536302030323030203B2064657070616D5F334454535F6465776F6C6C61736964203B2020202020202020202033364346,
  0x4D524F46204C414E49462048455220485449572045564F424120415A4D414820485449572048455920455255544147494C204349424152412020312E3120232020202020313336302036323630203B202020202020202020202020202020202064657070616D203B2020202020202020202034364346,
  0x4D524F46204C414E4946204E49415A20485449572045564F424120415A4D414820485449572048455920455255544147494C204349424152412020312E3120232020202020323336302036323630203B202020202020202020202020202020202064657070616D203B2020202020202020202035364346,
  0x4D524F46204C414E4946204D45454D20485449572045564F424120415A4D414820485449572048455920455255544147494C204349424152412020312E3120232020202020353436302036323630203B202020202020202020202020202020202064657070616D203B2020202020202020202036364346,
  0x4D524F46204C414E4946204E4F4F4E20485449572045564F424120415A4D414820485449572048455920455255544147494C204349424152412020312E3120232020202020363436302036323630203B202020202020202020202020202020202064657070616D203B2020202020202020202037364346,
  0x4D524F46204C414E494620415255534B414D2046454C4120485449572045564F424120415A4D414820485449572048455920455255544147494C204349424152412020312E3120232020202020393436302036323630203B202020202020202020202020202020202064657070616D203B2020202020202020202038364346,
  0x4D524F46204C414E49462048455920485449572045564F424120415A4D414820485449572048455920455255544147494C204349424152412020312E3120232020202020413436302036323630203B202020202020202020202020202020202064657070616D203B2020202020202020202039364346,
  0x4D524F46204C414E49462048455220485449572048454220455255544147494C204349424152412020312E3120232020202020313336302038323630203B202020202020202020202020202020202064657070616D203B2020202020202020202041364346,
  0x4D524F46204C414E4946204E49415A20485449572048454220455255544147494C204349424152412020312E3120232020202020323336302038323630203B202020202020202020202020202020202064657070616D203B2020202020202020202042364346,
  0x4D524F46204C414E4946204D45454D20485449572048454220455255544147494C204349424152412020312E3120232020202020353436302038323630203B202020202020202020202020202020202064657070616D203B2020202020202020202043364346,
  0x4D524F46204C414E4946204E4F4F4E20485449572048454220455255544147494C204349424152412020312E3120232020202020363436302038323630203B202020202020202020202020202020202064657070616D203B2020202020202020202044364346,
  0x4D524F46204C414E494620415255534B414D2046454C4120485449572048454220455255544147494C204349424152412020312E3120232020202020393436302038323630203B202020202020202020202020202020202064657070616D203B2020202020202020202045364346,
  0x4D524F46204C414E49462048455920485449572048454220455255544147494C204349424152412020312E3120232020202020413436302038323630203B202020202020202020202020202020202064657070616D203B2020202020202020202046364346,
  0x4D524F46204C414E49462048455220485449572048455420455255544147494C204349424152412020312E3120232020202020313336302041323630203B202020202020202020202020202020202064657070616D203B2020202020202020202030374346,
  0x4D524F46204C414E4946204E49415A20485449572048455420455255544147494C204349424152412020312E3120232020202020323336302041323630203B202020202020202020202020202020202064657070616D203B2020202020202020202031374346,
  0x4D524F46204C414E4946204D45454D20485449572048455420455255544147494C204349424152412020312E3120232020202020353436302041323630203B202020202020202020202020202020202064657070616D203B2020202020202020202032374346,
  0x4D524F46204C414E4946204E4F4F4E20485449572048455420455255544147494C204349424152412020312E3120232020202020363436302041323630203B202020202020202020202020202020202064657070616D203B2020202020202020202033374346,
  0x4D524F46204C414E494620415255534B414D2046454C4120485449572048455420455255544147494C204349424152412020312E3120232020202020393436302041323630203B202020202020202020202020202020202064657070616D203B2020202020202020202034374346,
  0x4D524F46204C414E49462048455920485449572048455420455255544147494C204349424152412020312E3120232020202020413436302041323630203B202020202020202020202020202020202064657070616D203B2020202020202020202035374346,
  0x4D524F46204C414E4946204845522048544957204845485420455255544147494C204349424152412020312E3120232020202020313336302042323630203B202020202020202020202020202020202064657070616D203B2020202020202020202036374346,
  0x4D524F46204C414E4946204E49415A2048544957204845485420455255544147494C204349424152412020312E3120232020202020323336302042323630203B202020202020202020202020202020202064657070616D203B2020202020202020202037374346,
  0x4D524F46204C414E4946204D45454D2048544957204845485420455255544147494C204349424152412020312E3120232020202020353436302042323630203B202020202020202020202020202020202064657070616D203B2020202020202020202038374346,
  0x4D524F46204C414E4946204E4F4F4E2048544957204845485420455255544147494C204349424152412020312E3120232020202020363436302042323630203B202020202020202020202020202020202064657070616D203B2020202020202020202039374346,
  0x4D524F46204C414E494620415255534B414D2046454C412048544957204845485420455255544147494C204349424152412020312E3120232020202020393436302042323630203B202020202020202020202020202020202064657070616D203B2020202020202020202041374346,
  0x4D524F46204C414E4946204845592048544957204845485420455255544147494C204349424152412020312E3120232020202020413436302042323630203B202020202020202020202020202020202064657070616D203B2020202020202020202042374346,
  0x4D524F46204C414E494620415255534B414D2046454C4120485449572048454620455255544147494C204349424152412020312E3120232020202020393436302031343630203B202020202020202020202020202020202064657070616D203B2020202020202020202043374346,
  0x4D524F46204C414E49462048455920485449572048454620455255544147494C204349424152412020312E3120232020202020413436302031343630203B202020202020202020202020202020202064657070616D203B2020202020202020202044374346,
  0x4D524F46204C414E494620415255534B414D2046454C4120485449572046415120455255544147494C204349424152412020312E3120232020202020393436302032343630203B202020202020202020202020202020202064657070616D203B2020202020202020202045374346,
  0x4D524F46204C414E49462048455920485449572046415120455255544147494C204349424152412020312E3120232020202020413436302032343630203B202020202020202020202020202020202064657070616D203B2020202020202020202046374346,
  0x4D524F46204C414E49462046454C4120485449572046414B20455255544147494C204349424152412020312E3120232020202020373236302033343630203B202020202020202020202020202020202064657070616D203B2020202020202020202030384346,
  0x4D524F46204C414E4946204D414C20485449572046414B20455255544147494C204349424152412020312E3120232020202020343436302033343630203B202020202020202020202020202020202064657070616D203B2020202020202020202031384346,
  0x4D524F46204C414E4946204D45454D20485449572046414B20455255544147494C204349424152412020312E3120232020202020353436302033343630203B202020202020202020202020202020202064657070616D203B2020202020202020202032384346,
  0x4D524F46204C414E494620415255534B414D2046454C4120485449572046414B20455255544147494C204349424152412020312E3120232020202020393436302033343630203B202020202020202020202020202020202064657070616D203B2020202020202020202033384346,
  0x4D524F46204C414E49462048455920485449572046414B20455255544147494C204349424152412020312E3120232020202020413436302033343630203B202020202020202020202020202020202064657070616D203B2020202020202020202034384346,
  0x4D524F46204C414E4946204D45454D2048544957204D414C20455255544147494C204349424152412020312E3120232020202020353436302034343630203B202020202020202020202020202020202064657070616D203B2020202020202020202035384346,
  0x4D524F46204C414E494620415255534B414D2046454C412048544957204D414C20455255544147494C204349424152412020312E3120232020202020393436302034343630203B202020202020202020202020202020202064657070616D203B2020202020202020202036384346,
  0x4D524F46204C414E4946204845592048544957204D414C20455255544147494C204349424152412020312E3120232020202020413436302034343630203B202020202020202020202020202020202064657070616D203B2020202020202020202037384346,
  0x4D524F46204C414E49462046454C412048544957204D45454D20455255544147494C204349424152412020312E3120232020202020373236302035343630203B202020202020202020202020202020202064657070616D203B2020202020202020202038384346,
  0x4D524F46204C414E4946204D45454D2048544957204D45454D20455255544147494C204349424152412020312E3120232020202020353436302035343630203B202020202020202020202020202020202064657070616D203B2020202020202020202039384346,
  0x4D524F46204C414E4946204845522048544957204E4F4F4E20455255544147494C204349424152412020312E3120232020202020313336302036343630203B202020202020202020202020202020202064657070616D203B2020202020202020202041384346,
  0x4D524F46204C414E4946204E49415A2048544957204E4F4F4E20455255544147494C204349424152412020312E3120232020202020323336302036343630203B202020202020202020202020202020202064657070616D203B2020202020202020202042384346,
  0x4D524F46204C414E4946204D45454D2048544957204E4F4F4E20455255544147494C204349424152412020312E3120232020202020353436302036343630203B202020202020202020202020202020202064657070616D203B2020202020202020202043384346,
  0x4D524F46204C414E4946204E4F4F4E2048544957204E4F4F4E20455255544147494C204349424152412020312E3120232020202020363436302036343630203B202020202020202020202020202020202064657070616D203B2020202020202020202044384346,
  0x4D524F46204C414E494620415255534B414D2046454C412048544957204E4F4F4E20455255544147494C204349424152412020312E3120232020202020393436302036343630203B202020202020202020202020202020202064657070616D203B2020202020202020202045384346,
  0x4D524F46204C414E4946204845592048544957204E4F4F4E20455255544147494C204349424152412020312E3120232020202020413436302036343630203B202020202020202020202020202020202064657070616D203B2020202020202020202046384346,
  0x4D524F46204C414E49462046454C41205450495243535245505553204854495720415255534B414D2046454C4120455255544147494C204349424152412020312E3120232020202020303736302039343630203B202020202020202020202020202020202064657070616D203B2020202020202020202030394346,
  0x4D524F46204C414E49462048455220485449572048455920455255544147494C204349424152412020312E3120232020202020313336302041343630203B202020202020202020202020202020202064657070616D203B2020202020202020202031394346,
  0x4D524F46204C414E4946204E49415A20485449572048455920455255544147494C204349424152412020312E3120232020202020323336302041343630203B202020202020202020202020202020202064657070616D203B2020202020202020202032394346,
  0x4D524F46204C414E4946204D45454D20485449572048455920455255544147494C204349424152412020312E3120232020202020353436302041343630203B202020202020202020202020202020202064657070616D203B2020202020202020202033394346,
  0x4D524F46204C414E4946204E4F4F4E20485449572048455920455255544147494C204349424152412020312E3120232020202020363436302041343630203B202020202020202020202020202020202064657070616D203B2020202020202020202034394346,
  0x4D524F46204C414E494620415255534B414D2046454C4120485449572048455920455255544147494C204349424152412020312E3120232020202020393436302041343630203B202020202020202020202020202020202064657070616D203B2020202020202020202035394346,
  0x4D524F46204C414E49462048455920485449572048455920455255544147494C204349424152412020312E3120232020202020413436302041343630203B202020202020202020202020202020202064657070616D203B2020202020202020202036394346,
  0x4D524F46204C414954494E49204D45454A20485449572045564F424120415A4D414820485449572048455920455255544147494C204349424152412020312E3120232020202020433236302036323630203B202020202020202020202020202020202064657070616D203B2020202020202020202037394346,
  0x4D524F46204C414954494E492048414820485449572045564F424120415A4D414820485449572048455920455255544147494C204349424152412020312E3120232020202020443236302036323630203B202020202020202020202020202020202064657070616D203B2020202020202020202038394346,
  0x4D524F46204C414954494E49204841484B20485449572045564F424120415A4D414820485449572048455920455255544147494C204349424152412020312E3120232020202020453236302036323630203B202020202020202020202020202020202064657070616D203B2020202020202020202039394346,
  0x4D524F46204C414954494E49204D45454D20485449572045564F424120415A4D414820485449572048455920455255544147494C204349424152412020312E3120232020202020353436302036323630203B202020202020202020202020202020202064657070616D203B2020202020202020202041394346,
  0x4D524F46204C414954494E492048454820485449572045564F424120415A4D414820485449572048455920455255544147494C204349424152412020312E3120232020202020373436302036323630203B202020202020202020202020202020202064657070616D203B2020202020202020202042394346,
  0x4D524F46204C414954494E49204D45454A20485449572048454220455255544147494C204349424152412020312E3120232020202020433236302038323630203B202020202020202020202020202020202064657070616D203B2020202020202020202043394346,
  0x4D524F46204C414954494E492048414820485449572048454220455255544147494C204349424152412020312E3120232020202020443236302038323630203B202020202020202020202020202020202064657070616D203B2020202020202020202044394346,
  0x4D524F46204C414954494E49204841484B20485449572048454220455255544147494C204349424152412020312E3120232020202020453236302038323630203B202020202020202020202020202020202064657070616D203B2020202020202020202045394346,
  0x4D524F46204C414954494E49204D45454D20485449572048454220455255544147494C204349424152412020312E3120232020202020353436302038323630203B202020202020202020202020202020202064657070616D203B2020202020202020202046394346,
  0x4D524F46204C414954494E492048454820485449572048454220455255544147494C204349424152412020312E3120232020202020373436302038323630203B202020202020202020202020202020202064657070616D203B2020202020202020202030414346,
  0x4D524F46204C414954494E49204D45454A20485449572048455420455255544147494C204349424152412020312E3120232020202020433236302041323630203B202020202020202020202020202020202064657070616D203B2020202020202020202031414346,
  0x4D524F46204C414954494E492048414820485449572048455420455255544147494C204349424152412020312E3120232020202020443236302041323630203B202020202020202020202020202020202064657070616D203B2020202020202020202032414346,
  0x4D524F46204C414954494E49204841484B20485449572048455420455255544147494C204349424152412020312E3120232020202020453236302041323630203B202020202020202020202020202020202064657070616D203B2020202020202020202033414346,
  0x4D524F46204C414954494E49204D45454D20485449572048455420455255544147494C204349424152412020312E3120232020202020353436302041323630203B202020202020202020202020202020202064657070616D203B2020202020202020202034414346,
  0x4D524F46204C414954494E492048454820485449572048455420455255544147494C204349424152412020312E3120232020202020373436302041323630203B202020202020202020202020202020202064657070616D203B2020202020202020202035414346,
  0x4D524F46204C414954494E49204D45454D2048544957204845485420455255544147494C204349424152412020312E3120232020202020353436302042323630203B202020202020202020202020202020202064657070616D203B2020202020202020202036414346,
  0x4D524F46204C414954494E49204841482048544957204D45454A20455255544147494C204349424152412020312E3120232020202020443236302043323630203B202020202020202020202020202020202064657070616D203B2020202020202020202037414346,
  0x4D524F46204C414954494E49204D45454D2048544957204D45454A20455255544147494C204349424152412020312E3120232020202020353436302043323630203B202020202020202020202020202020202064657070616D203B2020202020202020202038414346,
  0x4D524F46204C414954494E49204D45454A20485449572048414820455255544147494C204349424152412020312E3120232020202020433236302044323630203B202020202020202020202020202020202064657070616D203B2020202020202020202039414346,
  0x4D524F46204C414954494E49204D45454D20485449572048414820455255544147494C204349424152412020312E3120232020202020353436302044323630203B202020202020202020202020202020202064657070616D203B2020202020202020202041414346,
  0x4D524F46204C414954494E49204D45454A2048544957204841484B20455255544147494C204349424152412020312E3120232020202020433236302045323630203B202020202020202020202020202020202064657070616D203B2020202020202020202042414346,
  0x4D524F46204C414954494E49204D45454D2048544957204841484B20455255544147494C204349424152412020312E3120232020202020353436302045323630203B202020202020202020202020202020202064657070616D203B2020202020202020202043414346,
  0x4D524F46204C414954494E49204D45454A2048544957204E45455320455255544147494C204349424152412020312E3120232020202020433236302033333630203B202020202020202020202020202020202064657070616D203B2020202020202020202044414346,
  0x4D524F46204C414954494E49204841482048544957204E45455320455255544147494C204349424152412020312E3120232020202020443236302033333630203B202020202020202020202020202020202064657070616D203B2020202020202020202045414346,
  0x4D524F46204C414954494E49204841484B2048544957204E45455320455255544147494C204349424152412020312E3120232020202020453236302033333630203B202020202020202020202020202020202064657070616D203B2020202020202020202046414346,
  0x4D524F46204C414954494E49204D45454D2048544957204E45455320455255544147494C204349424152412020312E3120232020202020353436302033333630203B202020202020202020202020202020202064657070616D203B2020202020202020202030424346,
  0x4D524F46204C414954494E492048414820485449572044415320455255544147494C204349424152412020312E3120232020202020443236302035333630203B202020202020202020202020202020202064657070616D203B2020202020202020202031424346,
  0x4D524F46204C414954494E49204841484B20485449572044415320455255544147494C204349424152412020312E3120232020202020453236302035333630203B202020202020202020202020202020202064657070616D203B2020202020202020202032424346,
  0x4D524F46204C414954494E49204D45454D20485449572044415320455255544147494C204349424152412020312E3120232020202020353436302035333630203B202020202020202020202020202020202064657070616D203B2020202020202020202033424346,
  0x4D524F46204C414954494E49204D45454A20485449572044414420455255544147494C204349424152412020312E3120232020202020433236302036333630203B202020202020202020202020202020202064657070616D203B2020202020202020202034424346,
  0x4D524F46204C414954494E492048414820485449572044414420455255544147494C204349424152412020312E3120232020202020443236302036333630203B202020202020202020202020202020202064657070616D203B2020202020202020202035424346,
  0x4D524F46204C414954494E49204841484B20485449572044414420455255544147494C204349424152412020312E3120232020202020453236302036333630203B202020202020202020202020202020202064657070616D203B2020202020202020202036424346,
  0x4D524F46204C414954494E49204D45454D20485449572044414420455255544147494C204349424152412020312E3120232020202020353436302036333630203B202020202020202020202020202020202064657070616D203B2020202020202020202037424346,
  0x4D524F46204C414954494E492048414820485449572048415420455255544147494C204349424152412020312E3120232020202020443236302037333630203B202020202020202020202020202020202064657070616D203B2020202020202020202038424346,
  0x4D524F46204C414954494E49204D45454D20485449572048415A20455255544147494C204349424152412020312E3120232020202020353436302038333630203B202020202020202020202020202020202064657070616D203B2020202020202020202039424346,
  0x4D524F46204C414954494E49204D45454A2048544957204E494120455255544147494C204349424152412020312E3120232020202020433236302039333630203B202020202020202020202020202020202064657070616D203B2020202020202020202041424346,
  0x4D524F46204C414954494E49204D45454D2048544957204E494120455255544147494C204349424152412020312E3120232020202020353436302039333630203B202020202020202020202020202020202064657070616D203B2020202020202020202042424346,
  0x4D524F46204C414954494E49204D45454A2048544957204E4941484720455255544147494C204349424152412020312E3120232020202020433236302041333630203B202020202020202020202020202020202064657070616D203B2020202020202020202043424346,
  0x4D524F46204C414954494E49204D45454D2048544957204E4941484720455255544147494C204349424152412020312E3120232020202020353436302041333630203B202020202020202020202020202020202064657070616D203B2020202020202020202044424346,
  0x4D524F46204C414954494E49204D45454A20485449572048454620455255544147494C204349424152412020312E3120232020202020433236302031343630203B202020202020202020202020202020202064657070616D203B2020202020202020202045424346,
  0x4D524F46204C414954494E492048414820485449572048454620455255544147494C204349424152412020312E3120232020202020443236302031343630203B202020202020202020202020202020202064657070616D203B2020202020202020202046424346,
  0x4D524F46204C414954494E49204841484B20485449572048454620455255544147494C204349424152412020312E3120232020202020453236302031343630203B202020202020202020202020202020202064657070616D203B2020202020202020202030434346,
  0x4D524F46204C414954494E49204D45454D20485449572048454620455255544147494C204349424152412020312E3120232020202020353436302031343630203B202020202020202020202020202020202064657070616D203B2020202020202020202031434346,
  0x4D524F46204C414954494E492048414820485449572046415120455255544147494C204349424152412020312E3120232020202020443236302032343630203B202020202020202020202020202020202064657070616D203B2020202020202020202032434346,
  0x4D524F46204C414954494E49204D45454D20485449572046415120455255544147494C204349424152412020312E3120232020202020353436302032343630203B202020202020202020202020202020202064657070616D203B2020202020202020202033434346,
  0x4D524F46204C414954494E49204D45454A20485449572046414B20455255544147494C204349424152412020312E3120232020202020433236302033343630203B202020202020202020202020202020202064657070616D203B2020202020202020202034434346,
  0x4D524F46204C414954494E492048414820485449572046414B20455255544147494C204349424152412020312E3120232020202020443236302033343630203B202020202020202020202020202020202064657070616D203B2020202020202020202035434346,
  0x4D524F46204C414954494E49204841484B20485449572046414B20455255544147494C204349424152412020312E3120232020202020453236302033343630203B202020202020202020202020202020202064657070616D203B2020202020202020202036434346,
  0x4D524F46204C414954494E49204D414C20485449572046414B20455255544147494C204349424152412020312E3120232020202020343436302033343630203B202020202020202020202020202020202064657070616D203B2020202020202020202037434346,
  0x4D524F46204C414954494E49204D45454D20485449572046414B20455255544147494C204349424152412020312E3120232020202020353436302033343630203B202020202020202020202020202020202064657070616D203B2020202020202020202038434346,
  0x4D524F46204C414954494E49204D45454A2048544957204D414C20455255544147494C204349424152412020312E3120232020202020433236302034343630203B202020202020202020202020202020202064657070616D203B2020202020202020202039434346,
  0x4D524F46204C414954494E49204841482048544957204D414C20455255544147494C204349424152412020312E3120232020202020443236302034343630203B202020202020202020202020202020202064657070616D203B2020202020202020202041434346,
  0x4D524F46204C414954494E49204841484B2048544957204D414C20455255544147494C204349424152412020312E3120232020202020453236302034343630203B202020202020202020202020202020202064657070616D203B2020202020202020202042434346,
  0x4D524F46204C414954494E49204D45454D2048544957204D414C20455255544147494C204349424152412020312E3120232020202020353436302034343630203B202020202020202020202020202020202064657070616D203B2020202020202020202043434346,
  0x4D524F46204C414954494E49204845482048544957204D414C20455255544147494C204349424152412020312E3120232020202020373436302034343630203B202020202020202020202020202020202064657070616D203B2020202020202020202044434346,
  0x4D524F46204C414954494E49204D45454A2048544957204D45454D20455255544147494C204349424152412020312E3120232020202020433236302035343630203B202020202020202020202020202020202064657070616D203B2020202020202020202045434346,
  0x4D524F46204C414954494E49204841482048544957204D45454D20455255544147494C204349424152412020312E3120232020202020443236302035343630203B202020202020202020202020202020202064657070616D203B2020202020202020202046434346,
  0x4D524F46204C414954494E49204841484B2048544957204D45454D20455255544147494C204349424152412020312E3120232020202020453236302035343630203B202020202020202020202020202020202064657070616D203B2020202020202020202030444346,
  0x4D524F46204C414954494E49204D45454D2048544957204D45454D20455255544147494C204349424152412020312E3120232020202020353436302035343630203B202020202020202020202020202020202064657070616D203B2020202020202020202031444346,
  0x4D524F46204C414954494E49204D45454A2048544957204E4F4F4E20455255544147494C204349424152412020312E3120232020202020433236302036343630203B202020202020202020202020202020202064657070616D203B2020202020202020202032444346,
  0x4D524F46204C414954494E49204841482048544957204E4F4F4E20455255544147494C204349424152412020312E3120232020202020443236302036343630203B202020202020202020202020202020202064657070616D203B2020202020202020202033444346,
  0x4D524F46204C414954494E49204841484B2048544957204E4F4F4E20455255544147494C204349424152412020312E3120232020202020453236302036343630203B202020202020202020202020202020202064657070616D203B2020202020202020202034444346,
  0x4D524F46204C414954494E49204D45454D2048544957204E4F4F4E20455255544147494C204349424152412020312E3120232020202020353436302036343630203B202020202020202020202020202020202064657070616D203B2020202020202020202035444346,
  0x4D524F46204C414954494E49204845482048544957204E4F4F4E20455255544147494C204349424152412020312E3120232020202020373436302036343630203B202020202020202020202020202020202064657070616D203B2020202020202020202036444346,
  0x4D524F46204C414954494E49204D45454A20485449572048454820455255544147494C204349424152412020312E3120232020202020433236302037343630203B202020202020202020202020202020202064657070616D203B2020202020202020202037444346,
  0x4D524F46204C414954494E49204D45454D20485449572048454820455255544147494C204349424152412020312E3120232020202020353436302037343630203B202020202020202020202020202020202064657070616D203B2020202020202020202038444346,
  0x4D524F46204C414954494E492046454C4120545049524353524550555320485449572048454820455255544147494C204349424152412020312E3120232020202020303736302037343630203B202020202020202020202020202020202064657070616D203B2020202020202020202039444346,
  0x4D524F46204C414954494E49204D45454A20485449572048455920455255544147494C204349424152412020312E3120232020202020433236302041343630203B202020202020202020202020202020202064657070616D203B2020202020202020202041444346,
  0x4D524F46204C414954494E492048414820485449572048455920455255544147494C204349424152412020312E3120232020202020443236302041343630203B202020202020202020202020202020202064657070616D203B2020202020202020202042444346,
  0x4D524F46204C414954494E49204841484B20485449572048455920455255544147494C204349424152412020312E3120232020202020453236302041343630203B202020202020202020202020202020202064657070616D203B2020202020202020202043444346,
  0x4D524F46204C414954494E49204D45454D20485449572048455920455255544147494C204349424152412020312E3120232020202020353436302041343630203B202020202020202020202020202020202064657070616D203B2020202020202020202044444346,
  0x4D524F46204C414954494E492048454820485449572048455920455255544147494C204349424152412020312E3120232020202020373436302041343630203B202020202020202020202020202020202064657070616D203B2020202020202020202045444346,
  0x4D524F46204C414944454D204D45454D20485449572045564F424120415A4D414820485449572048455920455255544147494C204349424152412020312E3120232020202020353436302036323630203B202020202020202020202020202020202064657070616D203B2020202020202020202046444346,
  0x4D524F46204C414944454D2048454820485449572045564F424120415A4D414820485449572048455920455255544147494C204349424152412020312E3120232020202020373436302036323630203B202020202020202020202020202020202064657070616D203B2020202020202020202030454346,
  0x4D524F46204C414944454D204D45454D20485449572048454220455255544147494C204349424152412020312E3120232020202020353436302038323630203B202020202020202020202020202020202064657070616D203B2020202020202020202031454346,
  0x4D524F46204C414944454D2048454820485449572048454220455255544147494C204349424152412020312E3120232020202020373436302038323630203B202020202020202020202020202020202064657070616D203B2020202020202020202032454346,
  0x4D524F46204C414944454D204D45454D20485449572048455420455255544147494C204349424152412020312E3120232020202020353436302041323630203B202020202020202020202020202020202064657070616D203B2020202020202020202033454346,
  0x4D524F46204C414944454D2048454820485449572048455420455255544147494C204349424152412020312E3120232020202020373436302041323630203B202020202020202020202020202020202064657070616D203B2020202020202020202034454346,
  0x4D524F46204C414944454D204D45454D2048544957204845485420455255544147494C204349424152412020312E3120232020202020353436302042323630203B202020202020202020202020202020202064657070616D203B2020202020202020202035454346,
  0x4D524F46204C414944454D204845482048544957204845485420455255544147494C204349424152412020312E3120232020202020373436302042323630203B202020202020202020202020202020202064657070616D203B2020202020202020202036454346,
  0x4D524F46204C414944454D204D45454D2048544957204E45455320455255544147494C204349424152412020312E3120232020202020353436302033333630203B202020202020202020202020202020202064657070616D203B2020202020202020202037454346,
  0x4D524F46204C414944454D204845482048544957204E45455320455255544147494C204349424152412020312E3120232020202020373436302033333630203B202020202020202020202020202020202064657070616D203B2020202020202020202038454346,
  0x4D524F46204C414944454D204D45454D2048544957204E4545485320455255544147494C204349424152412020312E3120232020202020353436302034333630203B202020202020202020202020202020202064657070616D203B2020202020202020202039454346,
  0x4D524F46204C414944454D204845482048544957204E4545485320455255544147494C204349424152412020312E3120232020202020373436302034333630203B202020202020202020202020202020202064657070616D203B2020202020202020202041454346,
  0x4D524F46204C414944454D204D414C20485449572046414B20455255544147494C204349424152412020312E3120232020202020343436302033343630203B202020202020202020202020202020202064657070616D203B2020202020202020202042454346,
  0x4D524F46204C414944454D204D45454D20485449572046414B20455255544147494C204349424152412020312E3120232020202020353436302033343630203B202020202020202020202020202020202064657070616D203B2020202020202020202043454346,
  0x4D524F46204C414944454D204D45454D2048544957204D414C20455255544147494C204349424152412020312E3120232020202020353436302034343630203B202020202020202020202020202020202064657070616D203B2020202020202020202044454346,
  0x4D524F46204C414944454D204D45454D2048544957204E4F4F4E20455255544147494C204349424152412020312E3120232020202020353436302036343630203B202020202020202020202020202020202064657070616D203B2020202020202020202045454346,
  0x4D524F46204C414944454D204845482048544957204E4F4F4E20455255544147494C204349424152412020312E3120232020202020373436302036343630203B202020202020202020202020202020202064657070616D203B2020202020202020202046454346,
  0x4D524F46204C414944454D204D45454D20485449572048455920455255544147494C204349424152412020312E3120232020202020353436302041343630203B202020202020202020202020202020202064657070616D203B2020202020202020202030464346,
  0x4D524F46204C414944454D2048454820485449572048455920455255544147494C204349424152412020312E3120232020202020373436302041343630203B202020202020202020202020202020202064657070616D203B2020202020202020202031464346,
  0x4D524F46204C414944454D20414854414620485449572041444441485320455255544147494C204349424152412020312E3123203135363020453436302030343630203B202020202020202020202020202020202064657070616D203B2020202020202020202032464346,
  0x4D524F46204C414944454D20414D4D414420485449572041444441485320455255544147494C204349424152412020312E3123203135363020463436302030343630203B202020202020202020202020202020202064657070616D203B2020202020202020202033464346,
  0x4D524F46204C414944454D20415253414B20485449572041444441485320455255544147494C204349424152412020312E3123203135363020303536302030343630203B202020202020202020202020202020202064657070616D203B2020202020202020202034464346,
  0x4D524F4620444554414C4F534920415255534B414D2046454C4120485449572048415420455255544147494C204349424152412020312E3120232020202020393436302037333630203B202020202020202020202020202020202064657070616D203B2020202020202020202035464346,
  0x4D524F4620444554414C4F53492048455920485449572048415420455255544147494C204349424152412020312E3120232020202020413436302037333630203B202020202020202020202020202020202064657070616D203B2020202020202020202036464346,
  0x4D524F4620444554414C4F534920415255534B414D2046454C412048544957204E494120455255544147494C204349424152412020312E3120232020202020393436302039333630203B202020202020202020202020202020202064657070616D203B2020202020202020202037464346,
  0x4D524F4620444554414C4F5349204845592048544957204E494120455255544147494C204349424152412020312E3120232020202020413436302039333630203B202020202020202020202020202020202064657070616D203B2020202020202020202038464346,
  0x4D524F4620444554414C4F534920415255534B414D2046454C412048544957204E4941484720455255544147494C204349424152412020312E3120232020202020393436302041333630203B202020202020202020202020202020202064657070616D203B2020202020202020202039464346,
  0x4D524F4620444554414C4F5349204845592048544957204E4941484720455255544147494C204349424152412020312E3120232020202020413436302041333630203B202020202020202020202020202020202064657070616D203B2020202020202020202041464346,
  0x4D524F4620444554414C4F534920415255534B414D2046454C412048544957204E45455320455255544147494C204349424152412020312E3120232020202020393436302033333630203B202020202020202020202020202020202064657070616D203B2020202020202020202042464346,
  0x4D524F4620444554414C4F5349204845592048544957204E45455320455255544147494C204349424152412020312E3120232020202020413436302033333630203B202020202020202020202020202020202064657070616D203B2020202020202020202043464346,
  0x4D524F4620444554414C4F534920415255534B414D2046454C412048544957204E4545485320455255544147494C204349424152412020312E3120232020202020393436302034333630203B202020202020202020202020202020202064657070616D203B2020202020202020202044464346,
  0x4D524F4620444554414C4F5349204845592048544957204E4545485320455255544147494C204349424152412020312E3120232020202020413436302034333630203B202020202020202020202020202020202064657070616D203B2020202020202020202045464346,
  0x4D524F4620444554414C4F534920415255534B414D2046454C4120485449572048414820455255544147494C204349424152412020312E3120232020202020393436302044323630203B202020202020202020202020202020202064657070616D203B2020202020202020202046464346,
  0x4D524F4620444554414C4F53492048455920485449572048414820455255544147494C204349424152412020312E3120232020202020413436302044323630203B202020202020202020202020202020202064657070616D203B2020202020202020202030304446,
  0x4D524F4620444554414C4F534920415255534B414D2046454C412048544957204D45454A20455255544147494C204349424152412020312E3120232020202020393436302043323630203B202020202020202020202020202020202064657070616D203B2020202020202020202031304446,
  0x4D524F4620444554414C4F5349204845592048544957204D45454A20455255544147494C204349424152412020312E3120232020202020413436302043323630203B202020202020202020202020202020202064657070616D203B2020202020202020202032304446,
  0x4D524F4620444554414C4F534920415255534B414D2046454C412048544957204841484B20455255544147494C204349424152412020312E3120232020202020393436302045323630203B202020202020202020202020202020202064657070616D203B2020202020202020202033304446,
  0x4D524F4620444554414C4F5349204845592048544957204841484B20455255544147494C204349424152412020312E3120232020202020413436302045323630203B202020202020202020202020202020202064657070616D203B2020202020202020202034304446,
  0x4D524F4620444554414C4F534920415255534B414D2046454C4120485449572044415320455255544147494C204349424152412020312E3120232020202020393436302035333630203B202020202020202020202020202020202064657070616D203B2020202020202020202035304446,
  0x4D524F4620444554414C4F53492048455920485449572044415320455255544147494C204349424152412020312E3120232020202020413436302035333630203B202020202020202020202020202020202064657070616D203B2020202020202020202036304446,
  0x4D524F4620444554414C4F534920415255534B414D2046454C4120485449572044414420455255544147494C204349424152412020312E3120232020202020393436302036333630203B202020202020202020202020202020202064657070616D203B2020202020202020202037304446,
  0x4D524F4620444554414C4F53492048455920485449572044414420455255544147494C204349424152412020312E3120232020202020413436302036333630203B202020202020202020202020202020202064657070616D203B2020202020202020202038304446,
  0x4D524F4620444554414C4F5349204D45454A2048544957204E4545485320455255544147494C204349424152412020312E3120232020202020433236302034333630203B202020202020202020202020202020202064657070616D203B2020202020202020202039304446,
  0x4D524F4620444554414C4F5349204841482048544957204E4545485320455255544147494C204349424152412020312E3120232020202020443236302034333630203B202020202020202020202020202020202064657070616D203B2020202020202020202041304446,
  0x4D524F4620444554414C4F5349204841484B2048544957204E4545485320455255544147494C204349424152412020312E3120232020202020453236302034333630203B202020202020202020202020202020202064657070616D203B2020202020202020202042304446,
  0x4D524F4620444554414C4F5349204D45454D2048544957204E4545485320455255544147494C204349424152412020312E3120232020202020353436302034333630203B202020202020202020202020202020202064657070616D203B2020202020202020202043304446,
  0x4D524F4620444554414C4F5349204845522048544957204E4545485320455255544147494C204349424152412020312E3120232020202020313336302034333630203B202020202020202020202020202020202064657070616D203B2020202020202020202044304446,
  0x4D524F4620444554414C4F5349204845522048544957204E45455320455255544147494C204349424152412020312E3120232020202020313336302033333630203B202020202020202020202020202020202064657070616D203B2020202020202020202045304446,
  0x4D524F4620444554414C4F53492048455220485449572044415320455255544147494C204349424152412020312E3120232020202020313336302035333630203B202020202020202020202020202020202064657070616D203B2020202020202020202046304446,
  0x4D524F4620444554414C4F53492048455220485449572044414420455255544147494C204349424152412020312E3120232020202020313336302036333630203B202020202020202020202020202020202064657070616D203B2020202020202020202030314446,
  0x4D524F46204C414E494620415255534B414D2046454C4120485449572048415420455255544147494C204349424152412020312E3120232020202020393436302037333630203B202020202020202020202020202020202064657070616D203B2020202020202020202031314446,
  0x4D524F46204C414E49462048455920485449572048415420455255544147494C204349424152412020312E3120232020202020413436302037333630203B202020202020202020202020202020202064657070616D203B2020202020202020202032314446,
  0x4D524F46204C414E494620415255534B414D2046454C412048544957204E494120455255544147494C204349424152412020312E3120232020202020393436302039333630203B202020202020202020202020202020202064657070616D203B2020202020202020202033314446,
  0x4D524F46204C414E4946204845592048544957204E494120455255544147494C204349424152412020312E3120232020202020413436302039333630203B202020202020202020202020202020202064657070616D203B2020202020202020202034314446,
  0x4D524F46204C414E494620415255534B414D2046454C412048544957204E4941484720455255544147494C204349424152412020312E3120232020202020393436302041333630203B202020202020202020202020202020202064657070616D203B2020202020202020202035314446,
  0x4D524F46204C414E4946204845592048544957204E4941484720455255544147494C204349424152412020312E3120232020202020413436302041333630203B202020202020202020202020202020202064657070616D203B2020202020202020202036314446,
  0x4D524F46204C414E494620415255534B414D2046454C412048544957204E45455320455255544147494C204349424152412020312E3120232020202020393436302033333630203B202020202020202020202020202020202064657070616D203B2020202020202020202037314446,
  0x4D524F46204C414E4946204845592048544957204E45455320455255544147494C204349424152412020312E3120232020202020413436302033333630203B202020202020202020202020202020202064657070616D203B2020202020202020202038314446,
  0x4D524F46204C414E494620415255534B414D2046454C412048544957204E4545485320455255544147494C204349424152412020312E3120232020202020393436302034333630203B202020202020202020202020202020202064657070616D203B2020202020202020202039314446,
  0x4D524F46204C414E4946204845592048544957204E4545485320455255544147494C204349424152412020312E3120232020202020413436302034333630203B202020202020202020202020202020202064657070616D203B2020202020202020202041314446,
  0x4D524F46204C414E494620415255534B414D2046454C4120485449572048414820455255544147494C204349424152412020312E3120232020202020393436302044323630203B202020202020202020202020202020202064657070616D203B2020202020202020202042314446,
  0x4D524F46204C414E49462048455920485449572048414820455255544147494C204349424152412020312E3120232020202020413436302044323630203B202020202020202020202020202020202064657070616D203B2020202020202020202043314446,
  0x4D524F46204C414E494620415255534B414D2046454C412048544957204D45454A20455255544147494C204349424152412020312E3120232020202020393436302043323630203B202020202020202020202020202020202064657070616D203B2020202020202020202044314446,
  0x4D524F46204C414E4946204845592048544957204D45454A20455255544147494C204349424152412020312E3120232020202020413436302043323630203B202020202020202020202020202020202064657070616D203B2020202020202020202045314446,
  0x4D524F46204C414E494620415255534B414D2046454C412048544957204841484B20455255544147494C204349424152412020312E3120232020202020393436302045323630203B202020202020202020202020202020202064657070616D203B2020202020202020202046314446,
  0x4D524F46204C414E4946204845592048544957204841484B20455255544147494C204349424152412020312E3120232020202020413436302045323630203B202020202020202020202020202020202064657070616D203B2020202020202020202030324446,
  0x4D524F46204C414E494620415255534B414D2046454C4120485449572044415320455255544147494C204349424152412020312E3120232020202020393436302035333630203B202020202020202020202020202020202064657070616D203B2020202020202020202031324446,
  0x4D524F46204C414E49462048455920485449572044415320455255544147494C204349424152412020312E3120232020202020413436302035333630203B202020202020202020202020202020202064657070616D203B2020202020202020202032324446,
  0x4D524F46204C414E494620415255534B414D2046454C4120485449572044414420455255544147494C204349424152412020312E3120232020202020393436302036333630203B202020202020202020202020202020202064657070616D203B2020202020202020202033324446,
  0x4D524F46204C414E49462048455920485449572044414420455255544147494C204349424152412020312E3120232020202020413436302036333630203B202020202020202020202020202020202064657070616D203B2020202020202020202034324446,
  0x4D524F46204C414E4946204D45454A2048544957204E4545485320455255544147494C204349424152412020312E3120232020202020433236302034333630203B202020202020202020202020202020202064657070616D203B2020202020202020202035324446,
  0x4D524F46204C414E4946204841482048544957204E4545485320455255544147494C204349424152412020312E3120232020202020443236302034333630203B202020202020202020202020202020202064657070616D203B2020202020202020202036324446]

def mapText21 : List Nat := [
  0x4D524F46204C414E4946204841484B2048544957204E4545485320455255544147494C204349424152412020312E3120232020202020453236302034333630203B202020202020202020202020202020202064657070616D203B2020202020202020202037324446,
  0x4D524F46204C414E4946204D45454D2048544957204E4545485320455255544147494C204349424152412020312E3120232020202020353436302034333630203B202020202020202020202020202020202064657070616D203B2020202020202020202038324446,
  0x4D524F46204C414E4946204845522048544957204E4545485320455255544147494C204349424152412020312E3120232020202020313336302034333630203B202020202020202020202020202020202064657070616D203B2020202020202020202039324446,
  0x4D524F46204C414E4946204845522048544957204E45455320455255544147494C204349424152412020312E3120232020202020313336302033333630203B202020202020202020202020202020202064657070616D203B2020202020202020202041324446,
  0x4D524F46204C414E49462048455220485449572044415320455255544147494C204349424152412020312E3120232020202020313336302035333630203B202020202020202020202020202020202064657070616D203B2020202020202020202042324446,
  0x4D524F46204C414E49462048455220485449572044414420455255544147494C204349424152412020312E3120232020202020313336302036333630203B202020202020202020202020202020202064657070616D203B2020202020202020202043324446,
  0x4D524F46204C414954494E49204D45454A2048544957204E4545485320455255544147494C204349424152412020312E3120232020202020433236302034333630203B202020202020202020202020202020202064657070616D203B2020202020202020202044324446,
  0x4D524F46204C414954494E49204841482048544957204E4545485320455255544147494C204349424152412020312E3120232020202020443236302034333630203B202020202020202020202020202020202064657070616D203B2020202020202020202045324446,
  0x4D524F46204C414954494E49204841484B2048544957204E4545485320455255544147494C204349424152412020312E3120232020202020453236302034333630203B202020202020202020202020202020202064657070616D203B2020202020202020202046324446,
  0x4D524F46204C414954494E49204D45454D2048544957204E4545485320455255544147494C204349424152412020312E3120232020202020353436302034333630203B202020202020202020202020202020202064657070616D203B2020202020202020202030334446,
  0x4D524F46204C414954494E49204845482048544957204E45455320455255544147494C204349424152412020312E3120232020202020373436302033333630203B202020202020202020202020202020202064657070616D203B2020202020202020202031334446,
  0x4D524F46204C414954494E49204845482048544957204E4545485320455255544147494C204349424152412020312E3120232020202020373436302034333630203B202020202020202020202020202020202064657070616D203B2020202020202020202032334446,
  0x4D524F46204C414954494E49204D45454D20485449572048415420455255544147494C204349424152412020312E3120232020202020353436302037333630203B202020202020202020202020202020202064657070616D203B2020202020202020202033334446,
  0x4D524F46204C414944454D204D45454A2048544957204E45455320455255544147494C204349424152412020312E3120232020202020433236302033333630203B202020202020202020202020202020202064657070616D203B2020202020202020202034334446,
  0x4D524F46204C414944454D204841482048544957204E45455320455255544147494C204349424152412020312E3120232020202020443236302033333630203B202020202020202020202020202020202064657070616D203B2020202020202020202035334446,
  0x4D524F46204C414944454D204841484B2048544957204E45455320455255544147494C204349424152412020312E3120232020202020453236302033333630203B202020202020202020202020202020202064657070616D203B2020202020202020202036334446,
  0x4D524F46204C414944454D204D45454A2048544957204E4545485320455255544147494C204349424152412020312E3120232020202020433236302034333630203B202020202020202020202020202020202064657070616D203B2020202020202020202037334446,
  0x4D524F46204C414944454D204841482048544957204E4545485320455255544147494C204349424152412020312E3120232020202020443236302034333630203B202020202020202020202020202020202064657070616D203B2020202020202020202038334446,
  0x4D524F46204C414944454D204841484B2048544957204E4545485320455255544147494C204349424152412020312E3120232020202020453236302034333630203B202020202020202020202020202020202064657070616D203B2020202020202020202039334446,
  0x4D524F46204C414944454D204D45454D20485449572048415420455255544147494C204349424152412020312E3120232020202020353436302037333630203B202020202020202020202020202020202064657070616D203B2020202020202020202041334446,
  0x4D524F46204C414944454D204D45454D20485449572048415A20455255544147494C204349424152412020312E3120232020202020353436302038333630203B202020202020202020202020202020202064657070616D203B2020202020202020202042334446,
  0x4D524F4620444554414C4F5349204E4154414854414620485449572046454C4120455255544147494C204349424152412E2E4D524F46204C414E4946204E4154414854414620485449572046454C4120455255544147494C204349424152412020312E3120232020202020423436302037323630203B202020202020202020202020202020202064657070616D203B20202020443344462E2E43334446,
  0x5349534548544E45524150205448474952204554414E524F2E2E5349534548544E45524150205446454C204554414E524F2020312E3120232020202038564E203B2020202020203B20202020202020202020202020202020202064696C6176203B20202020463344462E2E45334446,
  0x3E463444462D64657672657365723C2E2E3E303444462D64657672657365723C202020414E202320202020202020202020202020202020202020202020202020202020206465776F6C6C61736964203B20202020463444462E2E30344446,
  0x4D524F46204C414954494E49204D45454D2048544957204D45454A20485449572048455420455255544147494C204349424152412020312E3123203534363020433236302041323630203B202020202020202020202020202020202064657070616D203B2020202020202020202030354446,
  0x4D524F46204C414954494E49204D45454A20485449572048414820485449572048455420455255544147494C204349424152412E2E4D524F46204C414E4946204D45454A20485449572048414820485449572048455420455255544147494C204349424152412020312E3123204332363020443236302041323630203B202020202020202020202020202020202064657070616D203B20202020323544462E2E31354446,
  0x4D524F46204C414954494E49204D45454D20485449572048414820485449572048455420455255544147494C204349424152412020312E3123203534363020443236302041323630203B202020202020202020202020202020202064657070616D203B2020202020202020202033354446,
  0x4D524F46204C414954494E49204D45454D2048544957204841484B20485449572048455420455255544147494C204349424152412020312E3123203534363020453236302041323630203B202020202020202020202020202020202064657070616D203B2020202020202020202034354446,
  0x4D524F46204C414954494E49204D45454A2048544957204D45454D20485449572048455420455255544147494C204349424152412020312E3123204332363020353436302041323630203B202020202020202020202020202020202064657070616D203B2020202020202020202035354446,
  0x4D524F46204C414954494E49204841482048544957204D45454D20485449572048455420455255544147494C204349424152412020312E3123204432363020353436302041323630203B202020202020202020202020202020202064657070616D203B2020202020202020202036354446,
  0x4D524F46204C414954494E49204841484B2048544957204D45454D20485449572048455420455255544147494C204349424152412020312E3123204532363020353436302041323630203B202020202020202020202020202020202064657070616D203B2020202020202020202037354446,
  0x4D524F46204C414954494E49204841482048544957204D45454D2048544957204D45454A20455255544147494C204349424152412E2E4D524F46204C414E4946204841482048544957204D45454D2048544957204D45454A20455255544147494C204349424152412020312E3123204432363020353436302043323630203B202020202020202020202020202020202064657070616D203B20202020393544462E2E38354446,
  0x4D524F46204C414E4946204845592048544957204D45454D20485449572048414820455255544147494C204349424152412020312E3123204134363020353436302044323630203B202020202020202020202020202020202064657070616D203B2020202020202020202041354446,
  0x4D524F46204C414E494620415255534B414D2046454C412048544957204D45454D20485449572048414820455255544147494C204349424152412020312E3123203934363020353436302044323630203B202020202020202020202020202020202064657070616D203B2020202020202020202042354446,
  0x4D524F46204C414954494E49204D45454A2048544957204841482048544957204E45455320455255544147494C204349424152412020312E3123204332363020443236302033333630203B202020202020202020202020202020202064657070616D203B2020202020202020202043354446,
  0x4D524F46204C414954494E49204841482048544957204D45454A2048544957204E45455320455255544147494C204349424152412020312E3123204432363020433236302033333630203B202020202020202020202020202020202064657070616D203B2020202020202020202044354446,
  0x4D524F46204C414E494620415255534B414D2046454C412048544957204D45454A2048544957204E45455320455255544147494C204349424152412020312E3123203934363020433236302033333630203B202020202020202020202020202020202064657070616D203B2020202020202020202045354446,
  0x4D524F46204C414954494E49204841482048544957204D45454D2048544957204E45455320455255544147494C204349424152412E2E4D524F46204C414E4946204841482048544957204D45454D2048544957204E45455320455255544147494C204349424152412020312E3123204432363020353436302033333630203B202020202020202020202020202020202064657070616D203B20202020303644462E2E46354446,
  0x4D524F46204C414954494E49204D45454A2048544957204D45454D2048544957204E45455320455255544147494C204349424152412020312E3123204332363020353436302033333630203B202020202020202020202020202020202064657070616D203B2020202020202020202031364446,
  0x4D524F46204C414954494E49204D45454D2048544957204D45454D2048544957204E45455320455255544147494C204349424152412E2E4D524F46204C414E4946204D45454D2048544957204D45454D2048544957204E45455320455255544147494C204349424152412020312E3123203534363020353436302033333630203B202020202020202020202020202020202064657070616D203B20202020333644462E2E32364446,
  0x4D524F46204C414954494E492048414820485449572048414820485449572044415320455255544147494C204349424152412E2E4D524F46204C414E49462048414820485449572048414820485449572044415320455255544147494C204349424152412020312E3123204432363020443236302035333630203B202020202020202020202020202020202064657070616D203B20202020353644462E2E34364446,
  0x4D524F46204C414E4946204D45454D2048544957204D45454D20485449572044415320455255544147494C204349424152412020312E3123203534363020353436302035333630203B202020202020202020202020202020202064657070616D203B2020202020202020202036364446,
  0x4D524F46204C414954494E49204D45454D2048544957204841482048544957204E4545485320455255544147494C204349424152412E2E4D524F46204C414E4946204D45454D2048544957204841482048544957204E4545485320455255544147494C204349424152412020312E3123203534363020443236302034333630203B202020202020202020202020202020202064657070616D203B20202020383644462E2E37364446,
  0x4D524F46204C414E4946204845592048544957204D45454A2048544957204E4545485320455255544147494C204349424152412020312E3123204134363020433236302034333630203B202020202020202020202020202020202064657070616D203B2020202020202020202039364446,
  0x4D524F46204C414954494E49204841484B2048544957204D45454D2048544957204E4545485320455255544147494C204349424152412E2E4D524F46204C414E4946204841484B2048544957204D45454D2048544957204E4545485320455255544147494C204349424152412020312E3123204532363020353436302034333630203B202020202020202020202020202020202064657070616D203B20202020423644462E2E41364446,
  0x4D524F46204C414954494E49204D45454D2048544957204D45454D2048544957204E4545485320455255544147494C204349424152412E2E4D524F46204C414E4946204D45454D2048544957204D45454D2048544957204E4545485320455255544147494C204349424152412020312E3123203534363020353436302034333630203B202020202020202020202020202020202064657070616D203B20202020443644462E2E43364446,
  0x4D524F46204C414E494620415255534B414D2046454C4120485449572048414820485449572044414420455255544147494C204349424152412020312E3123203934363020443236302036333630203B202020202020202020202020202020202064657070616D203B2020202020202020202045364446,
  0x4D524F46204C414954494E49204D45454D2048544957204841484B20485449572044414420455255544147494C204349424152412E2E4D524F46204C414E4946204D45454D2048544957204841484B20485449572044414420455255544147494C204349424152412020312E3123203534363020453236302036333630203B202020202020202020202020202020202064657070616D203B20202020303744462E2E46364446,
  0x4D524F46204C414954494E49204841482048544957204D45454D20485449572048415420455255544147494C204349424152412E2E4D524F46204C414E4946204841482048544957204D45454D20485449572048415420455255544147494C204349424152412020312E3123204432363020353436302037333630203B202020202020202020202020202020202064657070616D203B20202020323744462E2E31374446,
  0x4D524F46204C414954494E49204D45454D2048544957204D45454D20485449572048415420455255544147494C204349424152412020312E3123203534363020353436302037333630203B202020202020202020202020202020202064657070616D203B2020202020202020202033374446,
  0x4D524F46204C414E4946204845592048544957204D45454D20485449572048415420455255544147494C204349424152412020312E3123204134363020353436302037333630203B202020202020202020202020202020202064657070616D203B2020202020202020202034374446,
  0x4D524F46204C414E4946204D45454D2048544957204D45454A2048544957204E494120455255544147494C204349424152412020312E3123203534363020433236302039333630203B202020202020202020202020202020202064657070616D203B2020202020202020202035374446,
  0x4D524F46204C414954494E49204D45454D2048544957204D45454D2048544957204E494120455255544147494C204349424152412E2E4D524F46204C414E4946204D45454D2048544957204D45454D2048544957204E494120455255544147494C204349424152412020312E3123203534363020353436302039333630203B202020202020202020202020202020202064657070616D203B20202020373744462E2E36374446,
  0x4D524F46204C414E494620415255534B414D2046454C412048544957204D45454D2048544957204E494120455255544147494C204349424152412020312E3123203934363020353436302039333630203B202020202020202020202020202020202064657070616D203B2020202020202020202038374446,
  0x4D524F46204C414E4946204D45454D2048544957204D45454D2048544957204E4941484720455255544147494C204349424152412020312E3123203534363020353436302041333630203B202020202020202020202020202020202064657070616D203B2020202020202020202039374446,
  0x4D524F46204C414E4946204845592048544957204D45454D2048544957204E4941484720455255544147494C204349424152412020312E3123204134363020353436302041333630203B202020202020202020202020202020202064657070616D203B2020202020202020202041374446,
  0x4D524F46204C414E494620415255534B414D2046454C412048544957204D45454D2048544957204E4941484720455255544147494C204349424152412020312E3123203934363020353436302041333630203B202020202020202020202020202020202064657070616D203B2020202020202020202042374446,
  0x4D524F46204C414954494E49204D45454D2048544957204841484B20485449572048454620455255544147494C204349424152412E2E4D524F46204C414E4946204D45454D2048544957204841484B20485449572048454620455255544147494C204349424152412020312E3123203534363020453236302031343630203B202020202020202020202020202020202064657070616D203B20202020443744462E2E43374446,
  0x4D524F46204C414E4946204841482048544957204D45454D20485449572046415120455255544147494C204349424152412020312E3123204432363020353436302032343630203B202020202020202020202020202020202064657070616D203B2020202020202020202045374446,
  0x4D524F46204C414E4946204D45454D2048544957204D45454D20485449572046415120455255544147494C204349424152412020312E3123203534363020353436302032343630203B202020202020202020202020202020202064657070616D203B2020202020202020202046374446,
  0x4D524F46204C414E4946204D45454D2048544957204841482048544957204D414C20455255544147494C204349424152412020312E3123203534363020443236302034343630203B202020202020202020202020202020202064657070616D203B2020202020202020202030384446,
  0x4D524F46204C414E4946204845592048544957204841482048544957204D414C20455255544147494C204349424152412020312E3123204134363020443236302034343630203B202020202020202020202020202020202064657070616D203B2020202020202020202031384446,
  0x4D524F46204C414E494620415255534B414D2046454C412048544957204841482048544957204D414C20455255544147494C204349424152412020312E3123203934363020443236302034343630203B202020202020202020202020202020202064657070616D203B2020202020202020202032384446,
  0x4D524F46204C414E4946204D45454A2048544957204D45454A2048544957204D414C20455255544147494C204349424152412E2E4D524F46204C414954494E49204D45454A2048544957204D45454A2048544957204D414C20455255544147494C204349424152412020312E3123204332363020433236302034343630203B202020202020202020202020202020202064657070616D203B20202020343844462E2E33384446,
  0x4D524F46204C414954494E49204D45454D2048544957204841484B2048544957204D414C20455255544147494C204349424152412E2E4D524F46204C414E4946204D45454D2048544957204841484B2048544957204D414C20455255544147494C204349424152412020312E3123203534363020453236302034343630203B202020202020202020202020202020202064657070616D203B20202020363844462E2E35384446,
  0x4D524F46204C414954494E49204841482048544957204D45454D2048544957204D414C20455255544147494C204349424152412E2E4D524F46204C414E4946204841482048544957204D45454D2048544957204D414C20455255544147494C204349424152412020312E3123204432363020353436302034343630203B202020202020202020202020202020202064657070616D203B20202020383844462E2E37384446,
  0x4D524F46204C414954494E49204D45454A2048544957204841482048544957204D45454D20455255544147494C204349424152412020312E3123204332363020443236302035343630203B202020202020202020202020202020202064657070616D203B2020202020202020202039384446,
  0x4D524F46204C414954494E49204D45454D2048544957204841482048544957204D45454D20455255544147494C204349424152412020312E3123203534363020443236302035343630203B202020202020202020202020202020202064657070616D203B2020202020202020202041384446,
  0x4D524F46204C414E4946204845592048544957204841482048544957204D45454D20455255544147494C204349424152412020312E3123204134363020443236302035343630203B202020202020202020202020202020202064657070616D203B2020202020202020202042384446,
  0x4D524F46204C414954494E49204841482048544957204D45454A2048544957204D45454D20455255544147494C204349424152412020312E3123204432363020433236302035343630203B202020202020202020202020202020202064657070616D203B2020202020202020202043384446,
  0x4D524F46204C414954494E49204D45454D2048544957204D45454A2048544957204D45454D20455255544147494C204349424152412020312E3123203534363020433236302035343630203B202020202020202020202020202020202064657070616D203B2020202020202020202044384446,
  0x4D524F46204C414954494E49204D45454A2048544957204841484B2048544957204D45454D20455255544147494C204349424152412020312E3123204332363020453236302035343630203B202020202020202020202020202020202064657070616D203B2020202020202020202045384446,
  0x4D524F46204C414954494E49204D45454D2048544957204841484B2048544957204D45454D20455255544147494C204349424152412020312E3123203534363020453236302035343630203B202020202020202020202020202020202064657070616D203B2020202020202020202046384446,
  0x3E313944462D64657672657365723C2E2E3E303944462D64657672657365723C202020414E202320202020202020202020202020202020202020202020202020202020206465776F6C6C61736964203B20202020313944462E2E30394446,
  0x4D524F46204C414954494E49204841484B2048544957204D45454A2048544957204D45454D20455255544147494C204349424152412020312E3123204532363020433236302035343630203B202020202020202020202020202020202064657070616D203B2020202020202020202032394446,
  0x4D524F46204C414954494E49204D45454A2048544957204D45454D20485449572048454820455255544147494C204349424152412020312E3123204332363020353436302037343630203B202020202020202020202020202020202064657070616D203B2020202020202020202033394446,
  0x4D524F46204C414954494E49204D45454D2048544957204D45454D20485449572048454820455255544147494C204349424152412020312E3123203534363020353436302037343630203B202020202020202020202020202020202064657070616D203B2020202020202020202034394446,
  0x4D524F46204C414954494E49204D45454D2048544957204841482048544957204E4F4F4E20455255544147494C204349424152412020312E3123203534363020443236302036343630203B202020202020202020202020202020202064657070616D203B2020202020202020202035394446,
  0x4D524F46204C414E494620415255534B414D2046454C412048544957204841482048544957204E4F4F4E20455255544147494C204349424152412020312E3123203934363020443236302036343630203B202020202020202020202020202020202064657070616D203B2020202020202020202036394446,
  0x4D524F46204C414954494E49204D45454D2048544957204D45454A2048544957204E4F4F4E20455255544147494C204349424152412E2E4D524F46204C414E4946204D45454D2048544957204D45454A2048544957204E4F4F4E20455255544147494C204349424152412020312E3123203534363020433236302036343630203B202020202020202020202020202020202064657070616D203B20202020383944462E2E37394446,
  0x4D524F46204C414E494620415255534B414D2046454C412048544957204D45454A2048544957204E4F4F4E20455255544147494C204349424152412020312E3123203934363020433236302036343630203B202020202020202020202020202020202064657070616D203B2020202020202020202039394446,
  0x4D524F46204C414E4946204845592048544957204D45454D2048544957204E4F4F4E20455255544147494C204349424152412020312E3123204134363020353436302036343630203B202020202020202020202020202020202064657070616D203B2020202020202020202041394446,
  0x4D524F46204C414E494620415255534B414D2046454C412048544957204D45454D2048544957204E4F4F4E20455255544147494C204349424152412020312E3123203934363020353436302036343630203B202020202020202020202020202020202064657070616D203B2020202020202020202042394446,
  0x4D524F46204C414954494E49204D45454D2048544957204D45454D20485449572048455920455255544147494C204349424152412E2E4D524F46204C414E4946204D45454D2048544957204D45454D20485449572048455920455255544147494C204349424152412020312E3123203534363020353436302041343630203B202020202020202020202020202020202064657070616D203B20202020443944462E2E43394446,
  0x4D524F46204C414E4946204845592048544957204841484B20485449572048454220455255544147494C204349424152412020312E3123204134363020453236302038323630203B202020202020202020202020202020202064657070616D203B2020202020202020202045394446,
  0x4D524F46204C414E4946204845592048544957204D45454A20485449572048455420455255544147494C204349424152412020312E3123204134363020433236302041323630203B202020202020202020202020202020202064657070616D203B2020202020202020202046394446,
  0x4D524F46204C414E494620415255534B414D2046454C412048544957204D45454A20485449572048455420455255544147494C204349424152412020312E3123203934363020433236302041323630203B202020202020202020202020202020202064657070616D203B2020202020202020202030414446,
  0x4D524F46204C414E4946204845592048544957204841484B20485449572048455420455255544147494C204349424152412020312E3123204134363020453236302041323630203B202020202020202020202020202020202064657070616D203B2020202020202020202031414446,
  0x4D524F46204C414E494620415255534B414D2046454C412048544957204841484B20485449572048455420455255544147494C204349424152412020312E3123203934363020453236302041323630203B202020202020202020202020202020202064657070616D203B2020202020202020202032414446,
  0x4D524F46204C414E4946204845592048544957204D45454D20485449572048455420455255544147494C204349424152412020312E3123204134363020353436302041323630203B202020202020202020202020202020202064657070616D203B2020202020202020202033414446,
  0x4D524F46204C414E494620415255534B414D2046454C412048544957204D45454D20485449572048455420455255544147494C204349424152412020312E3123203934363020353436302041323630203B202020202020202020202020202020202064657070616D203B2020202020202020202034414446,
  0x4D524F46204C414E4946204845592048544957204D45454D2048544957204D45454A20455255544147494C204349424152412020312E3123204134363020353436302043323630203B202020202020202020202020202020202064657070616D203B2020202020202020202035414446,
  0x4D524F46204C414E494620415255534B414D2046454C412048544957204841482048544957204D45454A20455255544147494C204349424152412020312E3123203934363020443236302043323630203B202020202020202020202020202020202064657070616D203B2020202020202020202036414446,
  0x4D524F46204C414E494620415255534B414D2046454C412048544957204D45454D2048544957204D45454A20455255544147494C204349424152412020312E3123203934363020353436302043323630203B202020202020202020202020202020202064657070616D203B2020202020202020202037414446,
  0x4D524F46204C414E494620415255534B414D2046454C412048544957204841484B2048544957204E45455320455255544147494C204349424152412020312E3123203934363020453236302033333630203B202020202020202020202020202020202064657070616D203B2020202020202020202038414446,
  0x4D524F46204C414E49462048455920485449572048414820485449572044415320455255544147494C204349424152412020312E3123204134363020443236302035333630203B202020202020202020202020202020202064657070616D203B2020202020202020202039414446,
  0x4D524F46204C414E4946204845592048544957204841482048544957204E4545485320455255544147494C204349424152412020312E3123204134363020443236302034333630203B202020202020202020202020202020202064657070616D203B2020202020202020202041414446,
  0x4D524F46204C414E49462048455920485449572048414820485449572044414420455255544147494C204349424152412020312E3123204134363020443236302036333630203B202020202020202020202020202020202064657070616D203B2020202020202020202042414446,
  0x4D524F46204C414E4946204845592048544957204D45454A2048544957204D414C20455255544147494C204349424152412020312E3123204134363020433236302034343630203B202020202020202020202020202020202064657070616D203B2020202020202020202043414446,
  0x4D524F46204C414E4946204845592048544957204D45454D2048544957204D414C20455255544147494C204349424152412020312E3123204134363020353436302034343630203B202020202020202020202020202020202064657070616D203B2020202020202020202044414446,
  0x4D524F46204C414E49462048455920485449572048414820485449572048455920455255544147494C204349424152412020312E3123204134363020443236302041343630203B202020202020202020202020202020202064657070616D203B2020202020202020202045414446,
  0x4D524F46204C414E4946204845592048544957204D45454A20485449572048455920455255544147494C204349424152412020312E3123204134363020433236302041343630203B202020202020202020202020202020202064657070616D203B2020202020202020202046414446,
  0x4D524F46204C414E4946204845592048544957204D45454D20485449572048455920455255544147494C204349424152412020312E3123204134363020353436302041343630203B202020202020202020202020202020202064657070616D203B2020202020202020202030424446,
  0x4D524F46204C414E4946204845592048544957204D45454D2048544957204D45454D20455255544147494C204349424152412020312E3123204134363020353436302035343630203B202020202020202020202020202020202064657070616D203B2020202020202020202031424446,
  0x4D524F46204C414E4946204845592048544957204D45454D20485449572046415120455255544147494C204349424152412020312E3123204134363020353436302032343630203B202020202020202020202020202020202064657070616D203B2020202020202020202032424446,
  0x4D524F46204C414E4946204845592048544957204841482048544957204E4F4F4E20455255544147494C204349424152412020312E3123204134363020443236302036343630203B202020202020202020202020202020202064657070616D203B2020202020202020202033424446,
  0x4D524F46204C414954494E49204841482048544957204D45454D20485449572046415120455255544147494C204349424152412020312E3123204432363020353436302032343630203B202020202020202020202020202020202064657070616D203B2020202020202020202034424446,
  0x4D524F46204C414954494E49204D45454D2048544957204841482048544957204D414C20455255544147494C204349424152412020312E3123203534363020443236302034343630203B202020202020202020202020202020202064657070616D203B2020202020202020202035424446,
  0x4D524F46204C414E4946204845592048544957204D45454D2048544957204E494120455255544147494C204349424152412020312E3123204134363020353436302039333630203B202020202020202020202020202020202064657070616D203B2020202020202020202036424446,
  0x4D524F46204C414E4946204845592048544957204D45454D20485449572046414B20455255544147494C204349424152412020312E3123204134363020353436302033343630203B202020202020202020202020202020202064657070616D203B2020202020202020202037424446,
  0x4D524F46204C414954494E49204841482048544957204D45454A2048544957204E4F4F4E20455255544147494C204349424152412020312E3123204432363020433236302036343630203B202020202020202020202020202020202064657070616D203B2020202020202020202038424446,
  0x4D524F46204C414E4946204845592048544957204841484B2048544957204D45454D20455255544147494C204349424152412020312E3123204134363020453236302035343630203B202020202020202020202020202020202064657070616D203B2020202020202020202039424446,
  0x4D524F46204C414954494E49204D45454D2048544957204D45454A2048544957204D414C20455255544147494C204349424152412020312E3123203534363020433236302034343630203B202020202020202020202020202020202064657070616D203B2020202020202020202041424446,
  0x4D524F46204C414E4946204D45454D2048544957204D45454D20485449572046414B20455255544147494C204349424152412020312E3123203534363020353436302033343630203B202020202020202020202020202020202064657070616D203B2020202020202020202042424446,
  0x4D524F46204C414E4946204D45454D2048544957204D45454A2048544957204D414C20455255544147494C204349424152412020312E3123203534363020433236302034343630203B202020202020202020202020202020202064657070616D203B2020202020202020202043424446,
  0x4D524F46204C414E4946204841482048544957204D45454A2048544957204E4F4F4E20455255544147494C204349424152412020312E3123204432363020433236302036343630203B202020202020202020202020202020202064657070616D203B2020202020202020202044424446,
  0x4D524F46204C414E4946204845592048544957204841482048544957204D45454A20455255544147494C204349424152412020312E3123204134363020443236302043323630203B202020202020202020202020202020202064657070616D203B2020202020202020202045424446,
  0x4D524F46204C414E4946204845592048544957204D45454A20485449572048414820455255544147494C204349424152412020312E3123204134363020433236302044323630203B202020202020202020202020202020202064657070616D203B2020202020202020202046424446,
  0x4D524F46204C414E4946204845592048544957204D45454A2048544957204D45454D20455255544147494C204349424152412020312E3123204134363020433236302035343630203B202020202020202020202020202020202064657070616D203B2020202020202020202030434446,
  0x4D524F46204C414E4946204845592048544957204D45454D20485449572048454620455255544147494C204349424152412020312E3123204134363020353436302031343630203B202020202020202020202020202020202064657070616D203B2020202020202020202031434446,
  0x4D524F46204C414E49462048455920485449572048414820485449572048454220455255544147494C204349424152412020312E3123204134363020443236302038323630203B202020202020202020202020202020202064657070616D203B2020202020202020202032434446,
  0x4D524F46204C414954494E49204D45454D2048544957204D45454D20485449572046414B20455255544147494C204349424152412020312E3123203534363020353436302033343630203B202020202020202020202020202020202064657070616D203B2020202020202020202033434446,
  0x4D524F46204C414954494E49204D45454D2048544957204D45454A2048544957204E494120455255544147494C204349424152412020312E3123203534363020433236302039333630203B202020202020202020202020202020202064657070616D203B2020202020202020202034434446,
  0x4D524F46204C414954494E49204D45454D2048544957204D45454D20485449572044415320455255544147494C204349424152412020312E3123203534363020353436302035333630203B202020202020202020202020202020202064657070616D203B2020202020202020202035434446,
  0x4D524F46204C414E4946204845592048544957204841484B2048544957204E45455320455255544147494C204349424152412020312E3123204134363020453236302033333630203B202020202020202020202020202020202064657070616D203B2020202020202020202036434446,
  0x4D524F46204C414E4946204845592048544957204D45454A2048544957204E4F4F4E20455255544147494C204349424152412020312E3123204134363020433236302036343630203B202020202020202020202020202020202064657070616D203B2020202020202020202037434446,
  0x3E464344462D64657672657365723C2E2E3E384344462D64657672657365723C202020414E202320202020202020202020202020202020202020202020202020202020206465776F6C6C61736964203B20202020464344462E2E38434446,
  0x3E464544462D7265746361726168636E6F6E3C2E2E3E304444462D7265746361726168636E6F6E3C2020312E33202320202020202020202020202020202020202020202020202020202020206465776F6C6C61736964203B20202020464544462E2E30444446,
  0x4D524F4620444554414C4F5349204E47495320504F54532043494E41524F4B205341204445535520414C4C415320455255544147494C204349424152412020312E3123203244363020343436302035333630203B202020202020202020202020202020202064657070616D203B2020202020202020202030464446,
  0x4D524F4620444554414C4F5349204E47495320504F54532043494E41524F4B205341204445535520414C415120455255544147494C204349424152412020312E3123203244363020343436302032343630203B202020202020202020202020202020202064657070616D203B2020202020202020202031464446,
  0x4D524F4620444554414C4F53492048414C4C4120455255544147494C2043494241524120312E31232037343630203434363020343436302037323630203B202020202020202020202020202020202064657070616D203B2020202020202020202032464446,
  0x4D524F4620444554414C4F5349205241424B4120455255544147494C2043494241524120312E31232031333630203832363020333436302037323630203B202020202020202020202020202020202064657070616D203B2020202020202020202033464446,
  0x4D524F4620444554414C4F53492044414D4D41484F4D20455255544147494C2043494241524120312E31232046323630203534363020443236302035343630203B202020202020202020202020202020202064657070616D203B2020202020202020202034464446,
  0x4D524F4620444554414C4F5349204D414C415320455255544147494C2043494241524120312E31232035343630203933363020343436302035333630203B202020202020202020202020202020202064657070616D203B2020202020202020202035464446,
  0x4D524F4620444554414C4F5349204C554F53415220455255544147494C2043494241524120312E31232034343630203834363020333336302031333630203B202020202020202020202020202020202064657070616D203B2020202020202020202036464446,
  0x4D524F4620444554414C4F534920454859414C4120455255544147494C2043494241524120312E31232037343630204134363020343436302039333630203B202020202020202020202020202020202064657070616D203B2020202020202020202037464446,
  0x4D524F4620444554414C4F5349204D414C4C4153415720455255544147494C2043494241524120312E31232035343630203434363020333336302038343630203B202020202020202020202020202020202064657070616D203B2020202020202020202038464446,
  0x4D524F4620444554414C4F534920414C4C415320455255544147494C204349424152412020312E3123203934363020343436302035333630203B202020202020202020202020202020202064657070616D203B2020202020202020202039464446,
  0x4D414C4C4153415720454859414C4120554F48414C4C414C4C415320455255544147494C2043494241524120312E3123203534363020343436302033333630203834363020303230302037343630204134363020343436302039333630203032303020373436302034343630203434363020373236302030323030203934363020343436302035333630203B2064657070616D5F334454535F6465776F6C6C61736964203B2020202020202020202041464446,
  0x554F48554F4C414C414A414C4C414A20455255544147494C2043494241524120312E312320373436302034343630203732363020343436302043323630203032303020343436302043323630203B2064657070616D5F334454535F6465776F6C6C61736964203B2020202020202020202042464446,
  0x4E474953204C41495220322E33232034343630203732363020434336302031333630203B202020202020202020202020202020202064657070616D203B2020202020202020202043464446,
  0x4D45454841522D5241204E414D4841522D52412048414C4C494D53494220455255544147494C204349424152412020302E3420232020202038564E203B2020202020203B20202020202020202020202020202020202064696C6176203B2020202020202020202044464446,
  0x3E464644462D64657672657365723C2E2E3E454644462D64657672657365723C202020414E202320202020202020202020202020202020202020202020202020202020206465776F6C6C61736964203B20202020464644462E2E45464446,
  0x36312D524F5443454C4553204E4F495441495241562E2E312D524F5443454C4553204E4F495441495241562020322E33202320202020202020202020202020202020202020202020202020202020202020206465726F6E6769203B20202020463045462E2E30304546,
  0x414D4D4F43204C4143495452455620524F46204D524F46204E4F495441544E45534552502020312E3420232020202020202020202043323030203B2064657070616D5F334454535F6465776F6C6C61736964203B2020202020202020202030314546,
  0x414D4D4F4320434948504152474F454449204C4143495452455620524F46204D524F46204E4F495441544E45534552502020312E3420232020202020202020202031303033203B202020202020202020202020202020202064657070616D203B2020202020202020202031314546,
  0x504F5453204C4C554620434948504152474F454449204C4143495452455620524F46204D524F46204E4F495441544E45534552502020312E34202320202020202020202020202020202020202020202020202020202020206465776F6C6C61736964203B2020202020202020202032314546,
  0x4E4F4C4F43204C4143495452455620524F46204D524F46204E4F495441544E45534552502020312E3420232020202020202020202041333030203B2064657070616D5F334454535F6465776F6C6C61736964203B2020202020202020202033314546,
  0x4E4F4C4F43494D4553204C4143495452455620524F46204D524F46204E4F495441544E45534552502020312E3420232020202020202020202042333030203B2064657070616D5F334454535F6465776F6C6C61736964203B2020202020202020202034314546,
  0x4B52414D204E4F4954414D414C435845204C4143495452455620524F46204D524F46204E4F495441544E45534552502020312E3420232020202020202020202031323030203B2064657070616D5F334454535F6465776F6C6C61736964203B2020202020202020202035314546,
  0x4B52414D204E4F495453455551204C4143495452455620524F46204D524F46204E4F495441544E45534552502020312E3420232020202020202020202046333030203B2064657070616D5F334454535F6465776F6C6C61736964203B2020202020202020202036314546,
  0x54454B434152422052414C554349544E454C204554494857205446454C204C4143495452455620524F46204D524F46204E4F495441544E45534552502020312E3420232020202020202020202036313033203B202020202020202020202020202020202064657070616D203B2020202020202020202037314546,
  0x5445434B4152422052414C554349544E454C204554494857205448474952204C4143495452455620524F46204D524F46204E4F495441544E45534552502020312E3420232020202020202020202037313033203B202020202020202020202020202020202064657070616D203B2020202020202020202038314546,
  0x53495350494C4C45204C41544E4F5A49524F48204C4143495452455620524F46204D524F46204E4F495441544E45534552502020312E34202320202020202020202020202020202020202020202020202020202020206465776F6C6C61736964203B2020202020202020202039314546,
  0x3E463145462D64657672657365723C2E2E3E413145462D64657672657365723C202020414E202320202020202020202020202020202020202020202020202020202020206465776F6C6C61736964203B20202020463145462E2E41314546,
  0x464C41482054484749522045444C495420454C42554F4420474E494E49424D4F432E2E464C4148205446454C20455255544147494C20474E494E49424D4F432020312E3120232020202020202020202020202020202020202020202020202020202020202020202064696C6176203B20202020333245462E2E30324546,
  0x4E4F5243414D20474E494E494F4A4E4F4320474E494E49424D4F432E2E464C4148205446454C204E4F5243414D20474E494E49424D4F432020312E3520232020202020202020202020202020202020202020202020202020202020202020202064696C6176203B20202020363245462E2E34324546,
  0x574F4C4542204E4F5243414D20474E494E494F4A4E4F4320474E494E49424D4F432E2E574F4C454220464C4148205446454C20455255544147494C20474E494E49424D4F432020302E3720232020202020202020202020202020202020202020202020202020202020202020202064696C6176203B20202020443245462E2E37324546,
  0x464C4148205448474952204F4C5449542043494C4C4952594320474E494E49424D4F432E2E464C4148205446454C204F4C5449542043494C4C4952594320474E494E49424D4F432020302E3820232020202020202020202020202020202020202020202020202020202020202020202064696C6176203B20202020463245462E2E45324546,
  0x52454441454C20544F44204F5754204C4143495452455620524F46204D524F46204E4F495441544E45534552502020312E31202320202020202020202020202020202020202020202020202020202020206465776F6C6C61736964203B2020202020202020202030334546,
  0x48534144204D45204C4143495452455620524F46204D524F46204E4F495441544E45534552502020312E3120232020202020202020202034313032203B202020202020202020202020202020202064657070616D203B2020202020202020202031334546,
  0x48534144204E45204C4143495452455620524F46204D524F46204E4F495441544E45534552502020312E3120232020202020202020202033313032203B202020202020202020202020202020202064657070616D203B2020202020202020202032334546,
  0x454E494C20574F4C2059564157204C4143495452455620524F46204D524F46204E4F495441544E45534552502E2E454E494C20574F4C204C4143495452455620524F46204D524F46204E4F495441544E45534552502020312E3120232020202020202020202046353030203B2064657070616D5F334454535F6465776F6C6C61736964203B20202020343345462E2E33334546,
  0x5349534548544E45524150205446454C204C4143495452455620524F46204D524F46204E4F495441544E45534552502020312E3120232020202020202020202038323030203B2064657070616D5F334454535F6465776F6C6C61736964203B2020202020202020202035334546,
  0x5349534548544E45524150205448474952204C4143495452455620524F46204D524F46204E4F495441544E45534552502020312E3120232020202020202020202039323030203B2064657070616D5F334454535F6465776F6C6C61736964203B2020202020202020202036334546,
  0x54454B4341524220594C525543205446454C204C4143495452455620524F46204D524F46204E4F495441544E45534552502020312E3120232020202020202020202042373030203B2064657070616D5F334454535F6465776F6C6C61736964203B2020202020202020202037334546,
  0x54454B4341524220594C525543205448474952204C4143495452455620524F46204D524F46204E4F495441544E45534552502020312E3120232020202020202020202044373030203B2064657070616D5F334454535F6465776F6C6C61736964203B2020202020202020202038334546,
  0x54454B43415242204C4C454853204553494F54524F54205446454C204C4143495452455620524F46204D524F46204E4F495441544E45534552502020312E3120232020202020202020202034313033203B202020202020202020202020202020202064657070616D203B2020202020202020202039334546,
  0x54454B43415242204C4C454853204553494F54524F54205448474952204C4143495452455620524F46204D524F46204E4F495441544E45534552502020312E3120232020202020202020202035313033203B202020202020202020202020202020202064657070616D203B2020202020202020202041334546,
  0x54454B434152422052414C554349544E454C204B43414C42205446454C204C4143495452455620524F46204D524F46204E4F495441544E45534552502020312E3120232020202020202020202030313033203B202020202020202020202020202020202064657070616D203B2020202020202020202042334546,
  0x54454B434152422052414C554349544E454C204B43414C42205448474952204C4143495452455620524F46204D524F46204E4F495441544E45534552502020312E3120232020202020202020202031313033203B202020202020202020202020202020202064657070616D203B2020202020202020202043334546,
  0x54454B4341524220454C474E4120454C42554F44205446454C204C4143495452455620524F46204D524F46204E4F495441544E45534552502020312E3120232020202020202020202041303033203B202020202020202020202020202020202064657070616D203B2020202020202020202044334546,
  0x54454B4341524220454C474E4120454C42554F44205448474952204C4143495452455620524F46204D524F46204E4F495441544E45534552502020312E3120232020202020202020202042303033203B202020202020202020202020202020202064657070616D203B2020202020202020202045334546,
  0x54454B4341524220454C474E41205446454C204C4143495452455620524F46204D524F46204E4F495441544E45534552502020312E3120232020202020202020202038303033203B202020202020202020202020202020202064657070616D203B2020202020202020202046334546,
  0x54454B4341524220454C474E41205448474952204C4143495452455620524F46204D524F46204E4F495441544E45534552502020312E3120232020202020202020202039303033203B202020202020202020202020202020202064657070616D203B2020202020202020202030344546,
  0x54454B434152422052454E524F43205446454C204C4143495452455620524F46204D524F46204E4F495441544E45534552502020312E3120232020202020202020202043303033203B202020202020202020202020202020202064657070616D203B2020202020202020202031344546,
  0x54454B434152422052454E524F43205448474952204C4143495452455620524F46204D524F46204E4F495441544E45534552502020312E3120232020202020202020202044303033203B202020202020202020202020202020202064657070616D203B2020202020202020202032344546,
  0x54454B434152422052454E524F43204554494857205446454C204C4143495452455620524F46204D524F46204E4F495441544E45534552502020312E3120232020202020202020202045303033203B202020202020202020202020202020202064657070616D203B2020202020202020202033344546,
  0x54454B434152422052454E524F43204554494857205448474952204C4143495452455620524F46204D524F46204E4F495441544E45534552502020312E3120232020202020202020202046303033203B202020202020202020202020202020202064657070616D203B2020202020202020202034344546,
  0x544F4420454D415345532045544948572E2E544F4420454D415345532020322E3320232020202038564E203B2020202020203B20202020202020202020202020202020202064696C6176203B20202020363445462E2E35344546,
  0x54454B4341524220455241555153205446454C204C4143495452455620524F46204D524F46204E4F495441544E45534552502020302E3420232020202020202020202042353030203B2064657070616D5F334454535F6465776F6C6C61736964203B2020202020202020202037344546,
  0x54454B4341524220455241555153205448474952204C4143495452455620524F46204D524F46204E4F495441544E45534552502020302E3420232020202020202020202044353030203B2064657070616D5F334454535F6465776F6C6C61736964203B2020202020202020202038344546,
  0x454E494C5245564F205956415720454C42554F442E2E454E494C5245564F204445485341442020312E3120232020202020353033302030323030203B2064657070616D5F334454535F6465776F6C6C61736964203B20202020433445462E2E39344546,
  0x454E494C20574F4C20595641572E2E454E494C20574F4C204445485341442020312E3120232020202020202020202046353030203B2064657070616D5F334454535F6465776F6C6C61736964203B20202020463445462E2E44344546,
  0x414D4D4F43204C4C414D532020312E3120232020202020202020202043323030203B2064657070616D5F334454535F6465776F6C6C61736964203B2020202020202020202030354546,
  0x414D4D4F4320434948504152474F454449204C4C414D532020312E3120232020202020202020202031303033203B202020202020202020202020202020202064657070616D203B2020202020202020202031354546,
  0x504F5453204C4C5546204C4C414D532020312E31202320202020202020202020202020202020202020202020202020202020206465776F6C6C61736964203B2020202020202020202032354546,
  0x3E333545462D64657672657365723C202020414E202320202020202020202020202020202020202020202020202020202020206465776F6C6C61736964203B2020202020202020202033354546,
  0x4E4F4C4F43494D4553204C4C414D532020312E3120232020202020202020202042333030203B2064657070616D5F334454535F6465776F6C6C61736964203B2020202020202020202034354546,
  0x4E4F4C4F43204C4C414D532020312E3120232020202020202020202041333030203B2064657070616D5F334454535F6465776F6C6C61736964203B2020202020202020202035354546,
  0x4B52414D204E4F495453455551204C4C414D532020312E3120232020202020202020202046333030203B2064657070616D5F334454535F6465776F6C6C61736964203B2020202020202020202036354546,
  0x4B52414D204E4F4954414D414C435845204C4C414D532020312E3120232020202020202020202031323030203B2064657070616D5F334454535F6465776F6C6C61736964203B2020202020202020202037354546,
  0x48534144204D45204C4C414D532020312E3120232020202020202020202034313032203B202020202020202020202020202020202064657070616D203B2020202020202020202038354546,
  0x5349534548544E45524150205446454C204C4C414D532020312E3120232020202020202020202038323030203B2064657070616D5F334454535F6465776F6C6C61736964203B2020202020202020202039354546,
  0x5349534548544E45524150205448474952204C4C414D532020312E3120232020202020202020202039323030203B2064657070616D5F334454535F6465776F6C6C61736964203B2020202020202020202041354546,
  0x54454B4341524220594C525543205446454C204C4C414D532020312E3120232020202020202020202042373030203B2064657070616D5F334454535F6465776F6C6C61736964203B2020202020202020202042354546,
  0x54454B4341524220594C525543205448474952204C4C414D532020312E3120232020202020202020202044373030203B2064657070616D5F334454535F6465776F6C6C61736964203B2020202020202020202043354546,
  0x54454B43415242204C4C454853204553494F54524F54205446454C204C4C414D532020312E3120232020202020202020202034313033203B202020202020202020202020202020202064657070616D203B2020202020202020202044354546,
  0x54454B43415242204C4C454853204553494F54524F54205448474952204C4C414D532020312E3120232020202020202020202035313033203B202020202020202020202020202020202064657070616D203B2020202020202020202045354546,
  0x4E474953205245424D554E204C4C414D532020312E3120232020202020202020202033323030203B2064657070616D5F334454535F6465776F6C6C61736964203B2020202020202020202046354546,
  0x444E41535245504D41204C4C414D532020312E3120232020202020202020202036323030203B2064657070616D5F334454535F6465776F6C6C61736964203B2020202020202020202030364546,
  0x4B53495245545341204C4C414D532020312E3120232020202020202020202041323030203B2064657070616D5F334454535F6465776F6C6C61736964203B2020202020202020202031364546,
  0x4E4749532053554C50204C4C414D532020312E3120232020202020202020202042323030203B2064657070616D5F334454535F6465776F6C6C61736964203B2020202020202020202032364546,
  0x53554E494D2D4E4548505948204C4C414D532020312E3120232020202020202020202044323030203B202020202020202020202020202020202064657070616D203B2020202020202020202033364546,
  0x4E474953204E4148542D5353454C204C4C414D532020312E3120232020202020202020202043333030203B2064657070616D5F334454535F6465776F6C6C61736964203B2020202020202020202034364546,
  0x4E474953204E4148542D52455441455247204C4C414D532020312E3120232020202020202020202045333030203B2064657070616D5F334454535F6465776F6C6C61736964203B2020202020202020202035364546,
  0x4E47495320534C41555145204C4C414D532020312E3120232020202020202020202044333030203B2064657070616D5F334454535F6465776F6C6C61736964203B2020202020202020202036364546,
  0x3E373645462D64657672657365723C202020414E202320202020202020202020202020202020202020202020202020202020206465776F6C6C61736964203B2020202020202020202037364546,
  0x535544494C4F532045535245564552204C4C414D532020312E3120232020202020202020202043353030203B2064657070616D5F334454535F6465776F6C6C61736964203B2020202020202020202038364546,
  0x4E4749532052414C4C4F44204C4C414D532020312E3120232020202020202020202034323030203B2064657070616D5F334454535F6465776F6C6C61736964203B2020202020202020202039364546,
  0x4E47495320544E4543524550204C4C414D532020312E3120232020202020202020202035323030203B2064657070616D5F334454535F6465776F6C6C61736964203B2020202020202020202041364546,
  0x5441204C41494352454D4D4F43204C4C414D532020312E3120232020202020202020202030343030203B2064657070616D5F334454535F6465776F6C6C61736964203B2020202020202020202042364546,
  0x3E463645462D64657672657365723C2E2E3E433645462D64657672657365723C202020414E202320202020202020202020202020202020202020202020202020202020206465776F6C6C61736964203B20202020463645462E2E43364546,
  0x4D524F4620444554414C4F5349204E41544148544146204349424152412020312E3120232020202020423436302030323030203B2064657070616D5F334454535F6465776F6C6C61736964203B2020202020202020202030374546,
  0x45564F4241204E415441485441462048544957204C454557544154204349424152412020312E3120232020202020423436302030343630203B202020202020202020202020202020202064657070616D203B2020202020202020202031374546,
  0x4D524F4620444554414C4F5349204E4154414D4D4144204349424152412020312E3120232020202020433436302030323030203B2064657070616D5F334454535F6465776F6C6C61736964203B2020202020202020202032374546,
  0x544E454D47415246204C494154204349424152412020322E3320232020202020202020202020202020202020202020202020202020202020202020202064696C6176203B2020202020202020202033374546,
  0x4D524F4620444554414C4F5349204E4154415253414B204349424152412020312E3120232020202020443436302030323030203B2064657070616D5F334454535F6465776F6C6C61736964203B2020202020202020202034374546,
  0x3E353745462D64657672657365723C202020414E202320202020202020202020202020202020202020202020202020202020206465776F6C6C61736964203B2020202020202020202035374546,
  0x4D524F4620444554414C4F5349204148544146204349424152412020312E3120232020202020453436302030323030203B2064657070616D5F334454535F6465776F6C6C61736964203B2020202020202020202036374546,
  0x4D524F46204C414944454D204148544146204349424152412020312E3120232020202020453436302030343630203B202020202020202020202020202020202064657070616D203B2020202020202020202037374546,
  0x4D524F4620444554414C4F534920414D4D4144204349424152412020312E3120232020202020463436302030323030203B2064657070616D5F334454535F6465776F6C6C61736964203B2020202020202020202038374546,
  0x4D524F46204C414944454D20414D4D4144204349424152412020312E3120232020202020463436302030343630203B202020202020202020202020202020202064657070616D203B2020202020202020202039374546,
  0x4D524F4620444554414C4F534920415253414B204349424152412020312E3120232020202020303536302030323030203B2064657070616D5F334454535F6465776F6C6C61736964203B2020202020202020202041374546,
  0x4D524F46204C414944454D20415253414B204349424152412020312E3120232020202020303536302030343630203B202020202020202020202020202020202064657070616D203B2020202020202020202042374546,
  0x4D524F4620444554414C4F534920414444414853204349424152412020312E3120232020202020313536302030323030203B2064657070616D5F334454535F6465776F6C6C61736964203B2020202020202020202043374546,
  0x4D524F46204C414944454D20414444414853204349424152412020312E3120232020202020313536302030343630203B202020202020202020202020202020202064657070616D203B2020202020202020202044374546,
  0x4D524F4620444554414C4F5349204E554B5553204349424152412020312E3120232020202020323536302030323030203B2064657070616D5F334454535F6465776F6C6C61736964203B2020202020202020202045374546,
  0x4D524F46204C414944454D204E554B5553204349424152412020312E3120232020202020323536302030343630203B202020202020202020202020202020202064657070616D203B2020202020202020202046374546,
  0x4D524F4620444554414C4F534920415A4D41482052455454454C204349424152412020312E3120232020202020202020202031323630203B202020202020202020202020202020202064657070616D203B2020202020202020202030384546,
  0x4D524F46204C414E49462045564F424120414444414D20485449572046454C412052455454454C204349424152412E2E4D524F4620444554414C4F53492045564F424120414444414D20485449572046454C412052455454454C204349424152412020312E3120232020202020202020202032323630203B202020202020202020202020202020202064657070616D203B20202020323845462E2E31384546,
  0x4D524F46204C414E49462045564F424120415A4D414820485449572046454C412052455454454C204349424152412E2E4D524F4620444554414C4F53492045564F424120415A4D414820485449572046454C412052455454454C204349424152412020312E3120232020202020202020202033323630203B202020202020202020202020202020202064657070616D203B20202020343845462E2E33384546,
  0x4D524F46204C414E49462045564F424120415A4D41482048544957205741572052455454454C204349424152412E2E4D524F4620444554414C4F53492045564F424120415A4D41482048544957205741572052455454454C204349424152412020312E3120232020202020202020202034323630203B202020202020202020202020202020202064657070616D203B20202020363845462E2E35384546,
  0x4D524F46204C414E494620574F4C454220415A4D414820485449572046454C412052455454454C204349424152412E2E4D524F4620444554414C4F534920574F4C454220415A4D414820485449572046454C412052455454454C204349424152412020312E3120232020202020202020202035323630203B202020202020202020202020202020202064657070616D203B20202020383845462E2E37384546,
  0x4D524F46204C414944454D2045564F424120415A4D41482048544957204845592052455454454C204349424152412E2E4D524F4620444554414C4F53492045564F424120415A4D41482048544957204845592052455454454C204349424152412020312E3120232020202020202020202036323630203B202020202020202020202020202020202064657070616D203B20202020433845462E2E39384546,
  0x4D524F46204C414E49462046454C412052455454454C204349424152412E2E4D524F4620444554414C4F53492046454C412052455454454C204349424152412020312E3120232020202020202020202037323630203B202020202020202020202020202020202064657070616D203B20202020453845462E2E44384546,
  0x4D524F46204C414944454D204845422052455454454C204349424152412E2E4D524F4620444554414C4F5349204845422052455454454C204349424152412020312E3120232020202020202020202038323630203B202020202020202020202020202020202064657070616D203B20202020323945462E2E46384546,
  0x4D524F46204C414E4946204154554252414D204845542052455454454C204349424152412E2E4D524F4620444554414C4F5349204154554252414D204845542052455454454C204349424152412020312E3120232020202020202020202039323630203B202020202020202020202020202020202064657070616D203B20202020343945462E2E33394546,
  0x4D524F46204C414944454D204845542052455454454C204349424152412E2E4D524F4620444554414C4F5349204845542052455454454C204349424152412020312E3120232020202020202020202041323630203B202020202020202020202020202020202064657070616D203B20202020383945462E2E35394546,
  0x4D524F46204C414944454D20484548542052455454454C204349424152412E2E4D524F4620444554414C4F534920484548542052455454454C204349424152412020312E3120232020202020202020202042323630203B202020202020202020202020202020202064657070616D203B20202020433945462E2E39394546,
  0x4D524F46204C414944454D204D45454A2052455454454C204349424152412E2E4D524F4620444554414C4F5349204D45454A2052455454454C204349424152412020312E3120232020202020202020202043323630203B202020202020202020202020202020202064657070616D203B20202020304145462E2E44394546,
  0x4D524F46204C414944454D204841482052455454454C204349424152412E2E4D524F4620444554414C4F5349204841482052455454454C204349424152412020312E3120232020202020202020202044323630203B202020202020202020202020202020202064657070616D203B20202020344145462E2E31414546,
  0x4D524F46204C414944454D204841484B2052455454454C204349424152412E2E4D524F4620444554414C4F5349204841484B2052455454454C204349424152412020312E3120232020202020202020202045323630203B202020202020202020202020202020202064657070616D203B20202020384145462E2E35414546,
  0x4D524F46204C414E4946204C41442052455454454C204349424152412E2E4D524F4620444554414C4F5349204C41442052455454454C204349424152412020312E3120232020202020202020202046323630203B202020202020202020202020202020202064657070616D203B20202020414145462E2E39414546,
  0x4D524F46204C414E4946204C4148542052455454454C204349424152412E2E4D524F4620444554414C4F5349204C4148542052455454454C204349424152412020312E3120232020202020202020202030333630203B202020202020202020202020202020202064657070616D203B20202020434145462E2E42414546,
  0x4D524F46204C414E4946204845522052455454454C204349424152412E2E4D524F4620444554414C4F5349204845522052455454454C204349424152412020312E3120232020202020202020202031333630203B202020202020202020202020202020202064657070616D203B20202020454145462E2E44414546,
  0x4D524F46204C414E4946204E49415A2052455454454C204349424152412E2E4D524F4620444554414C4F5349204E49415A2052455454454C204349424152412020312E3120232020202020202020202032333630203B202020202020202020202020202020202064657070616D203B20202020304245462E2E46414546,
  0x4D524F46204C414944454D204E4545532052455454454C204349424152412E2E4D524F4620444554414C4F5349204E4545532052455454454C204349424152412020312E3120232020202020202020202033333630203B202020202020202020202020202020202064657070616D203B20202020344245462E2E31424546,
  0x4D524F46204C414944454D204E454548532052455454454C204349424152412E2E4D524F4620444554414C4F5349204E454548532052455454454C204349424152412020312E3120232020202020202020202034333630203B202020202020202020202020202020202064657070616D203B20202020384245462E2E35424546,
  0x4D524F46204C414944454D204441532052455454454C204349424152412E2E4D524F4620444554414C4F5349204441532052455454454C204349424152412020312E3120232020202020202020202035333630203B202020202020202020202020202020202064657070616D203B20202020434245462E2E39424546]

def mapText22 : List Nat := [
  0x4D524F46204C414944454D204441442052455454454C204349424152412E2E4D524F4620444554414C4F5349204441442052455454454C204349424152412020312E3120232020202020202020202036333630203B202020202020202020202020202020202064657070616D203B20202020304345462E2E44424546,
  0x4D524F46204C414944454D204841542052455454454C204349424152412E2E4D524F4620444554414C4F5349204841542052455454454C204349424152412020312E3120232020202020202020202037333630203B202020202020202020202020202020202064657070616D203B20202020344345462E2E31434546,
  0x4D524F46204C414944454D2048415A2052455454454C204349424152412E2E4D524F4620444554414C4F53492048415A2052455454454C204349424152412020312E3120232020202020202020202038333630203B202020202020202020202020202020202064657070616D203B20202020384345462E2E35434546,
  0x4D524F46204C414944454D204E49412052455454454C204349424152412E2E4D524F4620444554414C4F5349204E49412052455454454C204349424152412020312E3120232020202020202020202039333630203B202020202020202020202020202020202064657070616D203B20202020434345462E2E39434546,
  0x4D524F46204C414944454D204E494148472052455454454C204349424152412E2E4D524F4620444554414C4F5349204E494148472052455454454C204349424152412020312E3120232020202020202020202041333630203B202020202020202020202020202020202064657070616D203B20202020304445462E2E44434546,
  0x4D524F46204C414944454D204845462052455454454C204349424152412E2E4D524F4620444554414C4F5349204845462052455454454C204349424152412020312E3120232020202020202020202031343630203B202020202020202020202020202020202064657070616D203B20202020344445462E2E31444546,
  0x4D524F46204C414944454D204641512052455454454C204349424152412E2E4D524F4620444554414C4F5349204641512052455454454C204349424152412020312E3120232020202020202020202032343630203B202020202020202020202020202020202064657070616D203B20202020384445462E2E35444546,
  0x4D524F46204C414944454D2046414B2052455454454C204349424152412E2E4D524F4620444554414C4F53492046414B2052455454454C204349424152412020312E3120232020202020202020202033343630203B202020202020202020202020202020202064657070616D203B20202020434445462E2E39444546,
  0x4D524F46204C414944454D204D414C2052455454454C204349424152412E2E4D524F4620444554414C4F5349204D414C2052455454454C204349424152412020312E3120232020202020202020202034343630203B202020202020202020202020202020202064657070616D203B20202020304545462E2E44444546,
  0x4D524F46204C414944454D204D45454D2052455454454C204349424152412E2E4D524F4620444554414C4F5349204D45454D2052455454454C204349424152412020312E3120232020202020202020202035343630203B202020202020202020202020202020202064657070616D203B20202020344545462E2E31454546,
  0x4D524F46204C414944454D204E4F4F4E2052455454454C204349424152412E2E4D524F4620444554414C4F5349204E4F4F4E2052455454454C204349424152412020312E3120232020202020202020202036343630203B202020202020202020202020202020202064657070616D203B20202020384545462E2E35454546,
  0x4D524F46204C414944454D204845482052455454454C204349424152412E2E4D524F4620444554414C4F5349204845482052455454454C204349424152412020312E3120232020202020202020202037343630203B202020202020202020202020202020202064657070616D203B20202020434545462E2E39454546,
  0x4D524F46204C414E4946205741572052455454454C204349424152412E2E4D524F4620444554414C4F5349205741572052455454454C204349424152412020312E3120232020202020202020202038343630203B202020202020202020202020202020202064657070616D203B20202020454545462E2E44454546,
  0x4D524F46204C414E494620415255534B414D2046454C412052455454454C204349424152412E2E4D524F4620444554414C4F534920415255534B414D2046454C412052455454454C204349424152412020312E3120232020202020202020202039343630203B202020202020202020202020202020202064657070616D203B20202020304645462E2E46454546,
  0x4D524F46204C414944454D204845592052455454454C204349424152412E2E4D524F4620444554414C4F5349204845592052455454454C204349424152412020312E3120232020202020202020202041343630203B202020202020202020202020202020202064657070616D203B20202020344645462E2E31464546,
  0x4D524F46204C414E49462045564F424120414444414D20485449572046454C412048544957204D414C20455255544147494C204349424152412E2E4D524F4620444554414C4F53492045564F424120414444414D20485449572046454C412048544957204D414C20455255544147494C204349424152412020312E3120232020202020323236302034343630203B202020202020202020202020202020202064657070616D203B20202020364645462E2E35464546,
  0x4D524F46204C414E49462045564F424120415A4D414820485449572046454C412048544957204D414C20455255544147494C204349424152412E2E4D524F4620444554414C4F53492045564F424120415A4D414820485449572046454C412048544957204D414C20455255544147494C204349424152412020312E3120232020202020333236302034343630203B202020202020202020202020202020202064657070616D203B20202020384645462E2E37464546,
  0x4D524F46204C414E494620574F4C454220415A4D414820485449572046454C412048544957204D414C20455255544147494C204349424152412E2E4D524F4620444554414C4F534920574F4C454220415A4D414820485449572046454C412048544957204D414C20455255544147494C204349424152412020312E3120232020202020353236302034343630203B202020202020202020202020202020202064657070616D203B20202020414645462E2E39464546,
  0x4D524F46204C414E49462046454C412048544957204D414C20455255544147494C204349424152412E2E4D524F4620444554414C4F53492046454C412048544957204D414C20455255544147494C204349424152412020312E3120232020202020373236302034343630203B202020202020202020202020202020202064657070616D203B20202020434645462E2E42464546,
  0x3E454645462D64657672657365723C2E2E3E444645462D64657672657365723C202020414E202320202020202020202020202020202020202020202020202020202020206465776F6C6C61736964203B20202020454645462E2E44464546,
  0x4543415053204B414552422D4F4E204854444957204F52455A2020312E31202320202020202020202020202020202020202020202020202020202020202020206465726F6E6769203B2020202020202020202046464546,
  0x3E303046462D64657672657365723C202020414E202320202020202020202020202020202020202020202020202020202020206465776F6C6C61736964203B2020202020202020202030304646,
  0x4B52414D204E4F4954414D414C4358452048544449574C4C55462020312E3120232020202020202020202031323030203B2064657070616D5F334454535F6465776F6C6C61736964203B2020202020202020202031304646,
  0x4B52414D204E4F495441544F55512048544449574C4C55462020312E3120232020202020202020202032323030203B2064657070616D5F334454535F6465776F6C6C61736964203B2020202020202020202032304646,
  0x4E474953205245424D554E2048544449574C4C55462020312E3120232020202020202020202033323030203B2064657070616D5F334454535F6465776F6C6C61736964203B2020202020202020202033304646,
  0x4E4749532052414C4C4F442048544449574C4C55462020312E3120232020202020202020202034323030203B2064657070616D5F334454535F6465776F6C6C61736964203B2020202020202020202034304646,
  0x4E47495320544E45435245502048544449574C4C55462020312E3120232020202020202020202035323030203B2064657070616D5F334454535F6465776F6C6C61736964203B2020202020202020202035304646,
  0x444E41535245504D412048544449574C4C55462020312E3120232020202020202020202036323030203B2064657070616D5F334454535F6465776F6C6C61736964203B2020202020202020202036304646,
  0x4548504F5254534F50412048544449574C4C55462020312E3120232020202020202020202037323030203B2064657070616D5F334454535F6465776F6C6C61736964203B2020202020202020202037304646,
  0x5349534548544E45524150205446454C2048544449574C4C55462020312E3120232020202020202020202038323030203B2064657070616D5F334454535F6465776F6C6C61736964203B2020202020202020202038304646,
  0x5349534548544E455241502054484749522048544449574C4C55462020312E3120232020202020202020202039323030203B2064657070616D5F334454535F6465776F6C6C61736964203B2020202020202020202039304646,
  0x4B534952455453412048544449574C4C55462020312E3120232020202020202020202041323030203B2064657070616D5F334454535F6465776F6C6C61736964203B2020202020202020202041304646,
  0x4E4749532053554C502048544449574C4C55462020312E3120232020202020202020202042323030203B2064657070616D5F334454535F6465776F6C6C61736964203B2020202020202020202042304646,
  0x414D4D4F432048544449574C4C55462020312E3120232020202020202020202043323030203B2064657070616D5F334454535F6465776F6C6C61736964203B2020202020202020202043304646,
  0x53554E494D2D4E45485059482048544449574C4C55462020312E3120232020202020202020202044323030203B202020202020202020202020202020202064657070616D203B2020202020202020202044304646,
  0x504F5453204C4C55462048544449574C4C55462020312E3120232020202020202020202045323030203B202020202020202020202020202020202064657070616D203B2020202020202020202045304646,
  0x535544494C4F532048544449574C4C55462020312E3120232020202020202020202046323030203B2064657070616D5F334454535F6465776F6C6C61736964203B2020202020202020202046304646,
  0x4F52455A2054494749442048544449574C4C55462020312E3120232020202020202020202030333030203B202020202020202020202020202020202064657070616D203B2020202020202020202030314646,
  0x454E4F2054494749442048544449574C4C55462020312E3120232020202020202020202031333030203B202020202020202020202020202020202064657070616D203B2020202020202020202031314646,
  0x4F57542054494749442048544449574C4C55462020312E3120232020202020202020202032333030203B202020202020202020202020202020202064657070616D203B2020202020202020202032314646,
  0x45455248542054494749442048544449574C4C55462020312E3120232020202020202020202033333030203B202020202020202020202020202020202064657070616D203B2020202020202020202033314646,
  0x52554F462054494749442048544449574C4C55462020312E3120232020202020202020202034333030203B202020202020202020202020202020202064657070616D203B2020202020202020202034314646,
  0x455649462054494749442048544449574C4C55462020312E3120232020202020202020202035333030203B202020202020202020202020202020202064657070616D203B2020202020202020202035314646,
  0x5849532054494749442048544449574C4C55462020312E3120232020202020202020202036333030203B202020202020202020202020202020202064657070616D203B2020202020202020202036314646,
  0x4E455645532054494749442048544449574C4C55462020312E3120232020202020202020202037333030203B202020202020202020202020202020202064657070616D203B2020202020202020202037314646,
  0x54484749452054494749442048544449574C4C55462020312E3120232020202020202020202038333030203B202020202020202020202020202020202064657070616D203B2020202020202020202038314646,
  0x454E494E2054494749442048544449574C4C55462020312E3120232020202020202020202039333030203B202020202020202020202020202020202064657070616D203B2020202020202020202039314646,
  0x4E4F4C4F432048544449574C4C55462020312E3120232020202020202020202041333030203B2064657070616D5F334454535F6465776F6C6C61736964203B2020202020202020202041314646,
  0x4E4F4C4F43494D45532048544449574C4C55462020312E3120232020202020202020202042333030203B2064657070616D5F334454535F6465776F6C6C61736964203B2020202020202020202042314646,
  0x4E474953204E4148542D5353454C2048544449574C4C55462020312E3120232020202020202020202043333030203B2064657070616D5F334454535F6465776F6C6C61736964203B2020202020202020202043314646,
  0x4E47495320534C415551452048544449574C4C55462020312E3120232020202020202020202044333030203B2064657070616D5F334454535F6465776F6C6C61736964203B2020202020202020202044314646,
  0x4E474953204E4148542D524554414552472048544449574C4C55462020312E3120232020202020202020202045333030203B2064657070616D5F334454535F6465776F6C6C61736964203B2020202020202020202045314646,
  0x4B52414D204E4F4954534555512048544449574C4C55462020312E3120232020202020202020202046333030203B2064657070616D5F334454535F6465776F6C6C61736964203B2020202020202020202046314646,
  0x5441204C41494352454D4D4F432048544449574C4C55462020312E3120232020202020202020202030343030203B2064657070616D5F334454535F6465776F6C6C61736964203B2020202020202020202030324646,
  0x412052455454454C204C415449504143204E4954414C2048544449574C4C55462020312E3120232020202020202020202031363030203B202020202020202020202020202020202064657070616D203B2020202020202020202031324646,
  0x422052455454454C204C415449504143204E4954414C2048544449574C4C55462020312E3120232020202020202020202032363030203B202020202020202020202020202020202064657070616D203B2020202020202020202032324646,
  0x432052455454454C204C415449504143204E4954414C2048544449574C4C55462020312E3120232020202020202020202033363030203B202020202020202020202020202020202064657070616D203B2020202020202020202033324646,
  0x442052455454454C204C415449504143204E4954414C2048544449574C4C55462020312E3120232020202020202020202034363030203B202020202020202020202020202020202064657070616D203B2020202020202020202034324646,
  0x452052455454454C204C415449504143204E4954414C2048544449574C4C55462020312E3120232020202020202020202035363030203B202020202020202020202020202020202064657070616D203B2020202020202020202035324646,
  0x462052455454454C204C415449504143204E4954414C2048544449574C4C55462020312E3120232020202020202020202036363030203B202020202020202020202020202020202064657070616D203B2020202020202020202036324646,
  0x472052455454454C204C415449504143204E4954414C2048544449574C4C55462020312E3120232020202020202020202037363030203B202020202020202020202020202020202064657070616D203B2020202020202020202037324646,
  0x482052455454454C204C415449504143204E4954414C2048544449574C4C55462020312E3120232020202020202020202038363030203B202020202020202020202020202020202064657070616D203B2020202020202020202038324646,
  0x492052455454454C204C415449504143204E4954414C2048544449574C4C55462020312E3120232020202020202020202039363030203B202020202020202020202020202020202064657070616D203B2020202020202020202039324646,
  0x4A2052455454454C204C415449504143204E4954414C2048544449574C4C55462020312E3120232020202020202020202041363030203B202020202020202020202020202020202064657070616D203B2020202020202020202041324646,
  0x4B2052455454454C204C415449504143204E4954414C2048544449574C4C55462020312E3120232020202020202020202042363030203B202020202020202020202020202020202064657070616D203B2020202020202020202042324646,
  0x4C2052455454454C204C415449504143204E4954414C2048544449574C4C55462020312E3120232020202020202020202043363030203B202020202020202020202020202020202064657070616D203B2020202020202020202043324646,
  0x4D2052455454454C204C415449504143204E4954414C2048544449574C4C55462020312E3120232020202020202020202044363030203B202020202020202020202020202020202064657070616D203B2020202020202020202044324646,
  0x4E2052455454454C204C415449504143204E4954414C2048544449574C4C55462020312E3120232020202020202020202045363030203B202020202020202020202020202020202064657070616D203B2020202020202020202045324646,
  0x4F2052455454454C204C415449504143204E4954414C2048544449574C4C55462020312E3120232020202020202020202046363030203B202020202020202020202020202020202064657070616D203B2020202020202020202046324646,
  0x502052455454454C204C415449504143204E4954414C2048544449574C4C55462020312E3120232020202020202020202030373030203B202020202020202020202020202020202064657070616D203B2020202020202020202030334646,
  0x512052455454454C204C415449504143204E4954414C2048544449574C4C55462020312E3120232020202020202020202031373030203B202020202020202020202020202020202064657070616D203B2020202020202020202031334646,
  0x522052455454454C204C415449504143204E4954414C2048544449574C4C55462020312E3120232020202020202020202032373030203B202020202020202020202020202020202064657070616D203B2020202020202020202032334646,
  0x532052455454454C204C415449504143204E4954414C2048544449574C4C55462020312E3120232020202020202020202033373030203B202020202020202020202020202020202064657070616D203B2020202020202020202033334646,
  0x542052455454454C204C415449504143204E4954414C2048544449574C4C55462020312E3120232020202020202020202034373030203B202020202020202020202020202020202064657070616D203B2020202020202020202034334646,
  0x552052455454454C204C415449504143204E4954414C2048544449574C4C55462020312E3120232020202020202020202035373030203B202020202020202020202020202020202064657070616D203B2020202020202020202035334646,
  0x562052455454454C204C415449504143204E4954414C2048544449574C4C55462020312E3120232020202020202020202036373030203B202020202020202020202020202020202064657070616D203B2020202020202020202036334646,
  0x572052455454454C204C415449504143204E4954414C2048544449574C4C55462020312E3120232020202020202020202037373030203B202020202020202020202020202020202064657070616D203B2020202020202020202037334646,
  0x582052455454454C204C415449504143204E4954414C2048544449574C4C55462020312E3120232020202020202020202038373030203B202020202020202020202020202020202064657070616D203B2020202020202020202038334646,
  0x592052455454454C204C415449504143204E4954414C2048544449574C4C55462020312E3120232020202020202020202039373030203B202020202020202020202020202020202064657070616D203B2020202020202020202039334646,
  0x5A2052455454454C204C415449504143204E4954414C2048544449574C4C55462020312E3120232020202020202020202041373030203B202020202020202020202020202020202064657070616D203B2020202020202020202041334646,
  0x54454B4341524220455241555153205446454C2048544449574C4C55462020312E3120232020202020202020202042353030203B2064657070616D5F334454535F6465776F6C6C61736964203B2020202020202020202042334646,
  0x535544494C4F5320455352455645522048544449574C4C55462020312E3120232020202020202020202043353030203B2064657070616D5F334454535F6465776F6C6C61736964203B2020202020202020202043334646,
  0x54454B43415242204552415551532054484749522048544449574C4C55462020312E3120232020202020202020202044353030203B2064657070616D5F334454535F6465776F6C6C61736964203B2020202020202020202044334646,
  0x544E454343412058454C464D55435249432048544449574C4C55462020312E3120232020202020202020202045353030203B2064657070616D5F334454535F6465776F6C6C61736964203B2020202020202020202045334646,
  0x454E494C20574F4C2048544449574C4C55462020312E3120232020202020202020202046353030203B2064657070616D5F334454535F6465776F6C6C61736964203B2020202020202020202046334646,
  0x544E454343412045564152472048544449574C4C55462020312E3120232020202020202020202030363030203B2064657070616D5F334454535F6465776F6C6C61736964203B2020202020202020202030344646,
  0x412052455454454C204C4C414D53204E4954414C2048544449574C4C55462020312E3120232020202020202020202031363030203B202020202020202020202020202020202064657070616D203B2020202020202020202031344646,
  0x422052455454454C204C4C414D53204E4954414C2048544449574C4C55462020312E3120232020202020202020202032363030203B202020202020202020202020202020202064657070616D203B2020202020202020202032344646,
  0x432052455454454C204C4C414D53204E4954414C2048544449574C4C55462020312E3120232020202020202020202033363030203B202020202020202020202020202020202064657070616D203B2020202020202020202033344646,
  0x442052455454454C204C4C414D53204E4954414C2048544449574C4C55462020312E3120232020202020202020202034363030203B202020202020202020202020202020202064657070616D203B2020202020202020202034344646,
  0x452052455454454C204C4C414D53204E4954414C2048544449574C4C55462020312E3120232020202020202020202035363030203B202020202020202020202020202020202064657070616D203B2020202020202020202035344646,
  0x462052455454454C204C4C414D53204E4954414C2048544449574C4C55462020312E3120232020202020202020202036363030203B202020202020202020202020202020202064657070616D203B2020202020202020202036344646,
  0x472052455454454C204C4C414D53204E4954414C2048544449574C4C55462020312E3120232020202020202020202037363030203B202020202020202020202020202020202064657070616D203B2020202020202020202037344646,
  0x482052455454454C204C4C414D53204E4954414C2048544449574C4C55462020312E3120232020202020202020202038363030203B202020202020202020202020202020202064657070616D203B2020202020202020202038344646,
  0x492052455454454C204C4C414D53204E4954414C2048544449574C4C55462020312E3120232020202020202020202039363030203B202020202020202020202020202020202064657070616D203B2020202020202020202039344646,
  0x4A2052455454454C204C4C414D53204E4954414C2048544449574C4C55462020312E3120232020202020202020202041363030203B202020202020202020202020202020202064657070616D203B2020202020202020202041344646,
  0x4B2052455454454C204C4C414D53204E4954414C2048544449574C4C55462020312E3120232020202020202020202042363030203B202020202020202020202020202020202064657070616D203B2020202020202020202042344646,
  0x4C2052455454454C204C4C414D53204E4954414C2048544449574C4C55462020312E3120232020202020202020202043363030203B202020202020202020202020202020202064657070616D203B2020202020202020202043344646,
  0x4D2052455454454C204C4C414D53204E4954414C2048544449574C4C55462020312E3120232020202020202020202044363030203B202020202020202020202020202020202064657070616D203B2020202020202020202044344646,
  0x4E2052455454454C204C4C414D53204E4954414C2048544449574C4C55462020312E3120232020202020202020202045363030203B202020202020202020202020202020202064657070616D203B2020202020202020202045344646,
  0x4F2052455454454C204C4C414D53204E4954414C2048544449574C4C55462020312E3120232020202020202020202046363030203B202020202020202020202020202020202064657070616D203B2020202020202020202046344646,
  0x502052455454454C204C4C414D53204E4954414C2048544449574C4C55462020312E3120232020202020202020202030373030203B202020202020202020202020202020202064657070616D203B2020202020202020202030354646,
  0x512052455454454C204C4C414D53204E4954414C2048544449574C4C55462020312E3120232020202020202020202031373030203B202020202020202020202020202020202064657070616D203B2020202020202020202031354646,
  0x522052455454454C204C4C414D53204E4954414C2048544449574C4C55462020312E3120232020202020202020202032373030203B202020202020202020202020202020202064657070616D203B2020202020202020202032354646,
  0x532052455454454C204C4C414D53204E4954414C2048544449574C4C55462020312E3120232020202020202020202033373030203B202020202020202020202020202020202064657070616D203B2020202020202020202033354646,
  0x542052455454454C204C4C414D53204E4954414C2048544449574C4C55462020312E3120232020202020202020202034373030203B202020202020202020202020202020202064657070616D203B2020202020202020202034354646,
  0x552052455454454C204C4C414D53204E4954414C2048544449574C4C55462020312E3120232020202020202020202035373030203B202020202020202020202020202020202064657070616D203B2020202020202020202035354646,
  0x562052455454454C204C4C414D53204E4954414C2048544449574C4C55462020312E3120232020202020202020202036373030203B202020202020202020202020202020202064657070616D203B2020202020202020202036354646,
  0x572052455454454C204C4C414D53204E4954414C2048544449574C4C55462020312E3120232020202020202020202037373030203B202020202020202020202020202020202064657070616D203B2020202020202020202037354646,
  0x582052455454454C204C4C414D53204E4954414C2048544449574C4C55462020312E3120232020202020202020202038373030203B202020202020202020202020202020202064657070616D203B2020202020202020202038354646,
  0x592052455454454C204C4C414D53204E4954414C2048544449574C4C55462020312E3120232020202020202020202039373030203B202020202020202020202020202020202064657070616D203B2020202020202020202039354646,
  0x5A2052455454454C204C4C414D53204E4954414C2048544449574C4C55462020312E3120232020202020202020202041373030203B202020202020202020202020202020202064657070616D203B2020202020202020202041354646,
  0x54454B4341524220594C525543205446454C2048544449574C4C55462020312E3120232020202020202020202042373030203B2064657070616D5F334454535F6465776F6C6C61736964203B2020202020202020202042354646,
  0x454E494C204C414349545245562048544449574C4C55462020312E3120232020202020202020202043373030203B2064657070616D5F334454535F6465776F6C6C61736964203B2020202020202020202043354646,
  0x54454B4341524220594C5255432054484749522048544449574C4C55462020312E3120232020202020202020202044373030203B2064657070616D5F334454535F6465776F6C6C61736964203B2020202020202020202044354646,
  0x45444C49542048544449574C4C55462020312E3120232020202020202020202045373030203B2064657070616D5F334454535F6465776F6C6C61736964203B2020202020202020202045354646,
  0x5349534548544E45524150204554494857205446454C2048544449574C4C55462020322E3320232020202020202020202035383932203B202020202020202020202020202020202064657070616D203B2020202020202020202046354646,
  0x5349534548544E455241502045544948572054484749522048544449574C4C55462020322E3320232020202020202020202036383932203B202020202020202020202020202020202064657070616D203B2020202020202020202030364646,
  0x504F5453204C4C554620434948504152474F454449204854444957464C41482020312E3120232020202020202020202045323030203B202020202020202020202020202020202064657070616D203B2020202020202020202031364646,
  0x54454B434152422052454E524F43205446454C204854444957464C41482020312E3120232020202020202020202043303033203B202020202020202020202020202020202064657070616D203B2020202020202020202032364646,
  0x54454B434152422052454E524F43205448474952204854444957464C41482020312E3120232020202020202020202044303033203B202020202020202020202020202020202064657070616D203B2020202020202020202033364646,
  0x414D4D4F4320434948504152474F454449204854444957464C41482020312E3120232020202020202020202031303033203B202020202020202020202020202020202064657070616D203B2020202020202020202034364646,
  0x544F4420454C4444494D20414E414B4154414B204854444957464C41482020312E3120232020202020202020202042463033203B202020202020202020202020202020202064657070616D203B2020202020202020202035364646,
  0x4F572052455454454C20414E414B4154414B204854444957464C41482020312E3120232020202020202020202032463033203B202020202020202020202020202020202064657070616D203B2020202020202020202036364646,
  0x41204C4C414D532052455454454C20414E414B4154414B204854444957464C41482020312E3120232020202020202020202031413033203B202020202020202020202020202020202064657070616D203B2020202020202020202037364646,
  0x49204C4C414D532052455454454C20414E414B4154414B204854444957464C41482020312E3120232020202020202020202033413033203B202020202020202020202020202020202064657070616D203B2020202020202020202038364646,
  0x55204C4C414D532052455454454C20414E414B4154414B204854444957464C41482020312E3120232020202020202020202035413033203B202020202020202020202020202020202064657070616D203B2020202020202020202039364646,
  0x45204C4C414D532052455454454C20414E414B4154414B204854444957464C41482020312E3120232020202020202020202037413033203B202020202020202020202020202020202064657070616D203B2020202020202020202041364646,
  0x4F204C4C414D532052455454454C20414E414B4154414B204854444957464C41482020312E3120232020202020202020202039413033203B202020202020202020202020202020202064657070616D203B2020202020202020202042364646,
  0x4159204C4C414D532052455454454C20414E414B4154414B204854444957464C41482020312E3120232020202020202020202033453033203B202020202020202020202020202020202064657070616D203B2020202020202020202043364646,
  0x5559204C4C414D532052455454454C20414E414B4154414B204854444957464C41482020312E3120232020202020202020202035453033203B202020202020202020202020202020202064657070616D203B2020202020202020202044364646,
  0x4F59204C4C414D532052455454454C20414E414B4154414B204854444957464C41482020312E3120232020202020202020202037453033203B202020202020202020202020202020202064657070616D203B2020202020202020202045364646,
  0x5554204C4C414D532052455454454C20414E414B4154414B204854444957464C41482020312E3120232020202020202020202033433033203B202020202020202020202020202020202064657070616D203B2020202020202020202046364646,
  0x4B52414D20444E554F53204445474E4F4C4F525020414E4147415249482D414E414B4154414B204854444957464C41482020312E3120232020202020202020202043463033203B202020202020202020202020202020202064657070616D203B2020202020202020202030374646,
  0x412052455454454C20414E414B4154414B204854444957464C41482020312E3120232020202020202020202032413033203B202020202020202020202020202020202064657070616D203B2020202020202020202031374646,
  0x492052455454454C20414E414B4154414B204854444957464C41482020312E3120232020202020202020202034413033203B202020202020202020202020202020202064657070616D203B2020202020202020202032374646,
  0x552052455454454C20414E414B4154414B204854444957464C41482020312E3120232020202020202020202036413033203B202020202020202020202020202020202064657070616D203B2020202020202020202033374646,
  0x452052455454454C20414E414B4154414B204854444957464C41482020312E3120232020202020202020202038413033203B202020202020202020202020202020202064657070616D203B2020202020202020202034374646,
  0x4F2052455454454C20414E414B4154414B204854444957464C41482020312E3120232020202020202020202041413033203B202020202020202020202020202020202064657070616D203B2020202020202020202035374646,
  0x414B2052455454454C20414E414B4154414B204854444957464C41482020312E3120232020202020202020202042413033203B202020202020202020202020202020202064657070616D203B2020202020202020202036374646,
  0x494B2052455454454C20414E414B4154414B204854444957464C41482020312E3120232020202020202020202044413033203B202020202020202020202020202020202064657070616D203B2020202020202020202037374646,
  0x554B2052455454454C20414E414B4154414B204854444957464C41482020312E3120232020202020202020202046413033203B202020202020202020202020202020202064657070616D203B2020202020202020202038374646,
  0x454B2052455454454C20414E414B4154414B204854444957464C41482020312E3120232020202020202020202031423033203B202020202020202020202020202020202064657070616D203B2020202020202020202039374646,
  0x4F4B2052455454454C20414E414B4154414B204854444957464C41482020312E3120232020202020202020202033423033203B202020202020202020202020202020202064657070616D203B2020202020202020202041374646,
  0x41532052455454454C20414E414B4154414B204854444957464C41482020312E3120232020202020202020202035423033203B202020202020202020202020202020202064657070616D203B2020202020202020202042374646,
  0x49532052455454454C20414E414B4154414B204854444957464C41482020312E3120232020202020202020202037423033203B202020202020202020202020202020202064657070616D203B2020202020202020202043374646,
  0x55532052455454454C20414E414B4154414B204854444957464C41482020312E3120232020202020202020202039423033203B202020202020202020202020202020202064657070616D203B2020202020202020202044374646,
  0x45532052455454454C20414E414B4154414B204854444957464C41482020312E3120232020202020202020202042423033203B202020202020202020202020202020202064657070616D203B2020202020202020202045374646,
  0x4F532052455454454C20414E414B4154414B204854444957464C41482020312E3120232020202020202020202044423033203B202020202020202020202020202020202064657070616D203B2020202020202020202046374646,
  0x41542052455454454C20414E414B4154414B204854444957464C41482020312E3120232020202020202020202046423033203B202020202020202020202020202020202064657070616D203B2020202020202020202030384646,
  0x49542052455454454C20414E414B4154414B204854444957464C41482020312E3120232020202020202020202031433033203B202020202020202020202020202020202064657070616D203B2020202020202020202031384646,
  0x55542052455454454C20414E414B4154414B204854444957464C41482020312E3120232020202020202020202034433033203B202020202020202020202020202020202064657070616D203B2020202020202020202032384646,
  0x45542052455454454C20414E414B4154414B204854444957464C41482020312E3120232020202020202020202036433033203B202020202020202020202020202020202064657070616D203B2020202020202020202033384646,
  0x4F542052455454454C20414E414B4154414B204854444957464C41482020312E3120232020202020202020202038433033203B202020202020202020202020202020202064657070616D203B2020202020202020202034384646,
  0x414E2052455454454C20414E414B4154414B204854444957464C41482020312E3120232020202020202020202041433033203B202020202020202020202020202020202064657070616D203B2020202020202020202035384646,
  0x494E2052455454454C20414E414B4154414B204854444957464C41482020312E3120232020202020202020202042433033203B202020202020202020202020202020202064657070616D203B2020202020202020202036384646,
  0x554E2052455454454C20414E414B4154414B204854444957464C41482020312E3120232020202020202020202043433033203B202020202020202020202020202020202064657070616D203B2020202020202020202037384646,
  0x454E2052455454454C20414E414B4154414B204854444957464C41482020312E3120232020202020202020202044433033203B202020202020202020202020202020202064657070616D203B2020202020202020202038384646,
  0x4F4E2052455454454C20414E414B4154414B204854444957464C41482020312E3120232020202020202020202045433033203B202020202020202020202020202020202064657070616D203B2020202020202020202039384646,
  0x41482052455454454C20414E414B4154414B204854444957464C41482020312E3120232020202020202020202046433033203B202020202020202020202020202020202064657070616D203B2020202020202020202041384646,
  0x49482052455454454C20414E414B4154414B204854444957464C41482020312E3120232020202020202020202032443033203B202020202020202020202020202020202064657070616D203B2020202020202020202042384646,
  0x55482052455454454C20414E414B4154414B204854444957464C41482020312E3120232020202020202020202035443033203B202020202020202020202020202020202064657070616D203B2020202020202020202043384646,
  0x45482052455454454C20414E414B4154414B204854444957464C41482020312E3120232020202020202020202038443033203B202020202020202020202020202020202064657070616D203B2020202020202020202044384646,
  0x4F482052455454454C20414E414B4154414B204854444957464C41482020312E3120232020202020202020202042443033203B202020202020202020202020202020202064657070616D203B2020202020202020202045384646,
  0x414D2052455454454C20414E414B4154414B204854444957464C41482020312E3120232020202020202020202045443033203B202020202020202020202020202020202064657070616D203B2020202020202020202046384646,
  0x494D2052455454454C20414E414B4154414B204854444957464C41482020312E3120232020202020202020202046443033203B202020202020202020202020202020202064657070616D203B2020202020202020202030394646,
  0x554D2052455454454C20414E414B4154414B204854444957464C41482020312E3120232020202020202020202030453033203B202020202020202020202020202020202064657070616D203B2020202020202020202031394646,
  0x454D2052455454454C20414E414B4154414B204854444957464C41482020312E3120232020202020202020202031453033203B202020202020202020202020202020202064657070616D203B2020202020202020202032394646,
  0x4F4D2052455454454C20414E414B4154414B204854444957464C41482020312E3120232020202020202020202032453033203B202020202020202020202020202020202064657070616D203B2020202020202020202033394646,
  0x41592052455454454C20414E414B4154414B204854444957464C41482020312E3120232020202020202020202034453033203B202020202020202020202020202020202064657070616D203B2020202020202020202034394646,
  0x55592052455454454C20414E414B4154414B204854444957464C41482020312E3120232020202020202020202036453033203B202020202020202020202020202020202064657070616D203B2020202020202020202035394646,
  0x4F592052455454454C20414E414B4154414B204854444957464C41482020312E3120232020202020202020202038453033203B202020202020202020202020202020202064657070616D203B2020202020202020202036394646,
  0x41522052455454454C20414E414B4154414B204854444957464C41482020312E3120232020202020202020202039453033203B202020202020202020202020202020202064657070616D203B2020202020202020202037394646,
  0x49522052455454454C20414E414B4154414B204854444957464C41482020312E3120232020202020202020202041453033203B202020202020202020202020202020202064657070616D203B2020202020202020202038394646,
  0x55522052455454454C20414E414B4154414B204854444957464C41482020312E3120232020202020202020202042453033203B202020202020202020202020202020202064657070616D203B2020202020202020202039394646,
  0x45522052455454454C20414E414B4154414B204854444957464C41482020312E3120232020202020202020202043453033203B202020202020202020202020202020202064657070616D203B2020202020202020202041394646,
  0x4F522052455454454C20414E414B4154414B204854444957464C41482020312E3120232020202020202020202044453033203B202020202020202020202020202020202064657070616D203B2020202020202020202042394646,
  0x41572052455454454C20414E414B4154414B204854444957464C41482020312E3120232020202020202020202046453033203B202020202020202020202020202020202064657070616D203B2020202020202020202043394646,
  0x4E2052455454454C20414E414B4154414B204854444957464C41482020312E3120232020202020202020202033463033203B202020202020202020202020202020202064657070616D203B2020202020202020202044394646,
  0x4B52414D20444E554F5320444543494F5620414E414B4154414B204854444957464C41482020312E3120232020202020202020202039393033203B202020202020202020202020202020202064657070616D203B2020202020202020202045394646,
  0x4B52414D20444E554F5320444543494F562D494D455320414E414B4154414B204854444957464C41482020312E3120232020202020202020202041393033203B202020202020202020202020202020202064657070616D203B2020202020202020202046394646,
  0x52454C4C4946204C55474E4148204854444957464C41482020312E31202320202020202020202020202020202020202020202020202020202020206465776F6C6C61736964203B2020202020202020202030414646,
  0x4B4F4559494B2052455454454C204C55474E4148204854444957464C41482020312E3120232020202020202020202030303131203B202020202020202020202020202020202064657070616D203B2020202020202020202031414646,
  0x4B4F4559494B474E4153532052455454454C204C55474E4148204854444957464C41482020312E3120232020202020202020202031303131203B202020202020202020202020202020202064657070616D203B2020202020202020202032414646,
  0x534F49532D4B4F4559494B2052455454454C204C55474E4148204854444957464C41482020312E3120232020202020202020202041413131203B202020202020202020202020202020202064657070616D203B2020202020202020202033414646,
  0x4E5545494E2052455454454C204C55474E4148204854444957464C41482020312E3120232020202020202020202032303131203B202020202020202020202020202020202064657070616D203B2020202020202020202034414646,
  0x43554549432D4E5545494E2052455454454C204C55474E4148204854444957464C41482020312E3120232020202020202020202043413131203B202020202020202020202020202020202064657070616D203B2020202020202020202035414646,
  0x48554549482D4E5545494E2052455454454C204C55474E4148204854444957464C41482020312E3120232020202020202020202044413131203B202020202020202020202020202020202064657070616D203B2020202020202020202036414646,
  0x5455454B49542052455454454C204C55474E4148204854444957464C41482020312E3120232020202020202020202033303131203B202020202020202020202020202020202064657070616D203B2020202020202020202037414646,
  0x5455454B4954474E4153532052455454454C204C55474E4148204854444957464C41482020312E3120232020202020202020202034303131203B202020202020202020202020202020202064657070616D203B2020202020202020202038414646,
  0x4C554549522052455454454C204C55474E4148204854444957464C41482020312E3120232020202020202020202035303131203B202020202020202020202020202020202064657070616D203B2020202020202020202039414646,
  0x4B4F4559494B2D4C554549522052455454454C204C55474E4148204854444957464C41482020312E3120232020202020202020202030423131203B202020202020202020202020202020202064657070616D203B2020202020202020202041414646,
  0x4D5545494D2D4C554549522052455454454C204C55474E4148204854444957464C41482020312E3120232020202020202020202031423131203B202020202020202020202020202020202064657070616D203B2020202020202020202042414646,
  0x50554549502D4C554549522052455454454C204C55474E4148204854444957464C41482020312E3120232020202020202020202032423131203B202020202020202020202020202020202064657070616D203B2020202020202020202043414646,
  0x534F49532D4C554549522052455454454C204C55474E4148204854444957464C41482020312E3120232020202020202020202033423131203B202020202020202020202020202020202064657070616D203B2020202020202020202044414646,
  0x485455454948542D4C554549522052455454454C204C55474E4148204854444957464C41482020312E3120232020202020202020202034423131203B202020202020202020202020202020202064657070616D203B2020202020202020202045414646,
  0x485055454948502D4C554549522052455454454C204C55474E4148204854444957464C41482020312E3120232020202020202020202035423131203B202020202020202020202020202020202064657070616D203B2020202020202020202046414646,
  0x48554549482D4C554549522052455454454C204C55474E4148204854444957464C41482020312E3120232020202020202020202041313131203B202020202020202020202020202020202064657070616D203B2020202020202020202030424646,
  0x4D5545494D2052455454454C204C55474E4148204854444957464C41482020312E3120232020202020202020202036303131203B202020202020202020202020202020202064657070616D203B2020202020202020202031424646,
  0x50554549502052455454454C204C55474E4148204854444957464C41482020312E3120232020202020202020202037303131203B202020202020202020202020202020202064657070616D203B2020202020202020202032424646,
  0x5055454950474E4153532052455454454C204C55474E4148204854444957464C41482020312E3120232020202020202020202038303131203B202020202020202020202020202020202064657070616D203B2020202020202020202033424646,
  0x534F49532D50554549502052455454454C204C55474E4148204854444957464C41482020312E3120232020202020202020202031323131203B202020202020202020202020202020202064657070616D203B2020202020202020202034424646,
  0x534F49532052455454454C204C55474E4148204854444957464C41482020312E3120232020202020202020202039303131203B202020202020202020202020202020202064657070616D203B2020202020202020202035424646,
  0x534F4953474E4153532052455454454C204C55474E4148204854444957464C41482020312E3120232020202020202020202041303131203B202020202020202020202020202020202064657070616D203B2020202020202020202036424646,
  0x474E5545492052455454454C204C55474E4148204854444957464C41482020312E3120232020202020202020202042303131203B202020202020202020202020202020202064657070616D203B2020202020202020202037424646,
  0x43554549432052455454454C204C55474E4148204854444957464C41482020312E3120232020202020202020202043303131203B202020202020202020202020202020202064657070616D203B2020202020202020202038424646,
  0x4355454943474E4153532052455454454C204C55474E4148204854444957464C41482020312E3120232020202020202020202044303131203B202020202020202020202020202020202064657070616D203B2020202020202020202039424646,
  0x484355454948432052455454454C204C55474E4148204854444957464C41482020312E3120232020202020202020202045303131203B202020202020202020202020202020202064657070616D203B2020202020202020202041424646,
  0x484B554549484B2052455454454C204C55474E4148204854444957464C41482020312E3120232020202020202020202046303131203B202020202020202020202020202020202064657070616D203B2020202020202020202042424646,
  0x485455454948542052455454454C204C55474E4148204854444957464C41482020312E3120232020202020202020202030313131203B202020202020202020202020202020202064657070616D203B2020202020202020202043424646,
  0x485055454948502052455454454C204C55474E4148204854444957464C41482020312E3120232020202020202020202031313131203B202020202020202020202020202020202064657070616D203B2020202020202020202044424646,
  0x48554549482052455454454C204C55474E4148204854444957464C41482020312E3120232020202020202020202032313131203B202020202020202020202020202020202064657070616D203B2020202020202020202045424646,
  0x3E314346462D64657672657365723C2E2E3E464246462D64657672657365723C202020414E202320202020202020202020202020202020202020202020202020202020206465776F6C6C61736964203B20202020314346462E2E46424646,
  0x412052455454454C204C55474E4148204854444957464C41482020312E3120232020202020202020202031363131203B202020202020202020202020202020202064657070616D203B2020202020202020202032434646,
  0x45412052455454454C204C55474E4148204854444957464C41482020312E3120232020202020202020202032363131203B202020202020202020202020202020202064657070616D203B2020202020202020202033434646,
  0x41592052455454454C204C55474E4148204854444957464C41482020312E3120232020202020202020202033363131203B202020202020202020202020202020202064657070616D203B2020202020202020202034434646,
  0x4541592052455454454C204C55474E4148204854444957464C41482020312E3120232020202020202020202034363131203B202020202020202020202020202020202064657070616D203B2020202020202020202035434646,
  0x4F452052455454454C204C55474E4148204854444957464C41482020312E3120232020202020202020202035363131203B202020202020202020202020202020202064657070616D203B2020202020202020202036434646,
  0x452052455454454C204C55474E4148204854444957464C41482020312E3120232020202020202020202036363131203B202020202020202020202020202020202064657070616D203B2020202020202020202037434646,
  0x3E394346462D64657672657365723C2E2E3E384346462D64657672657365723C202020414E202320202020202020202020202020202020202020202020202020202020206465776F6C6C61736964203B20202020394346462E2E38434646,
  0x4F45592052455454454C204C55474E4148204854444957464C41482020312E3120232020202020202020202037363131203B202020202020202020202020202020202064657070616D203B2020202020202020202041434646,
  0x45592052455454454C204C55474E4148204854444957464C41482020312E3120232020202020202020202038363131203B202020202020202020202020202020202064657070616D203B2020202020202020202042434646,
  0x4F2052455454454C204C55474E4148204854444957464C41482020312E3120232020202020202020202039363131203B202020202020202020202020202020202064657070616D203B2020202020202020202043434646,
  0x41572052455454454C204C55474E4148204854444957464C41482020312E3120232020202020202020202041363131203B202020202020202020202020202020202064657070616D203B2020202020202020202044434646,
  0x4541572052455454454C204C55474E4148204854444957464C41482020312E3120232020202020202020202042363131203B202020202020202020202020202020202064657070616D203B2020202020202020202045434646,
  0x454F2052455454454C204C55474E4148204854444957464C41482020312E3120232020202020202020202043363131203B202020202020202020202020202020202064657070616D203B2020202020202020202046434646,
  0x3E314446462D64657672657365723C2E2E3E304446462D64657672657365723C202020414E202320202020202020202020202020202020202020202020202020202020206465776F6C6C61736964203B20202020314446462E2E30444646,
  0x4F592052455454454C204C55474E4148204854444957464C41482020312E3120232020202020202020202044363131203B202020202020202020202020202020202064657070616D203B2020202020202020202032444646,
  0x552052455454454C204C55474E4148204854444957464C41482020312E3120232020202020202020202045363131203B202020202020202020202020202020202064657070616D203B2020202020202020202033444646,
  0x4F45572052455454454C204C55474E4148204854444957464C41482020312E3120232020202020202020202046363131203B202020202020202020202020202020202064657070616D203B2020202020202020202034444646,
  0x45572052455454454C204C55474E4148204854444957464C41482020312E3120232020202020202020202030373131203B202020202020202020202020202020202064657070616D203B2020202020202020202035444646,
  0x49572052455454454C204C55474E4148204854444957464C41482020312E3120232020202020202020202031373131203B202020202020202020202020202020202064657070616D203B2020202020202020202036444646,
  0x55592052455454454C204C55474E4148204854444957464C41482020312E3120232020202020202020202032373131203B202020202020202020202020202020202064657070616D203B2020202020202020202037444646,
  0x3E394446462D64657672657365723C2E2E3E384446462D64657672657365723C202020414E202320202020202020202020202020202020202020202020202020202020206465776F6C6C61736964203B20202020394446462E2E38444646,
  0x55452052455454454C204C55474E4148204854444957464C41482020312E3120232020202020202020202033373131203B202020202020202020202020202020202064657070616D203B2020202020202020202041444646,
  0x49592052455454454C204C55474E4148204854444957464C41482020312E3120232020202020202020202034373131203B202020202020202020202020202020202064657070616D203B2020202020202020202042444646,
  0x492052455454454C204C55474E4148204854444957464C41482020312E3120232020202020202020202035373131203B202020202020202020202020202020202064657070616D203B2020202020202020202043444646,
  0x3E464446462D64657672657365723C2E2E3E444446462D64657672657365723C202020414E202320202020202020202020202020202020202020202020202020202020206465776F6C6C61736964203B20202020464446462E2E44444646,
  0x4E47495320544E45432048544449574C4C55462020312E3120232020202020202020202032413030203B202020202020202020202020202020202064657070616D203B2020202020202020202030454646,
  0x4E47495320444E554F502048544449574C4C55462020312E3120232020202020202020202033413030203B202020202020202020202020202020202064657070616D203B2020202020202020202031454646,
  0x4E47495320544F4E2048544449574C4C55462020312E3120232020202020202020202043413030203B202020202020202020202020202020202064657070616D203B2020202020202020202032454646,
  0x4E4F5243414D2048544449574C4C55462020312E3120232020202020343033302030323030203B2064657070616D5F334454535F6465776F6C6C61736964203B2020202020202020202033454646,
  0x524142204E454B4F52422048544449574C4C55462020312E3120232020202020202020202036413030203B202020202020202020202020202020202064657070616D203B2020202020202020202034454646,
  0x4E474953204E45592048544449574C4C55462020312E3120232020202020202020202035413030203B202020202020202020202020202020202064657070616D203B2020202020202020202035454646,
  0x4E474953204E4F572048544449574C4C55462020312E3120232020202020202020202039413032203B202020202020202020202020202020202064657070616D203B2020202020202020202036454646,
  0x3E374546462D64657672657365723C202020414E202320202020202020202020202020202020202020202020202020202020206465776F6C6C61736964203B2020202020202020202037454646,
  0x4C4143495452455620544847494C20534D524F46204854444957464C41482020312E3120232020202020202020202032303532203B202020202020202020202020202020202064657070616D203B2020202020202020202038454646,
  0x574F5252412053445241575446454C204854444957464C41482020312E3120232020202020202020202030393132203B202020202020202020202020202020202064657070616D203B2020202020202020202039454646,
  0x574F5252412053445241575055204854444957464C41482020312E3120232020202020202020202031393132203B202020202020202020202020202020202064657070616D203B2020202020202020202041454646,
  0x574F5252412053445241575448474952204854444957464C41482020312E3120232020202020202020202032393132203B202020202020202020202020202020202064657070616D203B2020202020202020202042454646]

def mapText23 : List Nat := [
  0x574F5252412053445241574E574F44204854444957464C41482020312E3120232020202020202020202033393132203B202020202020202020202020202020202064657070616D203B2020202020202020202043454646,
  0x455241555153204B43414C42204854444957464C41482020312E3120232020202020202020202030413532203B202020202020202020202020202020202064657070616D203B2020202020202020202044454646,
  0x454C43524943204554494857204854444957464C41482020312E3120232020202020202020202042433532203B202020202020202020202020202020202064657070616D203B2020202020202020202045454646,
  0x3E384646462D64657672657365723C2E2E3E464546462D64657672657365723C202020414E202320202020202020202020202020202020202020202020202020202020206465776F6C6C61736964203B20202020384646462E2E46454646,
  0x524F54414E494D524554204E4F495441544F4E4E41205241454E494C5245544E492E2E524F48434E41204E4F495441544F4E4E41205241454E494C5245544E492020302E33202320202020202020202020202020202020202020202020202020202020206465776F6C6C61736964203B20202020424646462E2E39464646,
  0x52455443415241484320544E454D4543414C504552205443454A424F2020312E32202320202020202020202020202020202020202020202020202020202020206465776F6C6C61736964203B2020202020202020202043464646,
  0x52455443415241484320544E454D4543414C5045522020312E31202320202020202020202020202020202020202020202020202020202020206465776F6C6C61736964203B2020202020202020202044464646,
  0x3E464646462D7265746361726168636E6F6E3C2E2E3E454646462D7265746361726168636E6F6E3C2020312E31202320202020202020202020202020202020202020202020202020202020206465776F6C6C61736964203B20202020464646462E2E45464646,
  0x454A203634304220454C42414C4C59532042205241454E494C2E2E41203830304220454C42414C4C59532042205241454E494C2020302E3420232020202020202020202020202020202020202020202020202020202020202020202064696C6176203B202042303030312E2E3030303031,
  0x3E43303030312D64657672657365723C202020414E202320202020202020202020202020202020202020202020202020202020206465776F6C6C61736964203B2020202020202020204330303031,
  0x4F51203233304220454C42414C4C59532042205241454E494C2E2E4F4A203633304220454C42414C4C59532042205241454E494C2020302E3420232020202020202020202020202020202020202020202020202020202020202020202064696C6176203B202036323030312E2E4430303031,
  0x3E37323030312D64657672657365723C202020414E202320202020202020202020202020202020202020202020202020202020206465776F6C6C61736964203B2020202020202020203732303031,
  0x4F57203234304220454C42414C4C59532042205241454E494C2E2E4152203036304220454C42414C4C59532042205241454E494C2020302E3420232020202020202020202020202020202020202020202020202020202020202020202064696C6176203B202041333030312E2E3832303031,
  0x3E42333030312D64657672657365723C202020414E202320202020202020202020202020202020202020202020202020202020206465776F6C6C61736964203B2020202020202020204233303031,
  0x455A203437304220454C42414C4C59532042205241454E494C2E2E415A203731304220454C42414C4C59532042205241454E494C2020302E3420232020202020202020202020202020202020202020202020202020202020202020202064696C6176203B202044333030312E2E4333303031,
  0x3E45333030312D64657672657365723C202020414E202320202020202020202020202020202020202020202020202020202020206465776F6C6C61736964203B2020202020202020204533303031,
  0x4F5754203139304220454C42414C4C59532042205241454E494C2E2E4F5A203032304220454C42414C4C59532042205241454E494C2020302E3420232020202020202020202020202020202020202020202020202020202020202020202064696C6176203B202044343030312E2E4633303031,
  0x3E46343030312D64657672657365723C2E2E3E45343030312D64657672657365723C202020414E202320202020202020202020202020202020202020202020202020202020206465776F6C6C61736964203B202046343030312E2E4534303031,
  0x39383042204C4F424D59532042205241454E494C2E2E38313042204C4F424D59532042205241454E494C2020302E3420232020202020202020202020202020202020202020202020202020202020202020202064696C6176203B202044353030312E2E3035303031,
  0x3E46373030312D64657672657365723C2E2E3E45353030312D64657672657365723C202020414E202320202020202020202020202020202020202020202020202020202020206465776F6C6C61736964203B202046373030312E2E4535303031,
  0x35303342204C4553534556204D4152474F4544492042205241454E494C2E2E4E414D2030303142204D4152474F4544492042205241454E494C2020302E3420232020202020202020202020202020202020202020202020202020202020202020202064696C6176203B202041463030312E2E3038303031,
  0x3E46463030312D64657672657365723C2E2E3E42463030312D64657672657365723C202020414E202320202020202020202020202020202020202020202020202020202020206465776F6C6C61736964203B202046463030312E2E4246303031,
  0x4B52414D204B43454843204E41454745412E2E454E494C20524F544152415045532044524F57204E41454745412020302E3420232020202038564E203B2020202020203B20202020202020202020202020202020202064696C6176203B202032303130312E2E3030313031,
  0x3E36303130312D64657672657365723C2E2E3E33303130312D64657672657365723C202020414E202320202020202020202020202020202020202020202020202020202020206465776F6C6C61736964203B202036303130312E2E3330313031,
  0x444E4153554F4854205954454E494E205245424D554E204E41454745412E2E454E4F205245424D554E204E41454745412020302E3420232020202038564E203B2020202020203B20202020202020202020202020202020202064696C6176203B202033333130312E2E3730313031,
  0x3E36333130312D64657672657365723C2E2E3E34333130312D64657672657365723C202020414E202320202020202020202020202020202020202020202020202020202020206465776F6C6C61736964203B202036333130312E2E3433313031,
  0x54494E55425553204452494854204552555341454D204E41454745412E2E54494E55204553414220544847494557204E41454745412020302E3420232020202038564E203B2020202020203B20202020202020202020202020202020202064696C6176203B202046333130312E2E3733313031,
  0x4E474953204F52455A204B454552472E2E5245545241555120454E4F2043495454412043494E4F48504F524341204B454552472020312E3420232020202038564E203B2020202020203B20202020202020202020202020202020202064696C6176203B202041383130312E2E3034313031,
  0x4E4749532044494F53554E4953204B454552472E2E4E474953205245545241555120454E4F204B454552472020302E3720232020202038564E203B2020202020203B20202020202020202020202020202020202064696C6176203B202043383130312E2E4238313031,
  0x4E47495320414D53494D4F4E2E2E4E474953204E4F49544349444E49204B454552472020302E3920232020202038564E203B2020202020203B20202020202020202020202020202020202064696C6176203B202045383130312E2E4438313031,
  0x3E46383130312D64657672657365723C202020414E202320202020202020202020202020202020202020202020202020202020206465776F6C6C61736964203B2020202020202020204638313031,
  0x4E474953204C41495255544E4543204E414D4F522E2E4E47495320534E4154584553204E414D4F522020312E3520232020202038564E203B2020202020203B20202020202020202020202020202020202064696C6176203B202042393130312E2E3039313031,
  0x4C4F424D595320414943534120302E333120232020202038564E203B2020202020203B20202020202020202020202020202020202064696C6176203B2020202020202020204339313031,
  0x3E46393130312D64657672657365723C2E2E3E44393130312D64657672657365723C202020414E202320202020202020202020202020202020202020202020202020202020206465776F6C6C61736964203B202046393130312E2E4439313031,
  0x4F485220554154204C4F424D5953204B454552472020302E3720232020202038564E203B2020202020203B20202020202020202020202020202020202064696C6176203B2020202020202020203041313031,
  0x3E46433130312D64657672657365723C2E2E3E31413130312D64657672657365723C202020414E202320202020202020202020202020202020202020202020202020202020206465776F6C6C61736964203B202046433130312E2E3141313031,
  0x444E41422059564157204E474953204353494420534F5453494148502E2E4E414952545345444550204E474953204353494420534F5453494148502020312E3520232020202038564E203B2020202020203B20202020202020202020202020202020202064696C6176203B202043463130312E2E3044313031,
  0x454B4F52545320455551494C424F20474E494E49424D4F43204E474953204353494420534F5453494148502020312E3520232020202020202020202020202020202020202020202020202020202020202020202064696C6176203B2020202020202020204446313031,
  0x3E46373230312D64657672657365723C2E2E3E45463130312D64657672657365723C202020414E202320202020202020202020202020202020202020202020202020202020206465776F6C6C61736964203B202046373230312E2E4546313031,
  0x582052455454454C204E414943594C2E2E412052455454454C204E414943594C2020312E3520232020202020202020202020202020202020202020202020202020202020202020202064696C6176203B202043393230312E2E3038323031,
  0x3E46393230312D64657672657365723C2E2E3E44393230312D64657672657365723C202020414E202320202020202020202020202020202020202020202020202020202020206465776F6C6C61736964203B202046393230312E2E4439323031,
  0x335555552052455454454C204E41495241432E2E412052455454454C204E41495241432020312E3520232020202020202020202020202020202020202020202020202020202020202020202064696C6176203B202030443230312E2E3041323031,
  0x3E46443230312D64657672657365723C2E2E3E31443230312D64657672657365723C202020414E202320202020202020202020202020202020202020202020202020202020206465776F6C6C61736964203B202046443230312E2E3144323031,
  0x4B52414D2053444E4153554F485420544341504520434954504F432020302E3720232020202020202020202020202020202020202020202020202020202020202020202064696C6176203B2020202020202020203045323031,
  0x444552444E554820454E494E205245424D554E20544341504520434954504F432E2E454E4F20544947494420544341504520434954504F432020302E3720232020202038564E203B2020202020203B20202020202020202020202020202020202064696C6176203B202042463230312E2E3145323031,
  0x3E46463230312D64657672657365723C2E2E3E43463230312D64657672657365723C202020414E202320202020202020202020202020202020202020202020202020202020206465776F6C6C61736964203B202046463230312E2E4346323031,
  0x55552052455454454C2043494C41544920444C4F2E2E412052455454454C2043494C41544920444C4F2020312E3320232020202020202020202020202020202020202020202020202020202020202020202064696C6176203B202045313330312E2E3030333031,
  0x5353452052455454454C2043494C41544920444C4F2020302E3720232020202020202020202020202020202020202020202020202020202020202020202064696C6176203B2020202020202020204631333031,
  0x5954464946204C4152454D554E2043494C41544920444C4F2E2E454E4F204C4152454D554E2043494C41544920444C4F2020312E3320232020202038564E203B2020202020203B20202020202020202020202020202020202064696C6176203B202033323330312E2E3032333031,
  0x3E43323330312D64657672657365723C2E2E3E34323330312D64657672657365723C202020414E202320202020202020202020202020202020202020202020202020202020206465776F6C6C61736964203B202043323330312E2E3432333031,
  0x455354204E52454854554F532052455454454C2043494C41544920444C4F2E2E45592052455454454C2043494C41544920444C4F20302E303120232020202020202020202020202020202020202020202020202020202020202020202064696C6176203B202046323330312E2E4432333031,
  0x41524854524941502052455454454C20434948544F472E2E415348412052455454454C20434948544F472020312E3320232020202020202020202020202020202020202020202020202020202020202020202064696C6176203B202030343330312E2E3033333031,
  0x5954454E494E2052455454454C20434948544F472020312E3320232020202038564E203B2020202020203B20202020202020202020202020202020202064696C6176203B2020202020202020203134333031,
  0x4C4148544F2052455454454C20434948544F472E2E41444941522052455454454C20434948544F472020312E3320232020202020202020202020202020202020202020202020202020202020202020202064696C6176203B202039343330312E2E3234333031,
  0x444552444E554820454E494E2052455454454C20434948544F472020312E3320232020202038564E203B2020202020203B20202020202020202020202020202020202064696C6176203B2020202020202020204134333031,
  0x3E46343330312D64657672657365723C2E2E3E42343330312D64657672657365723C202020414E202320202020202020202020202020202020202020202020202020202020206465776F6C6C61736964203B202046343330312E2E4234333031,
  0x4949532052455454454C2043494D52455020444C4F20474E494E49424D4F432E2E4E412052455454454C2043494D52455020444C4F2020302E3720232020202020202020202020202020202020202020202020202020202020202020202064696C6176203B202041373330312E2E3035333031,
  0x3E46373330312D64657672657365723C2E2E3E42373330312D64657672657365723C202020414E202320202020202020202020202020202020202020202020202020202020206465776F6C6C61736964203B202046373330312E2E4237333031,
  0x5553532052455454454C2043495449524147552E2E41504C412052455454454C2043495449524147552020302E3420232020202020202020202020202020202020202020202020202020202020202020202064696C6176203B202044393330312E2E3038333031,
  0x3E45393330312D64657672657365723C202020414E202320202020202020202020202020202020202020202020202020202020206465776F6C6C61736964203B2020202020202020204539333031,
  0x524544495649442044524F572043495449524147552020302E3420232020202038564E203B2020202020203B20202020202020202020202020202020202064696C6176203B2020202020202020204639333031,
  0x4148204E474953204E41495352455020444C4F2E2E41204E474953204E41495352455020444C4F2020312E3420232020202020202020202020202020202020202020202020202020202020202020202064696C6176203B202033433330312E2E3041333031,
  0x3E37433330312D64657672657365723C2E2E3E34433330312D64657672657365723C202020414E202320202020202020202020202020202020202020202020202020202020206465776F6C6C61736964203B202037433330312E2E3443333031,
  0x4853494D555542204E474953204E41495352455020444C4F2E2E4141445A414D41525541204E474953204E41495352455020444C4F2020312E3420232020202020202020202020202020202020202020202020202020202020202020202064696C6176203B202046433330312E2E3843333031,
  0x444552444E5548205245424D554E204E41495352455020444C4F2E2E524544495649442044524F57204E41495352455020444C4F2020312E3420232020202038564E203B2020202020203B20202020202020202020202020202020202064696C6176203B202035443330312E2E3044333031,
  0x3E46463330312D64657672657365723C2E2E3E36443330312D64657672657365723C202020414E202320202020202020202020202020202020202020202020202020202020206465776F6C6C61736964203B202046463330312E2E3644333031,
  0x4920474E4F4C2052455454454C204C41544950414320544552455345442020312E3320232020202020202020203832343031203B202020202020202020202020202020202064657070616D203B2020202020202020203030343031,
  0x4520474E4F4C2052455454454C204C41544950414320544552455345442020312E3320232020202020202020203932343031203B202020202020202020202020202020202064657070616D203B2020202020202020203130343031,
  0x4120474E4F4C2052455454454C204C41544950414320544552455345442020312E3320232020202020202020204132343031203B202020202020202020202020202020202064657070616D203B2020202020202020203230343031,
  0x484120474E4F4C2052455454454C204C41544950414320544552455345442020312E3320232020202020202020204232343031203B202020202020202020202020202020202064657070616D203B2020202020202020203330343031,
  0x4F20474E4F4C2052455454454C204C41544950414320544552455345442020312E3320232020202020202020204332343031203B202020202020202020202020202020202064657070616D203B2020202020202020203430343031,
  0x4F4F20474E4F4C2052455454454C204C41544950414320544552455345442020312E3320232020202020202020204432343031203B202020202020202020202020202020202064657070616D203B2020202020202020203530343031,
  0x492054524F48532052455454454C204C41544950414320544552455345442020312E3320232020202020202020204532343031203B202020202020202020202020202020202064657070616D203B2020202020202020203630343031,
  0x452054524F48532052455454454C204C41544950414320544552455345442020312E3320232020202020202020204632343031203B202020202020202020202020202020202064657070616D203B2020202020202020203730343031,
  0x412054524F48532052455454454C204C41544950414320544552455345442020312E3320232020202020202020203033343031203B202020202020202020202020202020202064657070616D203B2020202020202020203830343031,
  0x48412054524F48532052455454454C204C41544950414320544552455345442020312E3320232020202020202020203133343031203B202020202020202020202020202020202064657070616D203B2020202020202020203930343031,
  0x4F2054524F48532052455454454C204C41544950414320544552455345442020312E3320232020202020202020203233343031203B202020202020202020202020202020202064657070616D203B2020202020202020204130343031,
  0x4F4F2054524F48532052455454454C204C41544950414320544552455345442020312E3320232020202020202020203333343031203B202020202020202020202020202020202064657070616D203B2020202020202020204230343031,
  0x59412052455454454C204C41544950414320544552455345442020312E3320232020202020202020203433343031203B202020202020202020202020202020202064657070616D203B2020202020202020204330343031,
  0x574F2052455454454C204C41544950414320544552455345442020312E3320232020202020202020203533343031203B202020202020202020202020202020202064657070616D203B2020202020202020204430343031,
  0x55572052455454454C204C41544950414320544552455345442020312E3320232020202020202020203633343031203B202020202020202020202020202020202064657070616D203B2020202020202020204530343031,
  0x4545592052455454454C204C41544950414320544552455345442020312E3320232020202020202020203733343031203B202020202020202020202020202020202064657070616D203B2020202020202020204630343031,
  0x482052455454454C204C41544950414320544552455345442020312E3320232020202020202020203833343031203B202020202020202020202020202020202064657070616D203B2020202020202020203031343031,
  0x4545502052455454454C204C41544950414320544552455345442020312E3320232020202020202020203933343031203B202020202020202020202020202020202064657070616D203B2020202020202020203131343031,
  0x4545422052455454454C204C41544950414320544552455345442020312E3320232020202020202020204133343031203B202020202020202020202020202020202064657070616D203B2020202020202020203231343031,
  0x4545542052455454454C204C41544950414320544552455345442020312E3320232020202020202020204233343031203B202020202020202020202020202020202064657070616D203B2020202020202020203331343031,
  0x4545442052455454454C204C41544950414320544552455345442020312E3320232020202020202020204333343031203B202020202020202020202020202020202064657070616D203B2020202020202020203431343031,
  0x454548432052455454454C204C41544950414320544552455345442020312E3320232020202020202020204433343031203B202020202020202020202020202020202064657070616D203B2020202020202020203531343031,
  0x45454A2052455454454C204C41544950414320544552455345442020312E3320232020202020202020204533343031203B202020202020202020202020202020202064657070616D203B2020202020202020203631343031,
  0x59414B2052455454454C204C41544950414320544552455345442020312E3320232020202020202020204633343031203B202020202020202020202020202020202064657070616D203B2020202020202020203731343031,
  0x5941472052455454454C204C41544950414320544552455345442020312E3320232020202020202020203034343031203B202020202020202020202020202020202064657070616D203B2020202020202020203831343031,
  0x46452052455454454C204C41544950414320544552455345442020312E3320232020202020202020203134343031203B202020202020202020202020202020202064657070616D203B2020202020202020203931343031,
  0x4545562052455454454C204C41544950414320544552455345442020312E3320232020202020202020203234343031203B202020202020202020202020202020202064657070616D203B2020202020202020204131343031,
  0x4854452052455454454C204C41544950414320544552455345442020312E3320232020202020202020203334343031203B202020202020202020202020202020202064657070616D203B2020202020202020204231343031,
  0x454548542052455454454C204C41544950414320544552455345442020312E3320232020202020202020203434343031203B202020202020202020202020202020202064657070616D203B2020202020202020204331343031,
  0x53452052455454454C204C41544950414320544552455345442020312E3320232020202020202020203534343031203B202020202020202020202020202020202064657070616D203B2020202020202020204431343031,
  0x45455A2052455454454C204C41544950414320544552455345442020312E3320232020202020202020203634343031203B202020202020202020202020202020202064657070616D203B2020202020202020204531343031,
  0x4853452052455454454C204C41544950414320544552455345442020312E3320232020202020202020203734343031203B202020202020202020202020202020202064657070616D203B2020202020202020204631343031,
  0x4545485A2052455454454C204C41544950414320544552455345442020312E3320232020202020202020203834343031203B202020202020202020202020202020202064657070616D203B2020202020202020203032343031,
  0x52452052455454454C204C41544950414320544552455345442020312E3320232020202020202020203934343031203B202020202020202020202020202020202064657070616D203B2020202020202020203132343031,
  0x4C452052455454454C204C41544950414320544552455345442020312E3320232020202020202020204134343031203B202020202020202020202020202020202064657070616D203B2020202020202020203232343031,
  0x4D452052455454454C204C41544950414320544552455345442020312E3320232020202020202020204234343031203B202020202020202020202020202020202064657070616D203B2020202020202020203332343031,
  0x4E452052455454454C204C41544950414320544552455345442020312E3320232020202020202020204334343031203B202020202020202020202020202020202064657070616D203B2020202020202020203432343031,
  0x474E452052455454454C204C41544950414320544552455345442020312E3320232020202020202020204434343031203B202020202020202020202020202020202064657070616D203B2020202020202020203532343031,
  0x494F2052455454454C204C41544950414320544552455345442020302E3420232020202020202020204534343031203B202020202020202020202020202020202064657070616D203B2020202020202020203632343031,
  0x57452052455454454C204C41544950414320544552455345442020302E3420232020202020202020204634343031203B202020202020202020202020202020202064657070616D203B2020202020202020203732343031,
  0x474E452052455454454C204C4C414D5320544552455345442E2E4920474E4F4C2052455454454C204C4C414D5320544552455345442020312E3320232020202020202020202020202020202020202020202020202020202020202020202064696C6176203B202044343430312E2E3832343031,
  0x4F4F2052455454454C2041594E414D534F2E2E494F2052455454454C204C4C414D5320544552455345442020302E3420232020202020202020202020202020202020202020202020202020202020202020202064696C6176203B202044393430312E2E4534343031,
  0x3E46393430312D64657672657365723C2E2E3E45393430312D64657672657365723C202020414E202320202020202020202020202020202020202020202020202020202020206465776F6C6C61736964203B202046393430312E2E4539343031,
  0x454E494E2054494749442041594E414D534F2E2E4F52455A2054494749442041594E414D534F2020302E3420232020202020202020202020202020202020202020202020202020202020202020202064696C6176203B202039413430312E2E3041343031,
  0x3E46413430312D64657672657365723C2E2E3E41413430312D64657672657365723C202020414E202320202020202020202020202020202020202020202020202020202020206465776F6C6C61736964203B202046413430312E2E4141343031,
  0x412052455454454C204C41544950414320454741534F2020302E3920232020202020202020203844343031203B202020202020202020202020202020202064657070616D203B2020202020202020203042343031,
  0x49412052455454454C204C41544950414320454741534F2020302E3920232020202020202020203944343031203B202020202020202020202020202020202064657070616D203B2020202020202020203142343031,
  0x4E49412052455454454C204C41544950414320454741534F2020302E3920232020202020202020204144343031203B202020202020202020202020202020202064657070616D203B2020202020202020203242343031,
  0x48412052455454454C204C41544950414320454741534F2020302E3920232020202020202020204244343031203B202020202020202020202020202020202064657070616D203B2020202020202020203342343031,
  0x4152422052455454454C204C41544950414320454741534F2020302E3920232020202020202020204344343031203B202020202020202020202020202020202064657070616D203B2020202020202020203442343031,
  0x4148432052455454454C204C41544950414320454741534F2020302E3920232020202020202020204444343031203B202020202020202020202020202020202064657070616D203B2020202020202020203542343031,
  0x41484348452052455454454C204C41544950414320454741534F2020302E3920232020202020202020204544343031203B202020202020202020202020202020202064657070616D203B2020202020202020203642343031,
  0x452052455454454C204C41544950414320454741534F2020302E3920232020202020202020204644343031203B202020202020202020202020202020202064657070616D203B2020202020202020203742343031,
  0x4E49452052455454454C204C41544950414320454741534F2020302E3920232020202020202020203045343031203B202020202020202020202020202020202064657070616D203B2020202020202020203842343031,
  0x41482052455454454C204C41544950414320454741534F2020302E3920232020202020202020203145343031203B202020202020202020202020202020202064657070616D203B2020202020202020203942343031,
  0x4159482052455454454C204C41544950414320454741534F2020302E3920232020202020202020203245343031203B202020202020202020202020202020202064657070616D203B2020202020202020204142343031,
  0x492052455454454C204C41544950414320454741534F2020302E3920232020202020202020203345343031203B202020202020202020202020202020202064657070616D203B2020202020202020204242343031,
  0x414B2052455454454C204C41544950414320454741534F2020302E3920232020202020202020203445343031203B202020202020202020202020202020202064657070616D203B2020202020202020204342343031,
  0x414B48452052455454454C204C41544950414320454741534F2020302E3920232020202020202020203545343031203B202020202020202020202020202020202064657070616D203B2020202020202020204442343031,
  0x41594B2052455454454C204C41544950414320454741534F2020302E3920232020202020202020203645343031203B202020202020202020202020202020202064657070616D203B2020202020202020204542343031,
  0x414C2052455454454C204C41544950414320454741534F2020302E3920232020202020202020203745343031203B202020202020202020202020202020202064657070616D203B2020202020202020204642343031,
  0x414D2052455454454C204C41544950414320454741534F2020302E3920232020202020202020203845343031203B202020202020202020202020202020202064657070616D203B2020202020202020203043343031,
  0x414E2052455454454C204C41544950414320454741534F2020302E3920232020202020202020203945343031203B202020202020202020202020202020202064657070616D203B2020202020202020203143343031,
  0x4F2052455454454C204C41544950414320454741534F2020302E3920232020202020202020204145343031203B202020202020202020202020202020202064657070616D203B2020202020202020203243343031,
  0x4E494F2052455454454C204C41544950414320454741534F2020302E3920232020202020202020204245343031203B202020202020202020202020202020202064657070616D203B2020202020202020203343343031,
  0x41502052455454454C204C41544950414320454741534F2020302E3920232020202020202020204345343031203B202020202020202020202020202020202064657070616D203B2020202020202020203443343031,
  0x415048452052455454454C204C41544950414320454741534F2020302E3920232020202020202020204445343031203B202020202020202020202020202020202064657070616D203B2020202020202020203543343031,
  0x41532052455454454C204C41544950414320454741534F2020302E3920232020202020202020204545343031203B202020202020202020202020202020202064657070616D203B2020202020202020203643343031,
  0x4148532052455454454C204C41544950414320454741534F2020302E3920232020202020202020204645343031203B202020202020202020202020202020202064657070616D203B2020202020202020203743343031,
  0x41542052455454454C204C41544950414320454741534F2020302E3920232020202020202020203046343031203B202020202020202020202020202020202064657070616D203B2020202020202020203843343031,
  0x415448452052455454454C204C41544950414320454741534F2020302E3920232020202020202020203146343031203B202020202020202020202020202020202064657070616D203B2020202020202020203943343031,
  0x4153542052455454454C204C41544950414320454741534F2020302E3920232020202020202020203246343031203B202020202020202020202020202020202064657070616D203B2020202020202020204143343031,
  0x41535448452052455454454C204C41544950414320454741534F2020302E3920232020202020202020203346343031203B202020202020202020202020202020202064657070616D203B2020202020202020204243343031,
  0x414853542052455454454C204C41544950414320454741534F2020302E3920232020202020202020203446343031203B202020202020202020202020202020202064657070616D203B2020202020202020204343343031,
  0x4148442052455454454C204C41544950414320454741534F2020302E3920232020202020202020203546343031203B202020202020202020202020202020202064657070616D203B2020202020202020204443343031,
  0x552052455454454C204C41544950414320454741534F2020302E3920232020202020202020203646343031203B202020202020202020202020202020202064657070616D203B2020202020202020204543343031,
  0x41572052455454454C204C41544950414320454741534F2020302E3920232020202020202020203746343031203B202020202020202020202020202020202064657070616D203B2020202020202020204643343031,
  0x41484B2052455454454C204C41544950414320454741534F2020302E3920232020202020202020203846343031203B202020202020202020202020202020202064657070616D203B2020202020202020203044343031,
  0x4148472052455454454C204C41544950414320454741534F2020302E3920232020202020202020203946343031203B202020202020202020202020202020202064657070616D203B2020202020202020203144343031,
  0x415A2052455454454C204C41544950414320454741534F2020302E3920232020202020202020204146343031203B202020202020202020202020202020202064657070616D203B2020202020202020203244343031,
  0x41485A2052455454454C204C41544950414320454741534F2020302E3920232020202020202020204246343031203B202020202020202020202020202020202064657070616D203B2020202020202020203344343031,
  0x3E37443430312D64657672657365723C2E2E3E34443430312D64657672657365723C202020414E202320202020202020202020202020202020202020202020202020202020206465776F6C6C61736964203B202037443430312E2E3444343031,
  0x41485A2052455454454C204C4C414D5320454741534F2E2E412052455454454C204C4C414D5320454741534F2020302E3920232020202020202020202020202020202020202020202020202020202020202020202064696C6176203B202042463430312E2E3844343031,
  0x3E46463430312D64657672657365723C2E2E3E43463430312D64657672657365723C202020414E202320202020202020202020202020202020202020202020202020202020206465776F6C6C61736964203B202046463430312E2E4346343031,
  0x45484B2052455454454C204E415341424C452E2E412052455454454C204E415341424C452020302E3720232020202020202020202020202020202020202020202020202020202020202020202064696C6176203B202037323530312E2E3030353031,
  0x3E46323530312D64657672657365723C2E2E3E38323530312D64657672657365723C202020414E202320202020202020202020202020202020202020202020202020202020206465776F6C6C61736964203B202046323530312E2E3832353031,
  0x57494B2052455454454C204E41494E41424C41204E41495341435541432E2E544C412052455454454C204E41494E41424C41204E41495341435541432020302E3720232020202020202020202020202020202020202020202020202020202020202020202064696C6176203B202033363530312E2E3033353031,
  0x3E45363530312D64657672657365723C2E2E3E34363530312D64657672657365723C202020414E202320202020202020202020202020202020202020202020202020202020206465776F6C6C61736964203B202045363530312E2E3436353031,
  0x4B52414D204E4F495441544943204E41494E41424C41204E41495341435541432020302E3720232020202038564E203B2020202020203B20202020202020202020202020202020202064696C6176203B2020202020202020204636353031,
  0x3E46463530312D64657672657365723C2E2E3E30373530312D64657672657365723C202020414E202320202020202020202020202020202020202020202020202020202020206465776F6C6C61736964203B202046463530312E2E3037353031,
  0x34363641204E4749532041205241454E494C2E2E3130304241204E4749532041205241454E494C2020302E3720232020202020202020202020202020202020202020202020202020202020202020202064696C6176203B202036333730312E2E3030363031,
  0x3E46333730312D64657672657365723C2E2E3E37333730312D64657672657365723C202020414E202320202020202020202020202020202020202020202020202020202020206465776F6C6C61736964203B202046333730312E2E3733373031,
  0x454A2032333741204E4749532041205241454E494C2E2E412031303741204E4749532041205241454E494C2020302E3720232020202020202020202020202020202020202020202020202020202020202020202064696C6176203B202035353730312E2E3034373031,
  0x3E46353730312D64657672657365723C2E2E3E36353730312D64657672657365723C202020414E202320202020202020202020202020202020202020202020202020202020206465776F6C6C61736964203B202046353730312E2E3635373031,
  0x37303841204E4749532041205241454E494C2E2E30303841204E4749532041205241454E494C2020302E3720232020202020202020202020202020202020202020202020202020202020202020202064696C6176203B202037363730312E2E3036373031,
  0x3E46463730312D64657672657365723C2E2E3E38363730312D64657672657365723C202020414E202320202020202020202020202020202020202020202020202020202020206465776F6C6C61736964203B202046463730312E2E3836373031,
  0x414A20454C42414C4C595320544F49525059432E2E4120454C42414C4C595320544F49525059432020302E3420232020202020202020202020202020202020202020202020202020202020202020202064696C6176203B202035303830312E2E3030383031,
  0x3E37303830312D64657672657365723C2E2E3E36303830312D64657672657365723C202020414E202320202020202020202020202020202020202020202020202020202020206465776F6C6C61736964203B202037303830312E2E3630383031,
  0x4F4A20454C42414C4C595320544F49525059432020302E3420232020202020202020202020202020202020202020202020202020202020202020202064696C6176203B2020202020202020203830383031,
  0x3E39303830312D64657672657365723C202020414E202320202020202020202020202020202020202020202020202020202020206465776F6C6C61736964203B2020202020202020203930383031,
  0x4F5720454C42414C4C595320544F49525059432E2E414B20454C42414C4C595320544F49525059432020302E3420232020202020202020202020202020202020202020202020202020202020202020202064696C6176203B202035333830312E2E4130383031,
  0x3E36333830312D64657672657365723C202020414E202320202020202020202020202020202020202020202020202020202020206465776F6C6C61736964203B2020202020202020203633383031,
  0x455820454C42414C4C595320544F49525059432E2E415820454C42414C4C595320544F49525059432020302E3420232020202020202020202020202020202020202020202020202020202020202020202064696C6176203B202038333830312E2E3733383031,
  0x3E42333830312D64657672657365723C2E2E3E39333830312D64657672657365723C202020414E202320202020202020202020202020202020202020202020202020202020206465776F6C6C61736964203B202042333830312E2E3933383031,
  0x415A20454C42414C4C595320544F49525059432020302E3420232020202020202020202020202020202020202020202020202020202020202020202064696C6176203B2020202020202020204333383031,
  0x3E45333830312D64657672657365723C2E2E3E44333830312D64657672657365723C202020414E202320202020202020202020202020202020202020202020202020202020206465776F6C6C61736964203B202045333830312E2E4433383031,
  0x4F5A20454C42414C4C595320544F49525059432020302E3420232020202020202020202020202020202020202020202020202020202020202020202064696C6176203B2020202020202020204633383031,
  0x5741542052455454454C204349414D415241204C41495245504D492E2E4850454C412052455454454C204349414D415241204C41495245504D492020322E3520232020202020202020202020202020202020202020202020202020202020202020202064696C6176203B202035353830312E2E3034383031,
  0x3E36353830312D64657672657365723C202020414E202320202020202020202020202020202020202020202020202020202020206465776F6C6C61736964203B2020202020202020203635383031,
  0x444E4153554F4854204E4554205245424D554E204349414D415241204C41495245504D492E2E4E474953204E4F4954434553204349414D415241204C41495245504D492020322E3520232020202038564E203B2020202020203B20202020202020202020202020202020202064696C6176203B202046353830312E2E3735383031,
  0x5741542052455454454C20454E4552594D4C41502E2E4850454C412052455454454C20454E4552594D4C41502020302E3720232020202020202020202020202020202020202020202020202020202020202020202064696C6176203B202036373830312E2E3036383031,
  0x59544E455754205245424D554E20454E4552594D4C41502E2E4E4F5255454C4620474E49544E494F502D5446454C20454E4552594D4C41502020302E3720232020202038564E203B2020202020203B20202020202020202020202020202020202064696C6176203B202046373830312E2E3737383031,
  0x5741542052455454454C204E414541544142414E2E2E4850454C41204C414E49462052455454454C204E414541544142414E2020302E3720232020202020202020202020202020202020202020202020202020202020202020202064696C6176203B202045393830312E2E3038383031,
  0x3E36413830312D64657672657365723C2E2E3E46393830312D64657672657365723C202020414E202320202020202020202020202020202020202020202020202020202020206465776F6C6C61736964203B202036413830312E2E4639383031,
  0x444552444E554820454E4F205245424D554E204E414541544142414E2E2E454E4F205245424D554E204E414541544142414E2020302E3720232020202038564E203B2020202020203B20202020202020202020202020202020202064696C6176203B202046413830312E2E3741383031,
  0x3E46443830312D64657672657365723C2E2E3E30423830312D64657672657365723C202020414E202320202020202020202020202020202020202020202020202020202020206465776F6C6C61736964203B202046443830312E2E3042383031,
  0x48504F512052455454454C204E41525441482E2E4850454C412052455454454C204E41525441482020302E3820232020202020202020202020202020202020202020202020202020202020202020202064696C6176203B202032463830312E2E3045383031,
  0x3E33463830312D64657672657365723C202020414E202320202020202020202020202020202020202020202020202020202020206465776F6C6C61736964203B2020202020202020203346383031,
  0x5741542052455454454C204E41525441482E2E4E4948532052455454454C204E41525441482020302E3820232020202020202020202020202020202020202020202020202020202020202020202064696C6176203B202035463830312E2E3446383031,
  0x3E41463830312D64657672657365723C2E2E3E36463830312D64657672657365723C202020414E202320202020202020202020202020202020202020202020202020202020206465776F6C6C61736964203B202041463830312E2E3646383031,
  0x444552444E554820454E4F205245424D554E204E41525441482E2E454E4F205245424D554E204E41525441482020302E3820232020202038564E203B2020202020203B20202020202020202020202020202020202064696C6176203B202046463830312E2E4246383031,
  0x5541542052455454454C204E414943494E454F48502E2E464C412052455454454C204E414943494E454F48502020302E3520232020202020202020202020202020202020202020202020202020202020202020202064696C6176203B202035313930312E2E3030393031,
  0x444552444E554820454E4F205245424D554E204E414943494E454F48502E2E454E4F205245424D554E204E414943494E454F48502020302E3520232020202038564E203B2020202020203B20202020202020202020202020202020202064696C6176203B202039313930312E2E3631393031,
  0x4545524854205245424D554E204E414943494E454F48502E2E4F5754205245424D554E204E414943494E454F48502020322E3520232020202038564E203B2020202020203B20202020202020202020202020202020202064696C6176203B202042313930312E2E4131393031,
  0x3E45313930312D64657672657365723C2E2E3E43313930312D64657672657365723C202020414E202320202020202020202020202020202020202020202020202020202020206465776F6C6C61736964203B202045313930312E2E4331393031,
  0x524F544152415045532044524F57204E414943494E454F48502020302E3520232020202038564E203B2020202020203B20202020202020202020202020202020202064696C6176203B2020202020202020204631393031,
  0x432052455454454C204E414944594C2E2E412052455454454C204E414944594C2020312E3520232020202020202020202020202020202020202020202020202020202020202020202064696C6176203B202039333930312E2E3032393031,
  0x3E45333930312D64657672657365723C2E2E3E41333930312D64657672657365723C202020414E202320202020202020202020202020202020202020202020202020202020206465776F6C6C61736964203B202045333930312E2E4133393031,
  0x4B52414D2052414C55474E41495254204E414944594C2020312E3520232020202038564E203B2020202020203B20202020202020202020202020202020202064696C6176203B2020202020202020204633393031,
  0x3E46373930312D64657672657365723C2E2E3E30343930312D64657672657365723C202020414E202320202020202020202020202020202020202020202020202020202020206465776F6C6C61736964203B202046373930312E2E3034393031,
  0x41442052455454454C204556495352554320434954494F52454D2E2E412052455454454C2043494850594C474F5245494820434954494F52454D2020312E3620232020202020202020202020202020202020202020202020202020202020202020202064696C6176203B202037423930312E2E3038393031,
  0x3E42423930312D64657672657365723C2E2E3E38423930312D64657672657365723C202020414E202320202020202020202020202020202020202020202020202020202020206465776F6C6C61736964203B202042423930312E2E3842393031,
  0x464C414820454E4F204E4F495443415246204556495352554320434954494F52454D2E2E534854464C455754204E4556454C45204E4F495443415246204556495352554320434954494F52454D2020302E3820232020202038564E203B2020202020203B20202020202020202020202020202020202064696C6176203B202044423930312E2E4342393031,
  0x4E4D49204D4152474F474F4C204556495352554320434954494F52454D2E2E544D52204D4152474F474F4C204556495352554320434954494F52454D2020312E3620232020202020202020202020202020202020202020202020202020202020202020202064696C6176203B202046423930312E2E4542393031,
  0x59544E45564553205245424D554E204556495352554320434954494F52454D2E2E454E4F205245424D554E204556495352554320434954494F52454D2020302E3820232020202038564E203B2020202020203B20202020202020202020202020202020202064696C6176203B202046433930312E2E3043393031,
  0x3E31443930312D64657672657365723C2E2E3E30443930312D64657672657365723C202020414E202320202020202020202020202020202020202020202020202020202020206465776F6C6C61736964203B202031443930312E2E3044393031,
  0x534854464C455754204E4554204E4F495443415246204556495352554320434954494F52454D2E2E444552444E554820454E4F205245424D554E204556495352554320434954494F52454D2020302E3820232020202038564E203B2020202020203B20202020202020202020202020202020202064696C6176203B202046463930312E2E3244393031,
  0x522043494C41434F56204E474953204C45574F562049485448534F5241484B2E2E412052455454454C2049485448534F5241484B2020312E3420232020202020202020202020202020202020202020202020202020202020202020202064696C6176203B202033304130312E2E3030413031,
  0x3E34304130312D64657672657365723C202020414E202320202020202020202020202020202020202020202020202020202020206465776F6C6C61736964203B2020202020202020203430413031,
  0x4F204E474953204C45574F562049485448534F5241484B2E2E45204E474953204C45574F562049485448534F5241484B2020312E3420232020202020202020202020202020202020202020202020202020202020202020202064696C6176203B202036304130312E2E3530413031,
  0x3E42304130312D64657672657365723C2E2E3E37304130312D64657672657365723C202020414E202320202020202020202020202020202020202020202020202020202020206465776F6C6C61736964203B202042304130312E2E3730413031,
  0x4148472052455454454C2049485448534F5241484B2E2E4B52414D204854474E454C204C45574F562049485448534F5241484B2020312E3420232020202020202020202020202020202020202020202020202020202020202020202064696C6176203B202033314130312E2E4330413031,
  0x3E34314130312D64657672657365723C202020414E202320202020202020202020202020202020202020202020202020202020206465776F6C6C61736964203B2020202020202020203431413031,
  0x414A2052455454454C2049485448534F5241484B2E2E41432052455454454C2049485448534F5241484B2020312E3420232020202020202020202020202020202020202020202020202020202020202020202064696C6176203B202037314130312E2E3531413031,
  0x3E38314130312D64657672657365723C202020414E202320202020202020202020202020202020202020202020202020202020206465776F6C6C61736964203B2020202020202020203831413031,
  0x41485454542052455454454C2049485448534F5241484B2E2E41594E2052455454454C2049485448534F5241484B2020312E3420232020202020202020202020202020202020202020202020202020202020202020202064696C6176203B202033334130312E2E3931413031,
  0x4148562052455454454C2049485448534F5241484B2E2E415454542052455454454C2049485448534F5241484B20302E313120232020202020202020202020202020202020202020202020202020202020202020202064696C6176203B202035334130312E2E3433413031,
  0x3E37334130312D64657672657365723C2E2E3E36334130312D64657672657365723C202020414E202320202020202020202020202020202020202020202020202020202020206465776F6C6C61736964203B202037334130312E2E3633413031,
  0x574F4C454220544F44204E4749532049485448534F5241484B2E2E45564F424120524142204E4749532049485448534F5241484B2020312E3420232020202020202020202020202020202020202020202020202020202020202020202064696C6176203B202041334130312E2E3833413031,
  0x3E45334130312D64657672657365723C2E2E3E42334130312D64657672657365723C202020414E202320202020202020202020202020202020202020202020202020202020206465776F6C6C61736964203B202045334130312E2E4233413031,
  0x414D415249562049485448534F5241484B2020312E3420232020202020202020202020202020202020202020202020202020202020202020202064696C6176203B2020202020202020204633413031,
  0x444E4153554F485420454E4F205245424D554E2049485448534F5241484B2E2E454E4F2054494749442049485448534F5241484B2020312E3420232020202038564E203B2020202020203B20202020202020202020202020202020202064696C6176203B202037344130312E2E3034413031,
  0x464C414820454E4F204E4F4954434152462049485448534F5241484B20302E313120232020202038564E203B2020202020203B20202020202020202020202020202020202064696C6176203B2020202020202020203834413031,
  0x3E46344130312D64657672657365723C2E2E3E39344130312D64657672657365723C202020414E202320202020202020202020202020202020202020202020202020202020206465776F6C6C61736964203B202046344130312E2E3934413031,
  0x53454E494C204E4F4954415554434E55502049485448534F5241484B2E2E544F44204E4F4954415554434E55502049485448534F5241484B2020312E3420232020202038564E203B2020202020203B20202020202020202020202020202020202064696C6176203B202038354130312E2E3035413031,
  0x3E46354130312D64657672657365723C2E2E3E39354130312D64657672657365723C202020414E202320202020202020202020202020202020202020202020202020202020206465776F6C6C61736964203B202046354130312E2E3935413031,
  0x48544548542052455454454C204E414942415241204854554F5320444C4F2E2E45482052455454454C204E414942415241204854554F5320444C4F2020322E3520232020202020202020202020202020202020202020202020202020202020202020202064696C6176203B202043374130312E2E3036413031,
  0x524F54414349444E4920434952454D554E204E414942415241204854554F5320444C4F2E2E454E4F205245424D554E204E414942415241204854554F5320444C4F2020322E3520232020202038564E203B2020202020203B20202020202020202020202020202020202064696C6176203B202046374130312E2E4437413031,
  0x48415A2052455454454C204E414942415241204854524F4E20444C4F2E2E4845482052455454454C204E414942415241204854524F4E20444C4F2020302E3720232020202020202020202020202020202020202020202020202020202020202020202064696C6176203B202043394130312E2E3038413031,
  0x59544E455754205245424D554E204E414942415241204854524F4E20444C4F2E2E454E4F205245424D554E204E414942415241204854524F4E20444C4F2020302E3720232020202038564E203B2020202020203B20202020202020202020202020202020202064696C6176203B202046394130312E2E4439413031,
  0x3E46424130312D64657672657365723C2E2E3E30414130312D64657672657365723C202020414E202320202020202020202020202020202020202020202020202020202020206465776F6C6C61736964203B202046424130312E2E3041413031,
  0x5741572052455454454C204E4145414843494E414D2E2E4850454C412052455454454C204E4145414843494E414D2020302E3720232020202020202020202020202020202020202020202020202020202020202020202064696C6176203B202037434130312E2E3043413031,
  0x4455204E474953204E4145414843494E414D2020302E3720232020202038564E203B2020202020203B20202020202020202020202020202020202064696C6176203B2020202020202020203843413031,
  0x574F4C4542204B52414D204E4F49544149564552424241204E4145414843494E414D2E2E4E4959415A2052455454454C204E4145414843494E414D2020302E3720232020202020202020202020202020202020202020202020202020202020202020202064696C6176203B202036454130312E2E3943413031,
  0x3E41454130312D64657672657365723C2E2E3E37454130312D64657672657365723C202020414E202320202020202020202020202020202020202020202020202020202020206465776F6C6C61736964203B202041454130312E2E3745413031,
  0x52454C4C494620454E494C204E4F4954415554434E5550204E4145414843494E414D2E2E454E4F205245424D554E204E4145414843494E414D2020302E3720232020202038564E203B2020202020203B20202020202020202020202020202020202064696C6176203B202036464130312E2E4245413031,
  0x3E46464130312D64657672657365723C2E2E3E37464130312D64657672657365723C202020414E202320202020202020202020202020202020202020202020202020202020206465776F6C6C61736964203B202046464130312E2E3746413031,
  0x45482052455454454C204E4154534556412E2E412052455454454C204E4154534556412020322E3520232020202020202020202020202020202020202020202020202020202020202020202064696C6176203B202035334230312E2E3030423031,
  0x3E38334230312D64657672657365723C2E2E3E36334230312D64657672657365723C202020414E202320202020202020202020202020202020202020202020202020202020206465776F6C6C61736964203B202038334230312E2E3633423031,
  0x4E4F4954415554434E55502053474E4952204F5754205245564F20474E495220454E4F20454752414C2E2E4B52414D204E4F49544149564552424241204E4154534556412020322E3520232020202038564E203B2020202020203B20202020202020202020202020202020202064696C6176203B202046334230312E2E3933423031,
  0x5741542052455454454C204E41494854524150204C414E4F495450495243534E492E2E4850454C412052455454454C204E41494854524150204C414E4F495450495243534E492020322E3520232020202020202020202020202020202020202020202020202020202020202020202064696C6176203B202035354230312E2E3034423031,
  0x3E37354230312D64657672657365723C2E2E3E36354230312D64657672657365723C202020414E202320202020202020202020202020202020202020202020202020202020206465776F6C6C61736964203B202037354230312E2E3635423031,
  0x444E4153554F485420454E4F205245424D554E204E41494854524150204C414E4F495450495243534E492E2E454E4F205245424D554E204E41494854524150204C414E4F495450495243534E492020322E3520232020202038564E203B2020202020203B20202020202020202020202020202020202064696C6176203B202046354230312E2E3835423031,
  0x5741542052455454454C204956414C484150204C414E4F495450495243534E492E2E4850454C412052455454454C204956414C484150204C414E4F495450495243534E492020322E3520232020202020202020202020202020202020202020202020202020202020202020202064696C6176203B202032374230312E2E3036423031,
  0x3E37374230312D64657672657365723C2E2E3E33374230312D64657672657365723C202020414E202320202020202020202020202020202020202020202020202020202020206465776F6C6C61736964203B202037374230312E2E3337423031,
  0x444E4153554F485420454E4F205245424D554E204956414C484150204C414E4F495450495243534E492E2E454E4F205245424D554E204956414C484150204C414E4F495450495243534E492020322E3520232020202038564E203B2020202020203B20202020202020202020202020202020202064696C6176203B202046374230312E2E3837423031,
  0x5741542052455454454C204956414C484150205245544C4153502E2E4850454C412052455454454C204956414C484150205245544C4153502020302E3720232020202020202020202020202020202020202020202020202020202020202020202064696C6176203B202031394230312E2E3038423031,
  0x3E38394230312D64657672657365723C2E2E3E32394230312D64657672657365723C202020414E202320202020202020202020202020202020202020202020202020202020206465776F6C6C61736964203B202038394230312E2E3239423031,
  0x544F4420485449572053544F442052554F46204956414C484150205245544C4153502E2E4B52414D204E4F4954434553204956414C484150205245544C4153502020302E3720232020202038564E203B2020202020203B20202020202020202020202020202020202064696C6176203B202043394230312E2E3939423031,
  0x3E38414230312D64657672657365723C2E2E3E44394230312D64657672657365723C202020414E202320202020202020202020202020202020202020202020202020202020206465776F6C6C61736964203B202038414230312E2E4439423031,
  0x444552444E554820454E4F205245424D554E204956414C484150205245544C4153502E2E454E4F205245424D554E204956414C484150205245544C4153502020302E3720232020202038564E203B2020202020203B20202020202020202020202020202020202064696C6176203B202046414230312E2E3941423031,
  0x3E46464230312D64657672657365723C2E2E3E30424230312D64657672657365723C202020414E202320202020202020202020202020202020202020202020202020202020206465776F6C6C61736964203B202046464230312E2E3042423031,
  0x48534142204E4F484B524F2052455454454C2043494B52555420444C4F2E2E41204E4F484B524F2052455454454C2043494B52555420444C4F2020322E3520232020202020202020202020202020202020202020202020202020202020202020202064696C6176203B202038344330312E2E3030433031,
  0x3E46374330312D64657672657365723C2E2E3E39344330312D64657672657365723C202020414E202320202020202020202020202020202020202020202020202020202020206465776F6C6C61736964203B202046374330312E2E3934433031]

def mapText24 : List Nat := [
  0x412052455454454C204C415449504143204E41495241474E554820444C4F2020302E3820232020202020202020203043433031203B202020202020202020202020202020202064657070616D203B2020202020202020203038433031,
  0x41412052455454454C204C415449504143204E41495241474E554820444C4F2020302E3820232020202020202020203143433031203B202020202020202020202020202020202064657070616D203B2020202020202020203138433031,
  0x42452052455454454C204C415449504143204E41495241474E554820444C4F2020302E3820232020202020202020203243433031203B202020202020202020202020202020202064657070616D203B2020202020202020203238433031,
  0x424D412052455454454C204C415449504143204E41495241474E554820444C4F2020302E3820232020202020202020203343433031203B202020202020202020202020202020202064657070616D203B2020202020202020203338433031,
  0x43452052455454454C204C415449504143204E41495241474E554820444C4F2020302E3820232020202020202020203443433031203B202020202020202020202020202020202064657070616D203B2020202020202020203438433031,
  0x434E452052455454454C204C415449504143204E41495241474E554820444C4F2020302E3820232020202020202020203543433031203B202020202020202020202020202020202064657070616D203B2020202020202020203538433031,
  0x5343452052455454454C204C415449504143204E41495241474E554820444C4F2020302E3820232020202020202020203643433031203B202020202020202020202020202020202064657070616D203B2020202020202020203638433031,
  0x44452052455454454C204C415449504143204E41495241474E554820444C4F2020302E3820232020202020202020203743433031203B202020202020202020202020202020202064657070616D203B2020202020202020203738433031,
  0x444E412052455454454C204C415449504143204E41495241474E554820444C4F2020302E3820232020202020202020203843433031203B202020202020202020202020202020202064657070616D203B2020202020202020203838433031,
  0x452052455454454C204C415449504143204E41495241474E554820444C4F2020302E3820232020202020202020203943433031203B202020202020202020202020202020202064657070616D203B2020202020202020203938433031,
  0x452045534F4C432052455454454C204C415449504143204E41495241474E554820444C4F2020302E3820232020202020202020204143433031203B202020202020202020202020202020202064657070616D203B2020202020202020204138433031,
  0x45452052455454454C204C415449504143204E41495241474E554820444C4F2020302E3820232020202020202020204243433031203B202020202020202020202020202020202064657070616D203B2020202020202020204238433031,
  0x46452052455454454C204C415449504143204E41495241474E554820444C4F2020302E3820232020202020202020204343433031203B202020202020202020202020202020202064657070616D203B2020202020202020204338433031,
  0x47452052455454454C204C415449504143204E41495241474E554820444C4F2020302E3820232020202020202020204443433031203B202020202020202020202020202020202064657070616D203B2020202020202020204438433031,
  0x5947452052455454454C204C415449504143204E41495241474E554820444C4F2020302E3820232020202020202020204543433031203B202020202020202020202020202020202064657070616D203B2020202020202020204538433031,
  0x48452052455454454C204C415449504143204E41495241474E554820444C4F2020302E3820232020202020202020204643433031203B202020202020202020202020202020202064657070616D203B2020202020202020204638433031,
  0x492052455454454C204C415449504143204E41495241474E554820444C4F2020302E3820232020202020202020203044433031203B202020202020202020202020202020202064657070616D203B2020202020202020203039433031,
  0x49492052455454454C204C415449504143204E41495241474E554820444C4F2020302E3820232020202020202020203144433031203B202020202020202020202020202020202064657070616D203B2020202020202020203139433031,
  0x4A452052455454454C204C415449504143204E41495241474E554820444C4F2020302E3820232020202020202020203244433031203B202020202020202020202020202020202064657070616D203B2020202020202020203239433031,
  0x4B452052455454454C204C415449504143204E41495241474E554820444C4F2020302E3820232020202020202020203344433031203B202020202020202020202020202020202064657070616D203B2020202020202020203339433031,
  0x4B412052455454454C204C415449504143204E41495241474E554820444C4F2020302E3820232020202020202020203444433031203B202020202020202020202020202020202064657070616D203B2020202020202020203439433031,
  0x4B4E552052455454454C204C415449504143204E41495241474E554820444C4F2020302E3820232020202020202020203544433031203B202020202020202020202020202020202064657070616D203B2020202020202020203539433031,
  0x4C452052455454454C204C415449504143204E41495241474E554820444C4F2020302E3820232020202020202020203644433031203B202020202020202020202020202020202064657070616D203B2020202020202020203639433031,
  0x594C452052455454454C204C415449504143204E41495241474E554820444C4F2020302E3820232020202020202020203744433031203B202020202020202020202020202020202064657070616D203B2020202020202020203739433031,
  0x4D452052455454454C204C415449504143204E41495241474E554820444C4F2020302E3820232020202020202020203844433031203B202020202020202020202020202020202064657070616D203B2020202020202020203839433031,
  0x4E452052455454454C204C415449504143204E41495241474E554820444C4F2020302E3820232020202020202020203944433031203B202020202020202020202020202020202064657070616D203B2020202020202020203939433031,
  0x594E452052455454454C204C415449504143204E41495241474E554820444C4F2020302E3820232020202020202020204144433031203B202020202020202020202020202020202064657070616D203B2020202020202020204139433031,
  0x4F2052455454454C204C415449504143204E41495241474E554820444C4F2020302E3820232020202020202020204244433031203B202020202020202020202020202020202064657070616D203B2020202020202020204239433031,
  0x4F4F2052455454454C204C415449504143204E41495241474E554820444C4F2020302E3820232020202020202020204344433031203B202020202020202020202020202020202064657070616D203B2020202020202020204339433031,
  0x454F2047525542534C4F4B494E2052455454454C204C415449504143204E41495241474E554820444C4F2020302E3820232020202020202020204444433031203B202020202020202020202020202020202064657070616D203B2020202020202020204439433031,
  0x454F2041544E454D494455522052455454454C204C415449504143204E41495241474E554820444C4F2020302E3820232020202020202020204544433031203B202020202020202020202020202020202064657070616D203B2020202020202020204539433031,
  0x45454F2052455454454C204C415449504143204E41495241474E554820444C4F2020302E3820232020202020202020204644433031203B202020202020202020202020202020202064657070616D203B2020202020202020204639433031,
  0x50452052455454454C204C415449504143204E41495241474E554820444C4F2020302E3820232020202020202020203045433031203B202020202020202020202020202020202064657070616D203B2020202020202020203041433031,
  0x504D452052455454454C204C415449504143204E41495241474E554820444C4F2020302E3820232020202020202020203145433031203B202020202020202020202020202020202064657070616D203B2020202020202020203141433031,
  0x52452052455454454C204C415449504143204E41495241474E554820444C4F2020302E3820232020202020202020203245433031203B202020202020202020202020202020202064657070616D203B2020202020202020203241433031,
  0x52452054524F48532052455454454C204C415449504143204E41495241474E554820444C4F2020302E3820232020202020202020203345433031203B202020202020202020202020202020202064657070616D203B2020202020202020203341433031,
  0x53452052455454454C204C415449504143204E41495241474E554820444C4F2020302E3820232020202020202020203445433031203B202020202020202020202020202020202064657070616D203B2020202020202020203441433031,
  0x5A53452052455454454C204C415449504143204E41495241474E554820444C4F2020302E3820232020202020202020203545433031203B202020202020202020202020202020202064657070616D203B2020202020202020203541433031,
  0x54452052455454454C204C415449504143204E41495241474E554820444C4F2020302E3820232020202020202020203645433031203B202020202020202020202020202020202064657070616D203B2020202020202020203641433031,
  0x544E452052455454454C204C415449504143204E41495241474E554820444C4F2020302E3820232020202020202020203745433031203B202020202020202020202020202020202064657070616D203B2020202020202020203741433031,
  0x5954452052455454454C204C415449504143204E41495241474E554820444C4F2020302E3820232020202020202020203845433031203B202020202020202020202020202020202064657070616D203B2020202020202020203841433031,
  0x4843452052455454454C204C415449504143204E41495241474E554820444C4F2020302E3820232020202020202020203945433031203B202020202020202020202020202020202064657070616D203B2020202020202020203941433031,
  0x552052455454454C204C415449504143204E41495241474E554820444C4F2020302E3820232020202020202020204145433031203B202020202020202020202020202020202064657070616D203B2020202020202020204141433031,
  0x55552052455454454C204C415449504143204E41495241474E554820444C4F2020302E3820232020202020202020204245433031203B202020202020202020202020202020202064657070616D203B2020202020202020204241433031,
  0x45552047525542534C4F4B494E2052455454454C204C415449504143204E41495241474E554820444C4F2020302E3820232020202020202020204345433031203B202020202020202020202020202020202064657070616D203B2020202020202020204341433031,
  0x45552041544E454D494455522052455454454C204C415449504143204E41495241474E554820444C4F2020302E3820232020202020202020204445433031203B202020202020202020202020202020202064657070616D203B2020202020202020204441433031,
  0x56452052455454454C204C415449504143204E41495241474E554820444C4F2020302E3820232020202020202020204545433031203B202020202020202020202020202020202064657070616D203B2020202020202020204541433031,
  0x5A452052455454454C204C415449504143204E41495241474E554820444C4F2020302E3820232020202020202020204645433031203B202020202020202020202020202020202064657070616D203B2020202020202020204641433031,
  0x535A452052455454454C204C415449504143204E41495241474E554820444C4F2020302E3820232020202020202020203046433031203B202020202020202020202020202020202064657070616D203B2020202020202020203042433031,
  0x4E474953204445504148532D544E452052455454454C204C415449504143204E41495241474E554820444C4F2020302E3820232020202020202020203146433031203B202020202020202020202020202020202064657070616D203B2020202020202020203142433031,
  0x53552052455454454C204C415449504143204E41495241474E554820444C4F2020302E3820232020202020202020203246433031203B202020202020202020202020202020202064657070616D203B2020202020202020203242433031,
  0x3E46424330312D64657672657365723C2E2E3E33424330312D64657672657365723C202020414E202320202020202020202020202020202020202020202020202020202020206465776F6C6C61736964203B202046424330312E2E3342433031,
  0x53552052455454454C204C4C414D53204E41495241474E554820444C4F2E2E412052455454454C204C4C414D53204E41495241474E554820444C4F2020302E3820232020202020202020202020202020202020202020202020202020202020202020202064696C6176203B202032464330312E2E3043433031,
  0x3E39464330312D64657672657365723C2E2E3E33464330312D64657672657365723C202020414E202320202020202020202020202020202020202020202020202020202020206465776F6C6C61736964203B202039464330312E2E3346433031,
  0x444E4153554F485420454E4F205245424D554E204E41495241474E554820444C4F2E2E454E4F205245424D554E204E41495241474E554820444C4F2020302E3820232020202038564E203B2020202020203B20202020202020202020202020202020202064696C6176203B202046464330312E2E4146433031,
  0x4953534154204E474953204159474E49484F52204946494E41482E2E412052455454454C204159474E49484F52204946494E414820302E313120232020202020202020202020202020202020202020202020202020202020202020202064696C6176203B202037324430312E2E3030443031,
  0x3E46324430312D64657672657365723C2E2E3E38324430312D64657672657365723C202020414E202320202020202020202020202020202020202020202020202020202020206465776F6C6C61736964203B202046324430312E2E3832443031,
  0x454E494E205449474944204159474E49484F52204946494E41482E2E4F52455A205449474944204159474E49484F52204946494E414820302E313120232020202020202020202020202020202020202020202020202020202020202020202064696C6176203B202039334430312E2E3033443031,
  0x3E46354530312D64657672657365723C2E2E3E41334430312D64657672657365723C202020414E202320202020202020202020202020202020202020202020202020202020206465776F6C6C61736964203B202046354530312E2E4133443031,
  0x534452494854204F5754204E4F49544341524620494D55522E2E454E4F20544947494420494D55522020322E3520232020202038564E203B2020202020203B20202020202020202020202020202020202064696C6176203B202045374530312E2E3036453031,
  0x3E46374530312D64657672657365723C202020414E202320202020202020202020202020202020202020202020202020202020206465776F6C6C61736964203B2020202020202020204637453031,
  0x54452052455454454C204944495A45592E2E46494C452052455454454C204944495A455920302E333120232020202020202020202020202020202020202020202020202020202020202020202064696C6176203B202039414530312E2E3038453031,
  0x3E41414530312D64657672657365723C202020414E202320202020202020202020202020202020202020202020202020202020206465776F6C6C61736964203B2020202020202020204141453031,
  0x4B52414D20414444414D20474E494E49424D4F43204944495A45592E2E4B52414D20415A4D414820474E494E49424D4F43204944495A455920302E333120232020202020202020202020202020202020202020202020202020202020202020202064696C6176203B202043414530312E2E4241453031,
  0x4B52414D204E4F4954414E4548505948204944495A455920302E333120232020202038564E203B2020202020203B20202020202020202020202020202020202064696C6176203B2020202020202020204441453031,
  0x3E46414530312D64657672657365723C2E2E3E45414530312D64657672657365723C202020414E202320202020202020202020202020202020202020202020202020202020206465776F6C6C61736964203B202046414530312E2E4541453031,
  0x45564F42412058454C464D5543524943204854495720544F592052455454454C204944495A45592E2E45564F424120544F442048544957204D414C2052455454454C204944495A455920302E333120232020202020202020202020202020202020202020202020202020202020202020202064696C6176203B202031424530312E2E3042453031,
  0x3E46464530312D64657672657365723C2E2E3E32424530312D64657672657365723C202020414E202320202020202020202020202020202020202020202020202020202020206465776F6C6C61736964203B202046464530312E2E3242453031,
  0x4C494154204C41434954524556204854495720574154204C414E49462052455454454C204E414944474F5320444C4F2E2E4850454C412052455454454C204E414944474F5320444C4F20302E313120232020202020202020202020202020202020202020202020202020202020202020202064696C6176203B202043314630312E2E3030463031,
  0x464C414820454E4F204E4F495443415246204E414944474F5320444C4F2E2E454E4F205245424D554E204E414944474F5320444C4F20302E313120232020202038564E203B2020202020203B20202020202020202020202020202020202064696C6176203B202036324630312E2E4431463031,
  0x4854454C41442D4E49594120455255544147494C204E414944474F5320444C4F20302E313120232020202020202020202020202020202020202020202020202020202020202020202064696C6176203B2020202020202020203732463031,
  0x3E46324630312D64657672657365723C2E2E3E38324630312D64657672657365723C202020414E202320202020202020202020202020202020202020202020202020202020206465776F6C6C61736964203B202046324630312E2E3832463031,
  0x574F4C454220454B4F52545320474E494E49424D4F43204E414944474F532E2E4850454C412052455454454C204E414944474F5320302E313120232020202020202020202020202020202020202020202020202020202020202020202064696C6176203B202030354630312E2E3033463031,
  0x544F44204854495720454C4352494320464C4148204E4F4954415554434E5550204E414944474F532E2E454E4F205245424D554E204E414944474F5320302E313120232020202038564E203B2020202020203B20202020202020202020202020202020202064696C6176203B202039354630312E2E3135463031,
  0x3E46414630312D64657672657365723C2E2E3E41354630312D64657672657365723C202020414E202320202020202020202020202020202020202020202020202020202020206465776F6C6C61736964203B202046414630312E2E4135463031,
  0x5741542052455454454C204E41494D5341524F48432E2E4850454C412052455454454C204E41494D5341524F484320302E333120232020202020202020202020202020202020202020202020202020202020202020202064696C6176203B202034434630312E2E3042463031,
  0x444552444E554820454E4F205245424D554E204E41494D5341524F48432E2E454E4F205245424D554E204E41494D5341524F484320302E333120232020202038564E203B2020202020203B20202020202020202020202020202020202064696C6176203B202042434630312E2E3543463031,
  0x3E46444630312D64657672657365723C2E2E3E43434630312D64657672657365723C202020414E202320202020202020202020202020202020202020202020202020202020206465776F6C6C61736964203B202046444630312E2E4343463031,
  0x48444F592D4E4959415A20455255544147494C204349414D594C452E2E4850454C412052455454454C204349414D594C4520302E323120232020202020202020202020202020202020202020202020202020202020202020202064696C6176203B202036464630312E2E3045463031,
  0x3E46464630312D64657672657365723C2E2E3E37464630312D64657672657365723C202020414E202320202020202020202020202020202020202020202020202020202020206465776F6C6C61736964203B202046464630312E2E3746463031,
  0x414D4152495620494D484152422E2E55444E49424152444E4143204E47495320494D484152422020302E3620232020202020202020202020202020202020202020202020202020202020202020202064696C6176203B202036343031312E2E3030303131,
  0x5355544F4C204E4F4954415554434E555020494D484152422E2E41444E414420494D484152422020302E3620232020202038564E203B2020202020203B20202020202020202020202020202020202064696C6176203B202044343031312E2E3734303131,
  0x3E31353031312D64657672657365723C2E2E3E45343031312D64657672657365723C202020414E202320202020202020202020202020202020202020202020202020202020206465776F6C6C61736964203B202031353031312E2E4534303131,
  0x444E4153554F485420454E4F205245424D554E20494D484152422E2E454E4F205245424D554E20494D484152422020302E3620232020202038564E203B2020202020203B20202020202020202020202020202020202064696C6176203B202035363031312E2E3235303131,
  0x454E494E20544947494420494D484152422E2E4F52455A20544947494420494D484152422020302E3620232020202020202020202020202020202020202020202020202020202020202020202064696C6176203B202046363031312E2E3636303131,
  0x3E45373031312D64657672657365723C2E2E3E30373031312D64657672657365723C202020414E202320202020202020202020202020202020202020202020202020202020206465776F6C6C61736964203B202045373031312E2E3037303131,
  0x52454E494F4A205245424D554E20494D484152422020302E3720232020202020202020202020202020202020202020202020202020202020202020202064696C6176203B2020202020202020204637303131,
  0x41544B554E204E4749532049485449414B2E2E55444E49424152444E4143204E4749532049485449414B2020322E3520232020202020202020202020202020202020202020202020202020202020202020202064696C6176203B202041423031312E2E3038303131,
  0x4E474953204E4F49544152454D554E452049485449414B2E2E4E474953204E4F495441495645524242412049485449414B2020322E3520232020202038564E203B2020202020203B20202020202020202020202020202020202064696C6176203B202043423031312E2E4242303131,
  0x4E474953205245424D554E2049485449414B2020322E35202320202020202020202020202020202020202020202020202020202020206465776F6C6C61736964203B2020202020202020204442303131,
  0x41444E414420454C42554F442049485449414B2E2E4B52414D204E4F49544345532049485449414B2020322E3520232020202038564E203B2020202020203B20202020202020202020202020202020202064696C6176203B202031433031312E2E4542303131,
  0x3E43433031312D64657672657365723C2E2E3E32433031312D64657672657365723C202020414E202320202020202020202020202020202020202020202020202020202020206465776F6C6C61736964203B202043433031312E2E3243303131,
  0x45564F4241204E474953205245424D554E2049485449414B20302E3131202320202020202020202020202020202020202020202020202020202020206465776F6C6C61736964203B2020202020202020204443303131,
  0x3E46433031312D64657672657365723C2E2E3E45433031312D64657672657365723C202020414E202320202020202020202020202020202020202020202020202020202020206465776F6C6C61736964203B202046433031312E2E4543303131,
  0x45414D2052455454454C20474E45504D4F532041524F532E2E4841532052455454454C20474E45504D4F532041524F532020312E3620232020202020202020202020202020202020202020202020202020202020202020202064696C6176203B202038453031312E2E3044303131,
  0x3E46453031312D64657672657365723C2E2E3E39453031312D64657672657365723C202020414E202320202020202020202020202020202020202020202020202020202020206465776F6C6C61736964203B202046453031312E2E3945303131,
  0x454E494E20544947494420474E45504D4F532041524F532E2E4F52455A20544947494420474E45504D4F532041524F532020312E3620232020202020202020202020202020202020202020202020202020202020202020202064696C6176203B202039463031312E2E3046303131,
  0x3E46463031312D64657672657365723C2E2E3E41463031312D64657672657365723C202020414E202320202020202020202020202020202020202020202020202020202020206465776F6C6C61736964203B202046463031312E2E4146303131,
  0x4141595941414D20414D4B4148432E2E55444E49424152444E4143204E47495320414D4B4148432020312E3620232020202020202020202020202020202020202020202020202020202020202020202064696C6176203B202034333131312E2E3030313131,
  0x3E35333131312D64657672657365723C202020414E202320202020202020202020202020202020202020202020202020202020206465776F6C6C61736964203B2020202020202020203533313131,
  0x454E494E20544947494420414D4B4148432E2E4F52455A20544947494420414D4B4148432020312E3620232020202020202020202020202020202020202020202020202020202020202020202064696C6176203B202046333131312E2E3633313131,
  0x4B52414D204E4F49545345555120414D4B4148432E2E4B52414D204E4F495443455320414D4B4148432020312E3620232020202038564E203B2020202020203B20202020202020202020202020202020202064696C6176203B202033343131312E2E3034313131,
  0x4945204E474953204C45574F5620414D4B4148432E2E4141484C2052455454454C20414D4B41484320302E313120232020202020202020202020202020202020202020202020202020202020202020202064696C6176203B202036343131312E2E3434313131,
  0x4141562052455454454C20414D4B41484320302E333120232020202020202020202020202020202020202020202020202020202020202020202064696C6176203B2020202020202020203734313131,
  0x3E46343131312D64657672657365723C2E2E3E38343131312D64657672657365723C202020414E202320202020202020202020202020202020202020202020202020202020206465776F6C6C61736964203B202046343131312E2E3834313131,
  0x41544B554E204E47495320494E414A4148414D2E2E412052455454454C20494E414A4148414D2020302E3720232020202020202020202020202020202020202020202020202020202020202020202064696C6176203B202033373131312E2E3035313131,
  0x4B52414D204E4F495443455320494E414A4148414D2E2E4E474953204E4F4954414956455242424120494E414A4148414D2020302E3720232020202038564E203B2020202020203B20202020202020202020202020202020202064696C6176203B202035373131312E2E3437313131,
  0x4952485320455255544147494C20494E414A4148414D2020302E3720232020202020202020202020202020202020202020202020202020202020202020202064696C6176203B2020202020202020203637313131,
  0x3E46373131312D64657672657365723C2E2E3E37373131312D64657672657365723C202020414E202320202020202020202020202020202020202020202020202020202020206465776F6C6C61736964203B202046373131312E2E3737313131,
  0x4D4F20414441524148532E2E55444E49424152444E4143204E47495320414441524148532020312E3620232020202020202020202020202020202020202020202020202020202020202020202064696C6176203B202034433131312E2E3038313131,
  0x524F5441524150455320414441524148532E2E41444E414420414441524148532020312E3620232020202038564E203B2020202020203B20202020202020202020202020202020202064696C6176203B202038433131312E2E3543313131,
  0x4B52414D204C45574F562054524F485320415254584520414441524148532E2E4B52414D204948444E415320414441524148532020302E3820232020202020202020202020202020202020202020202020202020202020202020202064696C6176203B202043433131312E2E3943313131,
  0x4B52414D20415254555320414441524148532020302E3720232020202038564E203B2020202020203B20202020202020202020202020202020202064696C6176203B2020202020202020204443313131,
  0x55444E49424152444E4143204445545245564E49204E47495320414441524148532E2E4520415254414D4148544853495250204E474953204C45574F56204144415241485320302E333120232020202020202020202020202020202020202020202020202020202020202020202064696C6176203B202046433131312E2E4543313131,
  0x454E494E20544947494420414441524148532E2E4F52455A20544947494420414441524148532020312E3620232020202020202020202020202020202020202020202020202020202020202020202064696C6176203B202039443131312E2E3044313131,
  0x4D414B4520414441524148532020302E3720232020202020202020202020202020202020202020202020202020202020202020202064696C6176203B2020202020202020204144313131,
  0x4D414844444953204E47495320414441524148532020302E3820232020202038564E203B2020202020203B20202020202020202020202020202020202064696C6176203B2020202020202020204244313131,
  0x454B4F5254534441454820414441524148532020302E3820232020202020202020202020202020202020202020202020202020202020202020202064696C6176203B2020202020202020204344313131,
  0x322D4B52414D204E4F495443455320414441524148532E2E4E474953204E4F495441554E49544E4F4320414441524148532020302E3820232020202038564E203B2020202020203B20202020202020202020202020202020202064696C6176203B202046443131312E2E4444313131,
  0x3E30453131312D64657672657365723C202020414E202320202020202020202020202020202020202020202020202020202020206465776F6C6C61736964203B2020202020202020203045313131,
  0x444E4153554F485420454E4F205245424D554E204349414843524120414C41484E49532E2E454E4F205449474944204349414843524120414C41484E49532020302E3720232020202038564E203B2020202020203B20202020202020202020202020202020202064696C6176203B202034463131312E2E3145313131,
  0x3E46463131312D64657672657365723C2E2E3E35463131312D64657672657365723C202020414E202320202020202020202020202020202020202020202020202020202020206465776F6C6C61736964203B202046463131312E2E3546313131,
  0x414A4A2052455454454C20494B4A4F484B2E2E412052455454454C20494B4A4F484B2020302E3720232020202020202020202020202020202020202020202020202020202020202020202064696C6176203B202031313231312E2E3030323131,
  0x3E32313231312D64657672657365723C202020414E202320202020202020202020202020202020202020202020202020202020206465776F6C6C61736964203B2020202020202020203231323131,
  0x414444414853204E47495320494B4A4F484B2E2E41594E2052455454454C20494B4A4F484B2020302E3720232020202020202020202020202020202020202020202020202020202020202020202064696C6176203B202037333231312E2E3331323131,
  0x4E474953204E4F4954414956455242424120494B4A4F484B2E2E41444E414420494B4A4F484B2020302E3720232020202038564E203B2020202020203B20202020202020202020202020202020202064696C6176203B202044333231312E2E3833323131,
  0x4E554B5553204E47495320494B4A4F484B2020302E3920232020202020202020202020202020202020202020202020202020202020202020202064696C6176203B2020202020202020204533323131,
  0x3E46373231312D64657672657365723C2E2E3E46333231312D64657672657365723C202020414E202320202020202020202020202020202020202020202020202020202020206465776F6C6C61736964203B202046373231312E2E4633323131,
  0x41472052455454454C20494E41544C554D2E2E412052455454454C20494E41544C554D2020302E3820232020202020202020202020202020202020202020202020202020202020202020202064696C6176203B202036383231312E2E3038323131,
  0x3E37383231312D64657672657365723C202020414E202320202020202020202020202020202020202020202020202020202020206465776F6C6C61736964203B2020202020202020203738323131,
  0x4148472052455454454C20494E41544C554D2020302E3820232020202020202020202020202020202020202020202020202020202020202020202064696C6176203B2020202020202020203838323131,
  0x3E39383231312D64657672657365723C202020414E202320202020202020202020202020202020202020202020202020202020206465776F6C6C61736964203B2020202020202020203938323131,
  0x414A4A2052455454454C20494E41544C554D2E2E41432052455454454C20494E41544C554D2020302E3820232020202020202020202020202020202020202020202020202020202020202020202064696C6176203B202044383231312E2E4138323131,
  0x3E45383231312D64657672657365723C202020414E202320202020202020202020202020202020202020202020202020202020206465776F6C6C61736964203B2020202020202020204538323131,
  0x41422052455454454C20494E41544C554D2E2E41594E2052455454454C20494E41544C554D2020302E3820232020202020202020202020202020202020202020202020202020202020202020202064696C6176203B202044393231312E2E4638323131,
  0x3E45393231312D64657672657365723C202020414E202320202020202020202020202020202020202020202020202020202020206465776F6C6C61736964203B2020202020202020204539323131,
  0x4148522052455454454C20494E41544C554D2E2E4148422052455454454C20494E41544C554D2020302E3820232020202020202020202020202020202020202020202020202020202020202020202064696C6176203B202038413231312E2E4639323131,
  0x4B52414D204E4F495443455320494E41544C554D2020302E3820232020202038564E203B2020202020203B20202020202020202020202020202020202064696C6176203B2020202020202020203941323131,
  0x3E46413231312D64657672657365723C2E2E3E41413231312D64657672657365723C202020414E202320202020202020202020202020202020202020202020202020202020206465776F6C6C61736964203B202046413231312E2E4141323131,
  0x414D41524956204E4749532049444157414455484B2E2E412052455454454C2049444157414455484B2020302E3720232020202020202020202020202020202020202020202020202020202020202020202064696C6176203B202041453231312E2E3042323131,
  0x3E46453231312D64657672657365723C2E2E3E42453231312D64657672657365723C202020414E202320202020202020202020202020202020202020202020202020202020206465776F6C6C61736964203B202046453231312E2E4245323131,
  0x454E494E2054494749442049444157414455484B2E2E4F52455A2054494749442049444157414455484B2020302E3720232020202020202020202020202020202020202020202020202020202020202020202064696C6176203B202039463231312E2E3046323131,
  0x3E46463231312D64657672657365723C2E2E3E41463231312D64657672657365723C202020414E202320202020202020202020202020202020202020202020202020202020206465776F6C6C61736964203B202046463231312E2E4146323131,
  0x45564F4241204152415653554E4120474E494E49424D4F43204E474953204148544E4152472020302E3820232020202020202020202020202020202020202020202020202020202020202020202064696C6176203B2020202020202020203030333131,
  0x41475241534956204E474953204148544E4152472E2E55444E49424152444E4143204E474953204148544E4152472020302E3720232020202020202020202020202020202020202020202020202020202020202020202064696C6176203B202033303331312E2E3130333131,
  0x3E34303331312D64657672657365723C202020414E202320202020202020202020202020202020202020202020202020202020206465776F6C6C61736964203B2020202020202020203430333131,
  0x4C2043494C41434F562052455454454C204148544E4152472E2E412052455454454C204148544E4152472020302E3720232020202020202020202020202020202020202020202020202020202020202020202064696C6176203B202043303331312E2E3530333131,
  0x3E45303331312D64657672657365723C2E2E3E44303331312D64657672657365723C202020414E202320202020202020202020202020202020202020202020202020202020206465776F6C6C61736964203B202045303331312E2E4430333131,
  0x49412052455454454C204148544E4152472E2E45452052455454454C204148544E4152472020302E3720232020202020202020202020202020202020202020202020202020202020202020202064696C6176203B202030313331312E2E4630333131,
  0x3E32313331312D64657672657365723C2E2E3E31313331312D64657672657365723C202020414E202320202020202020202020202020202020202020202020202020202020206465776F6C6C61736964203B202032313331312E2E3131333131,
  0x414E2052455454454C204148544E4152472E2E4F4F2052455454454C204148544E4152472020302E3720232020202020202020202020202020202020202020202020202020202020202020202064696C6176203B202038323331312E2E3331333131,
  0x3E39323331312D64657672657365723C202020414E202320202020202020202020202020202020202020202020202020202020206465776F6C6C61736964203B2020202020202020203932333131,
  0x41522052455454454C204148544E4152472E2E41502052455454454C204148544E4152472020302E3720232020202020202020202020202020202020202020202020202020202020202020202064696C6176203B202030333331312E2E4132333131,
  0x3E31333331312D64657672657365723C202020414E202320202020202020202020202020202020202020202020202020202020206465776F6C6C61736964203B2020202020202020203133333131,
  0x414C4C2052455454454C204148544E4152472E2E414C2052455454454C204148544E4152472020302E3720232020202020202020202020202020202020202020202020202020202020202020202064696C6176203B202033333331312E2E3233333131,
  0x3E34333331312D64657672657365723C202020414E202320202020202020202020202020202020202020202020202020202020206465776F6C6C61736964203B2020202020202020203433333131,
  0x41482052455454454C204148544E4152472E2E41562052455454454C204148544E4152472020302E3720232020202020202020202020202020202020202020202020202020202020202020202064696C6176203B202039333331312E2E3533333131,
  0x3E41333331312D64657672657365723C202020414E202320202020202020202020202020202020202020202020202020202020206465776F6C6C61736964203B2020202020202020204133333131,
  0x574F4C45422055444E494220474E494E49424D4F4320302E313120232020202020202020202020202020202020202020202020202020202020202020202064696C6176203B2020202020202020204233333131,
  0x52522043494C41434F56204E474953204C45574F56204148544E4152472E2E41544B554E204E474953204148544E4152472020302E3720232020202020202020202020202020202020202020202020202020202020202020202064696C6176203B202034343331312E2E4333333131,
  0x3E36343331312D64657672657365723C2E2E3E35343331312D64657672657365723C202020414E202320202020202020202020202020202020202020202020202020202020206465776F6C6C61736964203B202036343331312E2E3534333131,
  0x4941204E474953204C45574F56204148544E4152472E2E4545204E474953204C45574F56204148544E4152472020302E3720232020202020202020202020202020202020202020202020202020202020202020202064696C6176203B202038343331312E2E3734333131,
  0x3E41343331312D64657672657365723C2E2E3E39343331312D64657672657365723C202020414E202320202020202020202020202020202020202020202020202020202020206465776F6C6C61736964203B202041343331312E2E3934333131,
  0x414D41524956204E474953204148544E4152472E2E4F4F204E474953204C45574F56204148544E4152472020302E3720232020202020202020202020202020202020202020202020202020202020202020202064696C6176203B202044343331312E2E4234333131,
  0x3E46343331312D64657672657365723C2E2E3E45343331312D64657672657365723C202020414E202320202020202020202020202020202020202020202020202020202020206465776F6C6C61736964203B202046343331312E2E4534333131,
  0x4D4F204148544E4152472020302E3820232020202020202020202020202020202020202020202020202020202020202020202064696C6176203B2020202020202020203035333131,
  0x3E36353331312D64657672657365723C2E2E3E31353331312D64657672657365723C202020414E202320202020202020202020202020202020202020202020202020202020206465776F6C6C61736964203B202036353331312E2E3135333131,
  0x4B52414D204854474E454C205541204148544E4152472020302E3720232020202020202020202020202020202020202020202020202020202020202020202064696C6176203B2020202020202020203735333131,
  0x3E43353331312D64657672657365723C2E2E3E38353331312D64657672657365723C202020414E202320202020202020202020202020202020202020202020202020202020206465776F6C6C61736964203B202043353331312E2E3835333131,
  0x4C4C2043494C41434F56204E474953204C45574F56204148544E4152472E2E4154554C50204E474953204148544E4152472020302E3720232020202020202020202020202020202020202020202020202020202020202020202064696C6176203B202033363331312E2E4435333131,
  0x3E35363331312D64657672657365723C2E2E3E34363331312D64657672657365723C202020414E202320202020202020202020202020202020202020202020202020202020206465776F6C6C61736964203B202035363331312E2E3436333131,
  0x584953205449474944204148544E41524720474E494E49424D4F432E2E4F52455A205449474944204148544E41524720474E494E49424D4F432020302E3720232020202020202020202020202020202020202020202020202020202020202020202064696C6176203B202043363331312E2E3636333131,
  0x3E46363331312D64657672657365723C2E2E3E44363331312D64657672657365723C202020414E202320202020202020202020202020202020202020202020202020202020206465776F6C6C61736964203B202046363331312E2E4436333131,
  0x41502052455454454C204148544E41524720474E494E49424D4F432E2E412052455454454C204148544E41524720474E494E49424D4F432020302E3720232020202020202020202020202020202020202020202020202020202020202020202064696C6176203B202034373331312E2E3037333131,
  0x3E46463331312D64657672657365723C2E2E3E35373331312D64657672657365723C202020414E202320202020202020202020202020202020202020202020202020202020206465776F6C6C61736964203B202046463331312E2E3537333131,
  0x494844444953204157454E2E2E412052455454454C204157454E2020302E3920232020202020202020202020202020202020202020202020202020202020202020202064696C6176203B202041343431312E2E3030343131,
  0x4E474953204E4F49544149564552424241204157454E2E2E41444E4144204157454E2020302E3920232020202038564E203B2020202020203B20202020202020202020202020202020202064696C6176203B202046343431312E2E4234343131,
  0x454E494E205449474944204157454E2E2E4F52455A205449474944204157454E2020302E3920232020202020202020202020202020202020202020202020202020202020202020202064696C6176203B202039353431312E2E3035343131,
  0x414D4D4F4320454C42554F44204157454E20302E333120232020202038564E203B2020202020203B20202020202020202020202020202020202064696C6176203B2020202020202020204135343131,
  0x4B52414D205245444C4F484543414C50204157454E2020302E3920232020202038564E203B2020202020203B20202020202020202020202020202020202064696C6176203B2020202020202020204235343131,
  0x3E43353431312D64657672657365723C202020414E202320202020202020202020202020202020202020202020202020202020206465776F6C6C61736964203B2020202020202020204335343131,
  0x4E474953204E4F49545245534E49204157454E2020302E3920232020202038564E203B2020202020203B20202020202020202020202020202020202064696C6176203B2020202020202020204435343131,
  0x4B52414D204948444E4153204157454E20302E313120232020202020202020202020202020202020202020202020202020202020202020202064696C6176203B2020202020202020204535343131,
  0x4152415653554E412043494445562052455454454C204157454E20302E323120232020202020202020202020202020202020202020202020202020202020202020202064696C6176203B2020202020202020204635343131,
  0x4159494E414D4844415055204E474953204157454E2E2E4159494C554D415648494A204E474953204157454E20302E333120232020202020202020202020202020202020202020202020202020202020202020202064696C6176203B202031363431312E2E3036343131,
  0x3E46373431312D64657672657365723C2E2E3E32363431312D64657672657365723C202020414E202320202020202020202020202020202020202020202020202020202020206465776F6C6C61736964203B202046373431312E2E3236343131,
  0x474E41564720415455485249542E2E494A4E4120415455485249542020302E3720232020202020202020202020202020202020202020202020202020202020202020202064696C6176203B202035433431312E2E3038343131,
  0x4E474953204E4F4954414956455242424120415455485249542020302E3720232020202038564E203B2020202020203B20202020202020202020202020202020202064696C6176203B2020202020202020203643343131,
  0x4D4F20415455485249542020302E3720232020202020202020202020202020202020202020202020202020202020202020202064696C6176203B2020202020202020203743343131,
  0x3E46433431312D64657672657365723C2E2E3E38433431312D64657672657365723C202020414E202320202020202020202020202020202020202020202020202020202020206465776F6C6C61736964203B202046433431312E2E3843343131,
  0x454E494E20544947494420415455485249542E2E4F52455A20544947494420415455485249542020302E3720232020202020202020202020202020202020202020202020202020202020202020202064696C6176203B202039443431312E2E3044343131,
  0x3E46373531312D64657672657365723C2E2E3E41443431312D64657672657365723C202020414E202320202020202020202020202020202020202020202020202020202020206465776F6C6C61736964203B202046373531312E2E4144343131,
  0x52522043494C41434F56204E474953204C45574F56204D4148444449532E2E412052455454454C204D4148444449532020302E3720232020202020202020202020202020202020202020202020202020202020202020202064696C6176203B202035423531312E2E3038353131,
  0x3E37423531312D64657672657365723C2E2E3E36423531312D64657672657365723C202020414E202320202020202020202020202020202020202020202020202020202020206465776F6C6C61736964203B202037423531312E2E3642353131,
  0x41544B554E204E474953204D4148444449532E2E45204E474953204C45574F56204D4148444449532020302E3720232020202020202020202020202020202020202020202020202020202020202020202064696C6176203B202030433531312E2E3842353131,
  0x4B52414D205458455420464F20444E45204D4148444449532E2E4D414844444953204E474953204D4148444449532020302E3720232020202038564E203B2020202020203B20202020202020202020202020202020202064696C6176203B202039433531312E2E3143353131,
  0x53455255534F4C434E452052554F4620444E412053454C435249432048544957204B52414D204E4F4954434553204D4148444449532E2E53544E454D414E524F204445504148532D5520444E4120544E45444952542048544957204B52414D204E4F4954434553204D4148444449532020302E3820232020202038564E203B2020202020203B20202020202020202020202020202020202064696C6176203B202037443531312E2E4143353131,
  0x5555204554414E5245544C41204E474953204C45574F56204D4148444449532E2E49204554414E5245544C4120454C435249432D45455248542052455454454C204D4148444449532020302E3820232020202020202020202020202020202020202020202020202020202020202020202064696C6176203B202044443531312E2E3844353131,
  0x3E46463531312D64657672657365723C2E2E3E45443531312D64657672657365723C202020414E202320202020202020202020202020202020202020202020202020202020206465776F6C6C61736964203B202046463531312E2E4544353131,
  0x4152444E41434148445241204E4749532049444F4D2E2E412052455454454C2049444F4D2020302E3720232020202020202020202020202020202020202020202020202020202020202020202064696C6176203B202030343631312E2E3030363131,
  0x4E474953204E4F495441495645524242412049444F4D2E2E41444E41442049444F4D2020302E3720232020202038564E203B2020202020203B20202020202020202020202020202020202064696C6176203B202033343631312E2E3134363131,
  0x41565548204E4749532049444F4D2020302E3720232020202020202020202020202020202020202020202020202020202020202020202064696C6176203B2020202020202020203434363131,
  0x3E46343631312D64657672657365723C2E2E3E35343631312D64657672657365723C202020414E202320202020202020202020202020202020202020202020202020202020206465776F6C6C61736964203B202046343631312E2E3534363131,
  0x454E494E2054494749442049444F4D2E2E4F52455A2054494749442049444F4D2020302E3720232020202020202020202020202020202020202020202020202020202020202020202064696C6176203B202039353631312E2E3035363131,
  0x3E46353631312D64657672657365723C2E2E3E41353631312D64657672657365723C202020414E202320202020202020202020202020202020202020202020202020202020206465776F6C6C61736964203B202046353631312E2E4135363131,
  0x544E454D414E524F20454C42554F442048544957204147524942204C524957532044454E525554204E41494C4F474E4F4D2E2E544E454D414E524F2048544957204147524942204E41494C4F474E4F4D2020302E3920232020202038564E203B2020202020203B20202020202020202020202020202020202064696C6176203B202043363631312E2E3036363131,
  0x3E46373631312D64657672657365723C2E2E3E44363631312D64657672657365723C202020414E202320202020202020202020202020202020202020202020202020202020206465776F6C6C61736964203B202046373631312E2E4436363131,
  0x41544B554E204E4749532049524B41542E2E412052455454454C2049524B41542020312E3620232020202020202020202020202020202020202020202020202020202020202020202064696C6176203B202037423631312E2E3038363131,
  0x41484B20434941484352412052455454454C2049524B415420302E323120232020202020202020202020202020202020202020202020202020202020202020202064696C6176203B2020202020202020203842363131,
  0x3E46423631312D64657672657365723C2E2E3E39423631312D64657672657365723C202020414E202320202020202020202020202020202020202020202020202020202020206465776F6C6C61736964203B202046423631312E2E3942363131,
  0x454E494E2054494749442049524B41542E2E4F52455A2054494749442049524B41542020312E3620232020202020202020202020202020202020202020202020202020202020202020202064696C6176203B202039433631312E2E3043363131,
  0x3E46463631312D64657672657365723C2E2E3E41433631312D64657672657365723C202020414E202320202020202020202020202020202020202020202020202020202020206465776F6C6C61736964203B202046463631312E2E4143363131,
  0x41484A2052455454454C204D4F48412E2E414B2052455454454C204D4F48412020302E3820232020202020202020202020202020202020202020202020202020202020202020202064696C6176203B202039313731312E2E3030373131,
  0x4142204554414E5245544C412052455454454C204D4F484120302E313120232020202020202020202020202020202020202020202020202020202020202020202064696C6176203B2020202020202020204131373131,
  0x3E43313731312D64657672657365723C2E2E3E42313731312D64657672657365723C202020414E202320202020202020202020202020202020202020202020202020202020206465776F6C6C61736964203B202043313731312E2E4231373131,
  0x52454C4C494B204E474953204D4F48412E2E414C204C414944454D204E47495320544E414E4F534E4F43204D4F48412020302E3820232020202020202020202020202020202020202020202020202020202020202020202064696C6176203B202042323731312E2E4431373131,
  0x3E46323731312D64657672657365723C2E2E3E43323731312D64657672657365723C202020414E202320202020202020202020202020202020202020202020202020202020206465776F6C6C61736964203B202046323731312E2E4332373131,
  0x454E494E205449474944204D4F48412E2E4F52455A205449474944204D4F48412020302E3820232020202020202020202020202020202020202020202020202020202020202020202064696C6176203B202039333731312E2E3033373131,
  0x4956204C4F424D5953204D4F48412E2E4E4554205245424D554E204D4F48412020302E3820232020202038564E203B2020202020203B20202020202020202020202020202020202064696C6176203B202046333731312E2E4133373131,
  0x3E46463731312D64657672657365723C2E2E3E30343731312D64657672657365723C202020414E202320202020202020202020202020202020202020202020202020202020206465776F6C6C61736964203B202046463731312E2E3034373131,
  0x41544B554E204E474953204152474F442E2E412052455454454C204152474F4420302E313120232020202020202020202020202020202020202020202020202020202020202020202064696C6176203B202041333831312E2E3030383131,
  0x4E474953204E4F49544149564552424241204152474F4420302E313120232020202038564E203B2020202020203B20202020202020202020202020202020202064696C6176203B2020202020202020204233383131,
  0x3E46393831312D64657672657365723C2E2E3E43333831312D64657672657365723C202020414E202320202020202020202020202020202020202020202020202020202020206465776F6C6C61736964203B202046393831312E2E4333383131,
  0x4141474E2052455454454C204C415449504143204954494320474E415241572020302E3720232020202020202020203043383131203B202020202020202020202020202020202064657070616D203B2020202020202020203041383131,
  0x412052455454454C204C415449504143204954494320474E415241572020302E3720232020202020202020203143383131203B202020202020202020202020202020202064657070616D203B2020202020202020203141383131,
  0x49572052455454454C204C415449504143204954494320474E415241572020302E3720232020202020202020203243383131203B202020202020202020202020202020202064657070616D203B2020202020202020203241383131,
  0x55592052455454454C204C415449504143204954494320474E415241572020302E3720232020202020202020203343383131203B202020202020202020202020202020202064657070616D203B2020202020202020203341383131,
  0x41592052455454454C204C415449504143204954494320474E415241572020302E3720232020202020202020203443383131203B202020202020202020202020202020202064657070616D203B2020202020202020203441383131,
  0x4F592052455454454C204C415449504143204954494320474E415241572020302E3720232020202020202020203543383131203B202020202020202020202020202020202064657070616D203B2020202020202020203541383131,
  0x49492052455454454C204C415449504143204954494320474E415241572020302E3720232020202020202020203643383131203B202020202020202020202020202020202064657070616D203B2020202020202020203641383131,
  0x55552052455454454C204C415449504143204954494320474E415241572020302E3720232020202020202020203743383131203B202020202020202020202020202020202064657070616D203B2020202020202020203741383131,
  0x452052455454454C204C415449504143204954494320474E415241572020302E3720232020202020202020203843383131203B202020202020202020202020202020202064657070616D203B2020202020202020203841383131,
  0x4F2052455454454C204C415449504143204954494320474E415241572020302E3720232020202020202020203943383131203B202020202020202020202020202020202064657070616D203B2020202020202020203941383131,
  0x474E412052455454454C204C415449504143204954494320474E415241572020302E3720232020202020202020204143383131203B202020202020202020202020202020202064657070616D203B2020202020202020204141383131,
  0x41472052455454454C204C415449504143204954494320474E415241572020302E3720232020202020202020204243383131203B202020202020202020202020202020202064657070616D203B2020202020202020204241383131,
  0x4F4B2052455454454C204C415449504143204954494320474E415241572020302E3720232020202020202020204343383131203B202020202020202020202020202020202064657070616D203B2020202020202020204341383131,
  0x594E452052455454454C204C415449504143204954494320474E415241572020302E3720232020202020202020204443383131203B202020202020202020202020202020202064657070616D203B2020202020202020204441383131,
  0x4A55592052455454454C204C415449504143204954494320474E415241572020302E3720232020202020202020204543383131203B202020202020202020202020202020202064657070616D203B2020202020202020204541383131,
  0x43552052455454454C204C415449504143204954494320474E415241572020302E3720232020202020202020204643383131203B202020202020202020202020202020202064657070616D203B2020202020202020204641383131,
  0x4E4E452052455454454C204C415449504143204954494320474E415241572020302E3720232020202020202020203044383131203B202020202020202020202020202020202064657070616D203B2020202020202020203042383131,
  0x44444F2052455454454C204C415449504143204954494320474E415241572020302E3720232020202020202020203144383131203B202020202020202020202020202020202064657070616D203B2020202020202020203142383131,
  0x4554542052455454454C204C415449504143204954494320474E415241572020302E3720232020202020202020203244383131203B202020202020202020202020202020202064657070616D203B2020202020202020203242383131,
  0x474E554E2052455454454C204C415449504143204954494320474E415241572020302E3720232020202020202020203344383131203B202020202020202020202020202020202064657070616D203B2020202020202020203342383131,
  0x41442052455454454C204C415449504143204954494320474E415241572020302E3720232020202020202020203444383131203B202020202020202020202020202020202064657070616D203B2020202020202020203442383131,
  0x54412052455454454C204C415449504143204954494320474E415241572020302E3720232020202020202020203544383131203B202020202020202020202020202020202064657070616D203B2020202020202020203542383131,
  0x4D412052455454454C204C415449504143204954494320474E415241572020302E3720232020202020202020203644383131203B202020202020202020202020202020202064657070616D203B2020202020202020203642383131,
  0x55422052455454454C204C415449504143204954494320474E415241572020302E3720232020202020202020203744383131203B202020202020202020202020202020202064657070616D203B2020202020202020203742383131,
  0x55502052455454454C204C415449504143204954494320474E415241572020302E3720232020202020202020203844383131203B202020202020202020202020202020202064657070616D203B2020202020202020203842383131,
  0x4F5949482052455454454C204C415449504143204954494320474E415241572020302E3720232020202020202020203944383131203B202020202020202020202020202020202064657070616D203B2020202020202020203942383131,
  0x4F4C4F482052455454454C204C415449504143204954494320474E415241572020302E3720232020202020202020204144383131203B202020202020202020202020202020202064657070616D203B2020202020202020204142383131]

def mapText25 : List Nat := [
  0x52524F482052455454454C204C415449504143204954494320474E415241572020302E3720232020202020202020204244383131203B202020202020202020202020202020202064657070616D203B2020202020202020204242383131,
  0x5241482052455454454C204C415449504143204954494320474E415241572020302E3720232020202020202020204344383131203B202020202020202020202020202020202064657070616D203B2020202020202020204342383131,
  0x555553532052455454454C204C415449504143204954494320474E415241572020302E3720232020202020202020204444383131203B202020202020202020202020202020202064657070616D203B2020202020202020204442383131,
  0x4949532052455454454C204C415449504143204954494320474E415241572020302E3720232020202020202020204544383131203B202020202020202020202020202020202064657070616D203B2020202020202020204542383131,
  0x4F5949562052455454454C204C415449504143204954494320474E415241572020302E3720232020202020202020204644383131203B202020202020202020202020202020202064657070616D203B2020202020202020204642383131,
  0x454E494E205449474944204954494320474E415241572E2E4141474E2052455454454C204C4C414D53204954494320474E415241572020302E3720232020202020202020202020202020202020202020202020202020202020202020202064696C6176203B202039453831312E2E3043383131,
  0x5954454E494E205245424D554E204954494320474E415241572E2E4E4554205245424D554E204954494320474E415241572020302E3720232020202038564E203B2020202020203B20202020202020202020202020202020202064696C6176203B202032463831312E2E4145383131,
  0x3E45463831312D64657672657365723C2E2E3E33463831312D64657672657365723C202020414E202320202020202020202020202020202020202020202020202020202020206465776F6C6C61736964203B202045463831312E2E3346383131,
  0x4D4F204954494320474E415241572020302E3720232020202020202020202020202020202020202020202020202020202020202020202064696C6176203B2020202020202020204646383131,
  0x452052455454454C205552554B412053455649442E2E412052455454454C205552554B4120534556494420302E333120232020202020202020202020202020202020202020202020202020202020202020202064696C6176203B202036303931312E2E3030393131,
  0x3E38303931312D64657672657365723C2E2E3E37303931312D64657672657365723C202020414E202320202020202020202020202020202020202020202020202020202020206465776F6C6C61736964203B202038303931312E2E3730393131,
  0x4F2052455454454C205552554B4120534556494420302E333120232020202020202020202020202020202020202020202020202020202020202020202064696C6176203B2020202020202020203930393131,
  0x3E42303931312D64657672657365723C2E2E3E41303931312D64657672657365723C202020414E202320202020202020202020202020202020202020202020202020202020206465776F6C6C61736964203B202042303931312E2E4130393131,
  0x414A2052455454454C205552554B412053455649442E2E414B2052455454454C205552554B4120534556494420302E333120232020202020202020202020202020202020202020202020202020202020202020202064696C6176203B202033313931312E2E4330393131,
  0x3E34313931312D64657672657365723C202020414E202320202020202020202020202020202020202020202020202020202020206465776F6C6C61736964203B2020202020202020203431393131,
  0x4154542052455454454C205552554B412053455649442E2E41594E2052455454454C205552554B4120534556494420302E333120232020202020202020202020202020202020202020202020202020202020202020202064696C6176203B202036313931312E2E3531393131,
  0x3E37313931312D64657672657365723C202020414E202320202020202020202020202020202020202020202020202020202020206465776F6C6C61736964203B2020202020202020203731393131,
  0x45204E474953204C45574F56205552554B412053455649442E2E4144442052455454454C205552554B4120534556494420302E333120232020202020202020202020202020202020202020202020202020202020202020202064696C6176203B202035333931312E2E3831393131,
  0x3E36333931312D64657672657365723C202020414E202320202020202020202020202020202020202020202020202020202020206465776F6C6C61736964203B2020202020202020203633393131,
  0x4F204E474953204C45574F56205552554B412053455649442E2E4941204E474953204C45574F56205552554B4120534556494420302E333120232020202020202020202020202020202020202020202020202020202020202020202064696C6176203B202038333931312E2E3733393131,
  0x3E41333931312D64657672657365723C2E2E3E39333931312D64657672657365723C202020414E202320202020202020202020202020202020202020202020202020202020206465776F6C6C61736964203B202041333931312E2E3933393131,
  0x41544B554E204E474953205552554B412053455649442E2E4152415653554E41204E474953205552554B4120534556494420302E333120232020202020202020202020202020202020202020202020202020202020202020202064696C6176203B202033343931312E2E4233393131,
  0x4B52414D205458455420464F20444E45205552554B412053455649442E2E41444E414420454C42554F44205552554B4120534556494420302E333120232020202038564E203B2020202020203B20202020202020202020202020202020202064696C6176203B202036343931312E2E3434393131,
  0x3E46343931312D64657672657365723C2E2E3E37343931312D64657672657365723C202020414E202320202020202020202020202020202020202020202020202020202020206465776F6C6C61736964203B202046343931312E2E3734393131,
  0x454E494E205449474944205552554B412053455649442E2E4F52455A205449474944205552554B4120534556494420302E333120232020202020202020202020202020202020202020202020202020202020202020202064696C6176203B202039353931312E2E3035393131,
  0x3E46393931312D64657672657365723C2E2E3E41353931312D64657672657365723C202020414E202320202020202020202020202020202020202020202020202020202020206465776F6C6C61736964203B202046393931312E2E4135393131,
  0x52522043494C41434F562052455454454C2049524147414E49444E414E2E2E412052455454454C2049524147414E49444E414E20302E323120232020202020202020202020202020202020202020202020202020202020202020202064696C6176203B202037413931312E2E3041393131,
  0x3E39413931312D64657672657365723C2E2E3E38413931312D64657672657365723C202020414E202320202020202020202020202020202020202020202020202020202020206465776F6C6C61736964203B202039413931312E2E3841393131,
  0x52522043494C41434F56204E474953204C45574F562049524147414E49444E414E2E2E452052455454454C2049524147414E49444E414E20302E323120232020202020202020202020202020202020202020202020202020202020202020202064696C6176203B202037443931312E2E4141393131,
  0x3E39443931312D64657672657365723C2E2E3E38443931312D64657672657365723C202020414E202320202020202020202020202020202020202020202020202020202020206465776F6C6C61736964203B202039443931312E2E3844393131,
  0x4148415247415641204E4749532049524147414E49444E414E2E2E45204E474953204C45574F562049524147414E49444E414E20302E323120232020202020202020202020202020202020202020202020202020202020202020202064696C6176203B202031453931312E2E4144393131,
  0x4D414844444953204E4749532049524147414E49444E414E20302E323120232020202038564E203B2020202020203B20202020202020202020202020202020202064696C6176203B2020202020202020203245393131,
  0x4520415254414D4148544853495250204E474953204C45574F562049524147414E49444E414E2E2E454B4F525453444145482049524147414E49444E414E20302E323120232020202020202020202020202020202020202020202020202020202020202020202064696C6176203B202034453931312E2E3345393131,
  0x3E46463931312D64657672657365723C2E2E3E35453931312D64657672657365723C202020414E202320202020202020202020202020202020202020202020202020202020206465776F6C6C61736964203B202046463931312E2E3545393131,
  0x41562052455454454C204C414E49462D52455453554C43204552415551532052415A4142414E415A2E2E412052455454454C204552415551532052415A4142414E415A20302E303120232020202020202020202020202020202020202020202020202020202020202020202064696C6176203B202045334131312E2E3030413131,
  0x4B52414D20444145482044454E494C2D454C42554F4420474E49534F4C43204552415551532052415A4142414E415A2E2E4B52414D2044414548204C414954494E49204552415551532052415A4142414E415A20302E303120232020202038564E203B2020202020203B20202020202020202020202020202020202064696C6176203B202036344131312E2E4633413131,
  0x52454E494F4A425553204552415551532052415A4142414E415A20302E303120232020202020202020202020202020202020202020202020202020202020202020202064696C6176203B2020202020202020203734413131,
  0x3E46344131312D64657672657365723C2E2E3E38344131312D64657672657365723C202020414E202320202020202020202020202020202020202020202020202020202020206465776F6C6C61736964203B202046344131312E2E3834413131,
  0x4153534B2052455454454C204F424D4F594F532E2E412052455454454C204F424D4F594F5320302E303120232020202020202020202020202020202020202020202020202020202020202020202064696C6176203B202033384131312E2E3035413131,
  0x4159494E414D4844415055204E474953204F424D4F594F532E2E4159494C554D415648494A204E474953204F424D4F594F5320302E323120232020202020202020202020202020202020202020202020202020202020202020202064696C6176203B202035384131312E2E3438413131,
  0x52454E494F4A425553204F424D4F594F532E2E41522052455454454C204C414954494E492D52455453554C43204F424D4F594F5320302E303120232020202020202020202020202020202020202020202020202020202020202020202064696C6176203B202039394131312E2E3638413131,
  0x4441485320454C42554F44204B52414D204F424D4F594F532E2E4745485354204B52414D204F424D4F594F5320302E303120232020202038564E203B2020202020203B20202020202020202020202020202020202064696C6176203B202043394131312E2E4139413131,
  0x4154554C50204B52414D204F424D4F594F5320302E313120232020202020202020202020202020202020202020202020202020202020202020202064696C6176203B2020202020202020204439413131,
  0x322D4B52414D204C414E494D524554204F424D4F594F532E2E454D414C4620454C5049525420444E41204E555320444E41204E4F4F4D2048544957204B52414D2044414548204F424D4F594F5320302E303120232020202038564E203B2020202020203B20202020202020202020202020202020202064696C6176203B202032414131312E2E4539413131,
  0x3E46424131312D64657672657365723C2E2E3E33414131312D64657672657365723C202020414E202320202020202020202020202020202020202020202020202020202020206465776F6C6C61736964203B202046424131312E2E3341413131,
  0x4C414E494620504F5453204C4154544F4C4720554148204E4943205541502E2E41502052455454454C20554148204E4943205541502020302E3720232020202020202020202020202020202020202020202020202020202020202020202064696C6176203B202038464131312E2E3043413131,
  0x3E46464231312D64657672657365723C2E2E3E39464131312D64657672657365723C202020414E202320202020202020202020202020202020202020202020202020202020206465776F6C6C61736964203B202046464231312E2E3946413131,
  0x4C2043494C41434F562052455454454C20494B55534B494148422E2E412052455454454C20494B55534B494148422020302E3920232020202020202020202020202020202020202020202020202020202020202020202064696C6176203B202038304331312E2E3030433131,
  0x3E39304331312D64657672657365723C202020414E202320202020202020202020202020202020202020202020202020202020206465776F6C6C61736964203B2020202020202020203930433131,
  0x4C2043494C41434F56204E474953204C45574F5620494B55534B494148422E2E452052455454454C20494B55534B494148422020302E3920232020202020202020202020202020202020202020202020202020202020202020202064696C6176203B202036334331312E2E4130433131,
  0x3E37334331312D64657672657365723C202020414E202320202020202020202020202020202020202020202020202020202020206465776F6C6C61736964203B2020202020202020203733433131,
  0x4148415247415641204E47495320494B55534B494148422E2E45204E474953204C45574F5620494B55534B494148422020302E3920232020202020202020202020202020202020202020202020202020202020202020202064696C6176203B202030344331312E2E3833433131,
  0x322D52454C4C49462050414720494B55534B494148422E2E41444E414420494B55534B494148422020302E3920232020202038564E203B2020202020203B20202020202020202020202020202020202064696C6176203B202035344331312E2E3134433131,
  0x3E46344331312D64657672657365723C2E2E3E36344331312D64657672657365723C202020414E202320202020202020202020202020202020202020202020202020202020206465776F6C6C61736964203B202046344331312E2E3634433131,
  0x454E494E20544947494420494B55534B494148422E2E4F52455A20544947494420494B55534B494148422020302E3920232020202020202020202020202020202020202020202020202020202020202020202064696C6176203B202039354331312E2E3035433131,
  0x4B52414D2054494E552053444552444E554820494B55534B494148422E2E454E4F205245424D554E20494B55534B494148422020302E3920232020202038564E203B2020202020203B20202020202020202020202020202020202064696C6176203B202043364331312E2E4135433131,
  0x3E46364331312D64657672657365723C2E2E3E44364331312D64657672657365723C202020414E202320202020202020202020202020202020202020202020202020202020206465776F6C6C61736964203B202046364331312E2E4436433131,
  0x44414853204B52414D204E45484352414D2E2E4B52414D2044414548204E45484352414D2020302E3920232020202038564E203B2020202020203B20202020202020202020202020202020202064696C6176203B202031374331312E2E3037433131,
  0x412052455454454C204E45484352414D2E2E414B2052455454454C204E45484352414D2020302E3920232020202020202020202020202020202020202020202020202020202020202020202064696C6176203B202046384331312E2E3237433131,
  0x3E31394331312D64657672657365723C2E2E3E30394331312D64657672657365723C202020414E202320202020202020202020202020202020202020202020202020202020206465776F6C6C61736964203B202031394331312E2E3039433131,
  0x415A2052455454454C2044454E494F4A425553204E45484352414D2E2E414B2052455454454C2044454E494F4A425553204E45484352414D2020302E3920232020202020202020202020202020202020202020202020202020202020202020202064696C6176203B202037414331312E2E3239433131,
  0x3E38414331312D64657672657365723C202020414E202320202020202020202020202020202020202020202020202020202020206465776F6C6C61736964203B2020202020202020203841433131,
  0x55444E49424152444E4143204E474953204E45484352414D2E2E41592052455454454C2044454E494F4A425553204E45484352414D2020302E3920232020202020202020202020202020202020202020202020202020202020202020202064696C6176203B202036424331312E2E3941433131,
  0x3E46464331312D64657672657365723C2E2E3E37424331312D64657672657365723C202020414E202320202020202020202020202020202020202020202020202020202020206465776F6C6C61736964203B202046464331312E2E3742433131,
  0x452052455454454C2049444E4F47204D41524153414D2E2E412052455454454C2049444E4F47204D41524153414D20302E303120232020202020202020202020202020202020202020202020202020202020202020202064696C6176203B202036304431312E2E3030443131,
  0x3E37304431312D64657672657365723C202020414E202320202020202020202020202020202020202020202020202020202020206465776F6C6C61736964203B2020202020202020203730443131,
  0x4F2052455454454C2049444E4F47204D41524153414D2E2E49412052455454454C2049444E4F47204D41524153414D20302E303120232020202020202020202020202020202020202020202020202020202020202020202064696C6176203B202039304431312E2E3830443131,
  0x3E41304431312D64657672657365723C202020414E202320202020202020202020202020202020202020202020202020202020206465776F6C6C61736964203B2020202020202020204130443131,
  0x522043494C41434F56204E474953204C45574F562049444E4F47204D41524153414D2E2E55412052455454454C2049444E4F47204D41524153414D20302E303120232020202020202020202020202020202020202020202020202020202020202020202064696C6176203B202036334431312E2E4230443131,
  0x3E39334431312D64657672657365723C2E2E3E37334431312D64657672657365723C202020414E202320202020202020202020202020202020202020202020202020202020206465776F6C6C61736964203B202039334431312E2E3733443131,
  0x45204E474953204C45574F562049444E4F47204D41524153414D20302E303120232020202020202020202020202020202020202020202020202020202020202020202064696C6176203B2020202020202020204133443131,
  0x3E42334431312D64657672657365723C202020414E202320202020202020202020202020202020202020202020202020202020206465776F6C6C61736964203B2020202020202020204233443131,
  0x4F204E474953204C45574F562049444E4F47204D41524153414D2E2E4941204E474953204C45574F562049444E4F47204D41524153414D20302E303120232020202020202020202020202020202020202020202020202020202020202020202064696C6176203B202044334431312E2E4333443131,
  0x3E45334431312D64657672657365723C202020414E202320202020202020202020202020202020202020202020202020202020206465776F6C6C61736964203B2020202020202020204533443131,
  0x4152414B2D41522049444E4F47204D41524153414D2E2E5541204E474953204C45574F562049444E4F47204D41524153414D20302E303120232020202020202020202020202020202020202020202020202020202020202020202064696C6176203B202037344431312E2E4633443131,
  0x3E46344431312D64657672657365723C2E2E3E38344431312D64657672657365723C202020414E202320202020202020202020202020202020202020202020202020202020206465776F6C6C61736964203B202046344431312E2E3834443131,
  0x454E494E2054494749442049444E4F47204D41524153414D2E2E4F52455A2054494749442049444E4F47204D41524153414D20302E303120232020202020202020202020202020202020202020202020202020202020202020202064696C6176203B202039354431312E2E3035443131,
  0x3E46354431312D64657672657365723C2E2E3E41354431312D64657672657365723C202020414E202320202020202020202020202020202020202020202020202020202020206465776F6C6C61736964203B202046354431312E2E4135443131,
  0x55552052455454454C2049444E4F4720414C414A4E55472E2E412052455454454C2049444E4F4720414C414A4E554720302E313120232020202020202020202020202020202020202020202020202020202020202020202064696C6176203B202035364431312E2E3036443131,
  0x3E36364431312D64657672657365723C202020414E202320202020202020202020202020202020202020202020202020202020206465776F6C6C61736964203B2020202020202020203636443131,
  0x49412052455454454C2049444E4F4720414C414A4E55472E2E45452052455454454C2049444E4F4720414C414A4E554720302E313120232020202020202020202020202020202020202020202020202020202020202020202064696C6176203B202038364431312E2E3736443131,
  0x3E39364431312D64657672657365723C202020414E202320202020202020202020202020202020202020202020202020202020206465776F6C6C61736964203B2020202020202020203936443131,
  0x5555204E474953204C45574F562049444E4F4720414C414A4E55472E2E4F4F2052455454454C2049444E4F4720414C414A4E554720302E313120232020202020202020202020202020202020202020202020202020202020202020202064696C6176203B202045384431312E2E4136443131,
  0x3E46384431312D64657672657365723C202020414E202320202020202020202020202020202020202020202020202020202020206465776F6C6C61736964203B2020202020202020204638443131,
  0x4941204E474953204C45574F562049444E4F4720414C414A4E55472E2E4545204E474953204C45574F562049444E4F4720414C414A4E554720302E313120232020202020202020202020202020202020202020202020202020202020202020202064696C6176203B202031394431312E2E3039443131,
  0x3E32394431312D64657672657365723C202020414E202320202020202020202020202020202020202020202020202020202020206465776F6C6C61736964203B2020202020202020203239443131,
  0x4D4F2049444E4F4720414C414A4E55472E2E4F4F204E474953204C45574F562049444E4F4720414C414A4E554720302E313120232020202020202020202020202020202020202020202020202020202020202020202064696C6176203B202038394431312E2E3339443131,
  0x3E46394431312D64657672657365723C2E2E3E39394431312D64657672657365723C202020414E202320202020202020202020202020202020202020202020202020202020206465776F6C6C61736964203B202046394431312E2E3939443131,
  0x454E494E2054494749442049444E4F4720414C414A4E55472E2E4F52455A2054494749442049444E4F4720414C414A4E554720302E313120232020202020202020202020202020202020202020202020202020202020202020202064696C6176203B202039414431312E2E3041443131,
  0x3E46444531312D64657672657365723C2E2E3E41414431312D64657672657365723C202020414E202320202020202020202020202020202020202020202020202020202020206465776F6C6C61736964203B202046444531312E2E4141443131,
  0x4F204E474953204C45574F5620524153414B414D2E2E414B2052455454454C20524153414B414D20302E313120232020202020202020202020202020202020202020202020202020202020202020202064696C6176203B202036464531312E2E3045453131,
  0x4E4F495443455320464F20444E4520524153414B414D2E2E474E41424D495353415020524153414B414D20302E313120232020202038564E203B2020202020203B20202020202020202020202020202020202064696C6176203B202038464531312E2E3746453131,
  0x3E46414631312D64657672657365723C2E2E3E39464531312D64657672657365723C202020414E202320202020202020202020202020202020202020202020202020202020206465776F6C6C61736964203B202046414631312E2E3946453131,
  0x4148592052455454454C205553494C20302E333120232020202020202020202020202020202020202020202020202020202020202020202064696C6176203B2020202020202020203042463131,
  0x3E46424631312D64657672657365723C2E2E3E31424631312D64657672657365723C202020414E202320202020202020202020202020202020202020202020202020202020206465776F6C6C61736964203B202046424631312E2E3142463131,
  0x414152415949414B4156204E474953204C494D41542E2E48544549544E4557542D444E412D444552444E55482D454552485420454E4F204E4F495443415246204C494D415420302E323120232020202038564E203B2020202020203B20202020202020202020202020202020202064696C6176203B202031464631312E2E3043463131,
  0x3E45464631312D64657672657365723C2E2E3E32464631312D64657672657365723C202020414E202320202020202020202020202020202020202020202020202020202020206465776F6C6C61736964203B202045464631312E2E3246463131,
  0x5458455420464F20444E45204E4F4954415554434E5550204C494D415420302E323120232020202038564E203B2020202020203B20202020202020202020202020202020202064696C6176203B2020202020202020204646463131,
  0x4D555A204E474953204D524F4649454E55432E2E41204E474953204D524F4649454E55432020302E3520232020202020202020202020202020202020202020202020202020202020202020202064696C6176203B202045363332312E2E3030303231,
  0x454D2053454D4954204D55204E474953204D524F4649454E55432E2E4554494D414C452050414B204E474953204D524F4649454E55432020302E3720232020202020202020202020202020202020202020202020202020202020202020202064696C6176203B202038393332312E2E4636333231,
  0x552055204E474953204D524F4649454E55432020302E3820232020202020202020202020202020202020202020202020202020202020202020202064696C6176203B2020202020202020203939333231,
  0x3E46463332312D64657672657365723C2E2E3E41393332312D64657672657365723C202020414E202320202020202020202020202020202020202020202020202020202020206465776F6C6C61736964203B202046463332312E2E4139333231,
  0x5245545241555120454E4F204E4149525953534120444C4F204E47495320434952454D554E204D524F4649454E55432E2E485341204F5754204E47495320434952454D554E204D524F4649454E55432020302E3520232020202038564E203B2020202020203B20202020202020202020202020202020202064696C6176203B202032363432312E2E3030343231,
  0x4D524F4620544E4149524156205520454E494E204E47495320434952454D554E204D524F4649454E55432E2E525547205245545241555120454E4F204E47495320434952454D554E204D524F4649454E55432020302E3720232020202038564E203B2020202020203B20202020202020202020202020202020202064696C6176203B202045363432312E2E3336343231,
  0x3E46363432312D64657672657365723C202020414E202320202020202020202020202020202020202020202020202020202020206465776F6C6C61736964203B2020202020202020204636343231,
  0x4E4F4C4F43495254204C414E4F47414944204E474953204E4F4954415554434E5550204D524F4649454E55432E2E524544495649442044524F57204E4149525953534120444C4F204E474953204E4F4954415554434E5550204D524F4649454E55432020302E3520232020202038564E203B2020202020203B20202020202020202020202020202020202064696C6176203B202033373432312E2E3037343231,
  0x4E4F4C4F4344415551204C414E4F47414944204E474953204E4F4954415554434E5550204D524F4649454E55432020302E3720232020202038564E203B2020202020203B20202020202020202020202020202020202064696C6176203B2020202020202020203437343231,
  0x3E46373432312D64657672657365723C2E2E3E35373432312D64657672657365723C202020414E202320202020202020202020202020202020202020202020202020202020206465776F6C6C61736964203B202046373432312E2E3537343231,
  0x554E455420485349442045455248542053454D49542035555A204E474953204D524F4649454E55432E2E554E4554204E554E2053454D4954204241204E474953204D524F4649454E55432020302E3820232020202020202020202020202020202020202020202020202020202020202020202064696C6176203B202033343532312E2E3038343231,
  0x3E46464632312D64657672657365723C2E2E3E34343532312D64657672657365723C202020414E202320202020202020202020202020202020202020202020202020202020206465776F6C6C61736964203B202046464632312E2E3434353231,
  0x3233304141204850594C474F52454948204E414954505947452E2E31303041204850594C474F52454948204E414954505947452020322E3520232020202020202020202020202020202020202020202020202020202020202020202064696C6176203B202045323433312E2E3030303331,
  0x3E46323433312D64657672657365723C202020414E202320202020202020202020202020202020202020202020202020202020206465776F6C6C61736964203B2020202020202020204632343331,
  0x544E454D47455320444E45204850594C474F52454948204E414954505947452E2E52454E494F4A204C41434954524556204850594C474F52454948204E4149545059474520302E3231202320202020202020202020202020202020202020202020202020202020206465776F6C6C61736964203B202038333433312E2E3033343331,
  0x3E46463334312D64657672657365723C2E2E3E39333433312D64657672657365723C202020414E202320202020202020202020202020202020202020202020202020202020206465776F6C6C61736964203B202046463334312E2E3933343331,
  0x30333541204850594C474F52454948204E41494C4F54414E412E2E31303041204850594C474F52454948204E41494C4F54414E412020302E3820232020202020202020202020202020202020202020202020202020202020202020202064696C6176203B202036343634312E2E3030343431,
  0x3E46463736312D64657672657365723C2E2E3E37343634312D64657672657365723C202020414E202320202020202020202020202020202020202020202020202020202020206465776F6C6C61736964203B202046463736312E2E3734363431,
  0x5145555620462D45534148502052455454454C204D554D41422E2E4E4F464D2045554B474E20412D45534148502052455454454C204D554D41422020302E3620232020202020202020202020202020202020202020202020202020202020202020202064696C6176203B202038334136312E2E3030383631,
  0x3E46334136312D64657672657365723C2E2E3E39334136312D64657672657365723C202020414E202320202020202020202020202020202020202020202020202020202020206465776F6C6C61736964203B202046334136312E2E3933413631,
  0x4B45542052455454454C204F524D2E2E41542052455454454C204F524D2020302E3720232020202020202020202020202020202020202020202020202020202020202020202064696C6176203B202045354136312E2E3034413631,
  0x3E46354136312D64657672657365723C202020414E202320202020202020202020202020202020202020202020202020202020206465776F6C6C61736964203B2020202020202020204635413631,
  0x454E494E205449474944204F524D2E2E4F52455A205449474944204F524D2020302E3720232020202020202020202020202020202020202020202020202020202020202020202064696C6176203B202039364136312E2E3036413631,
  0x3E44364136312D64657672657365723C2E2E3E41364136312D64657672657365723C202020414E202320202020202020202020202020202020202020202020202020202020206465776F6C6C61736964203B202044364136312E2E4136413631,
  0x41444E414420454C42554F44204F524D2E2E41444E4144204F524D2020302E3720232020202038564E203B2020202020203B20202020202020202020202020202020202064696C6176203B202046364136312E2E4536413631,
  0x3E46434136312D64657672657365723C2E2E3E30374136312D64657672657365723C202020414E202320202020202020202020202020202020202020202020202020202020206465776F6C6C61736964203B202046434136312E2E3037413631,
  0x492052455454454C204841562041535341422E2E494E4E452052455454454C204841562041535341422020302E3720232020202020202020202020202020202020202020202020202020202020202020202064696C6176203B202044454136312E2E3044413631,
  0x3E46454136312D64657672657365723C2E2E3E45454136312D64657672657365723C202020414E202320202020202020202020202020202020202020202020202020202020206465776F6C6C61736964203B202046454136312E2E4545413631,
  0x454E4F5420574F4C2D4847494820474E494E49424D4F43204841562041535341422E2E454E4F54204847494820474E494E49424D4F43204841562041535341422020302E3720232020202020202020202020202020202020202020202020202020202020202020202064696C6176203B202034464136312E2E3046413631,
  0x504F5453204C4C5546204841562041535341422020302E3720232020202038564E203B2020202020203B20202020202020202020202020202020202064696C6176203B2020202020202020203546413631,
  0x3E46464136312D64657672657365723C2E2E3E36464136312D64657672657365723C202020414E202320202020202020202020202020202020202020202020202020202020206465776F6C6C61736964203B202046464136312E2E3646413631,
  0x4D554154204D4943204B52414D20474E4F4D48204857414841502E2E4245454B204C45574F5620474E4F4D48204857414841502020302E3720232020202020202020202020202020202020202020202020202020202020202020202064696C6176203B202036334236312E2E3030423631,
  0x42494146204D45455958204E47495320474E4F4D48204857414841502E2E4D4F485420534F56204E47495320474E4F4D48204857414841502020302E3720232020202038564E203B2020202020203B20202020202020202020202020202020202064696C6176203B202046334236312E2E3733423631,
  0x4D4159204249204E47495320474E4F4D48204857414841502E2E5645455320534F56204E47495320474E4F4D48204857414841502020302E3720232020202020202020202020202020202020202020202020202020202020202020202064696C6176203B202033344236312E2E3034423631,
  0x474F5220564F5354204D4943204E47495320474E4F4D48204857414841502E2E53554158204E47495320474E4F4D48204857414841502020302E3720232020202038564E203B2020202020203B20202020202020202020202020202020202064696C6176203B202035344236312E2E3434423631,
  0x3E46344236312D64657672657365723C2E2E3E36344236312D64657672657365723C202020414E202320202020202020202020202020202020202020202020202020202020206465776F6C6C61736964203B202046344236312E2E3634423631,
  0x454E494E20544947494420474E4F4D48204857414841502E2E4F52455A20544947494420474E4F4D48204857414841502020302E3720232020202020202020202020202020202020202020202020202020202020202020202064696C6176203B202039354236312E2E3035423631,
  0x3E41354236312D64657672657365723C202020414E202320202020202020202020202020202020202020202020202020202020206465776F6C6C61736964203B2020202020202020204135423631,
  0x534E4F494C4C495254205245424D554E20474E4F4D48204857414841502E2E534E4554205245424D554E20474E4F4D48204857414841502020302E3720232020202038564E203B2020202020203B20202020202020202020202020202020202064696C6176203B202031364236312E2E4235423631,
  0x3E32364236312D64657672657365723C202020414E202320202020202020202020202020202020202020202020202020202020206465776F6C6C61736964203B2020202020202020203236423631,
  0x534F54205345524E204D4943204E47495320474E4F4D48204857414841502E2E42554C20534F56204E47495320474E4F4D48204857414841502020302E3720232020202020202020202020202020202020202020202020202020202020202020202064696C6176203B202037374236312E2E3336423631,
  0x3E43374236312D64657672657365723C2E2E3E38374236312D64657672657365723C202020414E202320202020202020202020202020202020202020202020202020202020206465776F6C6C61736964203B202043374236312E2E3837423631,
  0x4A5756204E474953204E414C4320474E4F4D48204857414841502E2E4A4545485354204E474953204E414C4320474E4F4D48204857414841502020302E3720232020202020202020202020202020202020202020202020202020202020202020202064696C6176203B202046384236312E2E4437423631,
  0x3E46334536312D64657672657365723C2E2E3E30394236312D64657672657365723C202020414E202320202020202020202020202020202020202020202020202020202020206465776F6C6C61736964203B202046334536312E2E3039423631,
  0x4D2052455454454C204C415449504143204E4952444941464544454D20302E313120232020202020202020203036453631203B202020202020202020202020202020202064657070616D203B2020202020202020203034453631,
  0x532052455454454C204C415449504143204E4952444941464544454D20302E313120232020202020202020203136453631203B202020202020202020202020202020202064657070616D203B2020202020202020203134453631,
  0x562052455454454C204C415449504143204E4952444941464544454D20302E313120232020202020202020203236453631203B202020202020202020202020202020202064657070616D203B2020202020202020203234453631,
  0x572052455454454C204C415449504143204E4952444941464544454D20302E313120232020202020202020203336453631203B202020202020202020202020202020202064657070616D203B2020202020202020203334453631,
  0x554954412052455454454C204C415449504143204E4952444941464544454D20302E313120232020202020202020203436453631203B202020202020202020202020202020202064657070616D203B2020202020202020203434453631,
  0x5A2052455454454C204C415449504143204E4952444941464544454D20302E313120232020202020202020203536453631203B202020202020202020202020202020202064657070616D203B2020202020202020203534453631,
  0x504B2052455454454C204C415449504143204E4952444941464544454D20302E313120232020202020202020203636453631203B202020202020202020202020202020202064657070616D203B2020202020202020203634453631,
  0x502052455454454C204C415449504143204E4952444941464544454D20302E313120232020202020202020203736453631203B202020202020202020202020202020202064657070616D203B2020202020202020203734453631,
  0x542052455454454C204C415449504143204E4952444941464544454D20302E313120232020202020202020203836453631203B202020202020202020202020202020202064657070616D203B2020202020202020203834453631,
  0x472052455454454C204C415449504143204E4952444941464544454D20302E313120232020202020202020203936453631203B202020202020202020202020202020202064657070616D203B2020202020202020203934453631,
  0x462052455454454C204C415449504143204E4952444941464544454D20302E313120232020202020202020204136453631203B202020202020202020202020202020202064657070616D203B2020202020202020204134453631,
  0x492052455454454C204C415449504143204E4952444941464544454D20302E313120232020202020202020204236453631203B202020202020202020202020202020202064657070616D203B2020202020202020204234453631,
  0x4B2052455454454C204C415449504143204E4952444941464544454D20302E313120232020202020202020204336453631203B202020202020202020202020202020202064657070616D203B2020202020202020204334453631,
  0x412052455454454C204C415449504143204E4952444941464544454D20302E313120232020202020202020204436453631203B202020202020202020202020202020202064657070616D203B2020202020202020204434453631,
  0x4A2052455454454C204C415449504143204E4952444941464544454D20302E313120232020202020202020204536453631203B202020202020202020202020202020202064657070616D203B2020202020202020204534453631,
  0x452052455454454C204C415449504143204E4952444941464544454D20302E313120232020202020202020204636453631203B202020202020202020202020202020202064657070616D203B2020202020202020204634453631,
  0x422052455454454C204C415449504143204E4952444941464544454D20302E313120232020202020202020203037453631203B202020202020202020202020202020202064657070616D203B2020202020202020203035453631,
  0x432052455454454C204C415449504143204E4952444941464544454D20302E313120232020202020202020203137453631203B202020202020202020202020202020202064657070616D203B2020202020202020203135453631,
  0x552052455454454C204C415449504143204E4952444941464544454D20302E313120232020202020202020203237453631203B202020202020202020202020202020202064657070616D203B2020202020202020203235453631,
  0x55592052455454454C204C415449504143204E4952444941464544454D20302E313120232020202020202020203337453631203B202020202020202020202020202020202064657070616D203B2020202020202020203335453631,
  0x4C2052455454454C204C415449504143204E4952444941464544454D20302E313120232020202020202020203437453631203B202020202020202020202020202020202064657070616D203B2020202020202020203435453631,
  0x512052455454454C204C415449504143204E4952444941464544454D20302E313120232020202020202020203537453631203B202020202020202020202020202020202064657070616D203B2020202020202020203535453631,
  0x50482052455454454C204C415449504143204E4952444941464544454D20302E313120232020202020202020203637453631203B202020202020202020202020202020202064657070616D203B2020202020202020203635453631,
  0x594E2052455454454C204C415449504143204E4952444941464544454D20302E313120232020202020202020203737453631203B202020202020202020202020202020202064657070616D203B2020202020202020203735453631,
  0x582052455454454C204C415449504143204E4952444941464544454D20302E313120232020202020202020203837453631203B202020202020202020202020202020202064657070616D203B2020202020202020203835453631,
  0x442052455454454C204C415449504143204E4952444941464544454D20302E313120232020202020202020203937453631203B202020202020202020202020202020202064657070616D203B2020202020202020203935453631,
  0x454F2052455454454C204C415449504143204E4952444941464544454D20302E313120232020202020202020204137453631203B202020202020202020202020202020202064657070616D203B2020202020202020204135453631,
  0x4E2052455454454C204C415449504143204E4952444941464544454D20302E313120232020202020202020204237453631203B202020202020202020202020202020202064657070616D203B2020202020202020204235453631,
  0x522052455454454C204C415449504143204E4952444941464544454D20302E313120232020202020202020204337453631203B202020202020202020202020202020202064657070616D203B2020202020202020204335453631,
  0x4F2052455454454C204C415449504143204E4952444941464544454D20302E313120232020202020202020204437453631203B202020202020202020202020202020202064657070616D203B2020202020202020204435453631,
  0x49412052455454454C204C415449504143204E4952444941464544454D20302E313120232020202020202020204537453631203B202020202020202020202020202020202064657070616D203B2020202020202020204535453631,
  0x592052455454454C204C415449504143204E4952444941464544454D20302E313120232020202020202020204637453631203B202020202020202020202020202020202064657070616D203B2020202020202020204635453631,
  0x592052455454454C204C4C414D53204E4952444941464544454D2E2E4D2052455454454C204C4C414D53204E4952444941464544454D20302E313120232020202020202020202020202020202020202020202020202020202020202020202064696C6176203B202046374536312E2E3036453631,
  0x484F204E4F4954414D414C435845204E4952444941464544454D2E2E4F52455A205449474944204E4952444941464544454D20302E313120232020202038564E203B2020202020203B20202020202020202020202020202020202064696C6176203B202041394536312E2E3038453631,
  0x3E46464536312D64657672657365723C2E2E3E42394536312D64657672657365723C202020414E202320202020202020202020202020202020202020202020202020202020206465776F6C6C61736964203B202046464536312E2E4239453631,
  0x4148482052455454454C204F41494D2E2E41502052455454454C204F41494D2020312E3620232020202020202020202020202020202020202020202020202020202020202020202064696C6176203B202034344636312E2E3030463631,
  0x4554522052455454454C204F41494D2E2E4952422052455454454C204F41494D20302E323120232020202020202020202020202020202020202020202020202020202020202020202064696C6176203B202041344636312E2E3534463631,
  0x3E45344636312D64657672657365723C2E2E3E42344636312D64657672657365723C202020414E202320202020202020202020202020202020202020202020202020202020206465776F6C6C61736964203B202045344636312E2E4234463631,
  0x524142205245494649444F4D20544E414E4F534E4F43204E474953204F41494D20302E323120232020202020202020202020202020202020202020202020202020202020202020202064696C6176203B2020202020202020204634463631,
  0x474E204E474953204C45574F56204F41494D2E2E4E4F4954415A494C4153414E2052455454454C204F41494D2020312E3620232020202020202020202020202020202020202020202020202020202020202020202064696C6176203B202045374636312E2E3035463631,
  0x4955204E474953204C45574F56204F41494D2E2E474F55204E474953204C45574F56204F41494D20302E323120232020202020202020202020202020202020202020202020202020202020202020202064696C6176203B202037384636312E2E4637463631,
  0x3E45384636312D64657672657365723C2E2E3E38384636312D64657672657365723C202020414E202320202020202020202020202020202020202020202020202020202020206465776F6C6C61736964203B202045384636312E2E3838463631,
  0x382D454E4F542044454D524F4645522052455454454C204F41494D2E2E544847495220454E4F54204F41494D2020312E3620232020202020202020202020202020202020202020202020202020202020202020202064696C6176203B202046394636312E2E4638463631,
  0x3E46444636312D64657672657365723C2E2E3E30414636312D64657672657365723C202020414E202320202020202020202020202020202020202020202020202020202020206465776F6C6C61736964203B202046444636312E2E3041463631,
  0x4B52414D204E4F49544152455449205455474E41542020302E3920232020202020202020202020202020202020202020202020202020202020202020202064696C6176203B2020202020202020203045463631,
  0x4B52414D204E4F4954415245544920554853554E20302E303120232020202020202020202020202020202020202020202020202020202020202020202064696C6176203B2020202020202020203145463631,
  0x4B52414D204B4F4F48204553454E49484320444C4F20302E323120232020202038564E203B2020202020203B20202020202020202020202020202020202064696C6176203B2020202020202020203245463631,
  0x4B52414D204E4F49544152455449204553454E49484320444C4F20302E323120232020202020202020202020202020202020202020202020202020202020202020202064696C6176203B2020202020202020203345463631,
  0x52454C4C494620545049524353204C4C414D53204E415449484B20302E333120232020202020202020202020202020202020202020202020202020202020202020202064696C6176203B2020202020202020203445463631,
  0x3E46454636312D64657672657365723C2E2E3E35454636312D64657672657365723C202020414E202320202020202020202020202020202020202020202020202020202020206465776F6C6C61736964203B202046454636312E2E3545463631,
  0x5941484E204B52414D20474E4944414552204554414E5245544C41204553454D414E544549562E2E4143204B52414D20474E4944414552204554414E5245544C41204553454D414E5445495620302E333120232020202020202020202020202020202020202020202020202020202020202020202064696C6176203B202031464636312E2E3046463631,
  0x3E46464636312D64657672657365723C2E2E3E32464636312D64657672657365723C202020414E202320202020202020202020202020202020202020202020202020202020206465776F6C6C61736964203B202046464636312E2E3246463631,
  0x43453738312D48504152474F454449205455474E41542E2E30303037312D48504152474F454449205455474E41542020302E3920232020202020202020202020202020202020202020202020202020202020202020202064696C6176203B202043453738312E2E3030303731,
  0x31463738312D48504152474F454449205455474E41542E2E44453738312D48504152474F454449205455474E415420302E313120232020202020202020202020202020202020202020202020202020202020202020202064696C6176203B202031463738312E2E4445373831,
  0x37463738312D48504152474F454449205455474E41542E2E32463738312D48504152474F454449205455474E415420302E323120232020202020202020202020202020202020202020202020202020202020202020202064696C6176203B202037463738312E2E3246373831,
  0x3E46463738312D64657672657365723C2E2E3E38463738312D64657672657365723C202020414E202320202020202020202020202020202020202020202020202020202020206465776F6C6C61736964203B202046463738312E2E3846373831,
  0x3535372D544E454E4F504D4F43205455474E41542E2E3130302D544E454E4F504D4F43205455474E41542020302E3920232020202020202020202020202020202020202020202020202020202020202020202064696C6176203B202032464138312E2E3030383831,
  0x35444338312D52455443415241484320545049524353204C4C414D53204E415449484B2E2E3635372D544E454E4F504D4F43205455474E415420302E333120232020202020202020202020202020202020202020202020202020202020202020202064696C6176203B202035444338312E2E3346413831,
  0x3E46464338312D64657672657365723C2E2E3E36444338312D64657672657365723C202020414E202320202020202020202020202020202020202020202020202020202020206465776F6C6C61736964203B202046464338312E2E3644433831,
  0x38304438312D48504152474F454449205455474E41542E2E30304438312D48504152474F454449205455474E415420302E333120232020202020202020202020202020202020202020202020202020202020202020202064696C6176203B202038304438312E2E3030443831,
  0x3E46464641312D64657672657365723C2E2E3E39304438312D64657672657365723C202020414E202320202020202020202020202020202020202020202020202020202020206465776F6C6C61736964203B202046464641312E2E3930443831,
  0x455920434941484352412052455454454C20414E4147415249482E2E4520434941484352412052455454454C20414E414B4154414B2020302E3620232020202020202020202020202020202020202020202020202020202020202020202064696C6176203B202031303042312E2E3030304231,
  0x322D4F4D2D554D2D4E2052455454454C20414E41474941544E45482E2E312D412052455454454C20414E41474941544E454820302E303120232020202020202020202020202020202020202020202020202020202020202020202064696C6176203B202045313142312E2E3230304231,
  0x3E46343142312D64657672657365723C2E2E3E46313142312D64657672657365723C202020414E202320202020202020202020202020202020202020202020202020202020206465776F6C6C61736964203B202046343142312E2E4631314231,
  0x4F57204C4C414D532052455454454C20414E4147415249482E2E4957204C4C414D532052455454454C20414E41474152494820302E323120232020202020202020202020202020202020202020202020202020202020202020202064696C6176203B202032353142312E2E3035314231,
  0x3E33363142312D64657672657365723C2E2E3E33353142312D64657672657365723C202020414E202320202020202020202020202020202020202020202020202020202020206465776F6C6C61736964203B202033363142312E2E3335314231,
  0x4E204C4C414D532052455454454C20414E414B4154414B2E2E4957204C4C414D532052455454454C20414E414B4154414B20302E323120232020202020202020202020202020202020202020202020202020202020202020202064696C6176203B202037363142312E2E3436314231,
  0x3E46363142312D64657672657365723C2E2E3E38363142312D64657672657365723C202020414E202320202020202020202020202020202020202020202020202020202020206465776F6C6C61736964203B202046363142312E2E3836314231,
  0x42463242312D52455443415241484320554853554E2E2E30373142312D52455443415241484320554853554E20302E303120232020202020202020202020202020202020202020202020202020202020202020202064696C6176203B202042463242312E2E3037314231,
  0x3E46464242312D64657672657365723C2E2E3E43463242312D64657672657365723C202020414E202320202020202020202020202020202020202020202020202020202020206465776F6C6C61736964203B202046464242312E2E4346324231,
  0x4D2043494C41434F562052455454454C204E41594F4C5055442E2E482052455454454C204E41594F4C5055442020302E3720232020202020202020202020202020202020202020202020202020202020202020202064696C6176203B202041364342312E2E3030434231,
  0x3E46364342312D64657672657365723C2E2E3E42364342312D64657672657365723C202020414E202320202020202020202020202020202020202020202020202020202020206465776F6C6C61736964203B202046364342312E2E4236434231,
  0x4B4F4F4820544E45474E4154204445484341545441205849464641204E41594F4C5055442E2E544E41434553204C41544E4F5A49524F48205446454C205849464641204E41594F4C5055442020302E3720232020202020202020202020202020202020202020202020202020202020202020202064696C6176203B202043374342312E2E3037434231,
  0x3E46374342312D64657672657365723C2E2E3E44374342312D64657672657365723C202020414E202320202020202020202020202020202020202020202020202020202020206465776F6C6C61736964203B202046374342312E2E4437434231,
  0x4C414349545245562048474948205849464641204E41594F4C5055442E2E45545543412048474948205849464641204E41594F4C5055442020302E3720232020202020202020202020202020202020202020202020202020202020202020202064696C6176203B202038384342312E2E3038434231,
  0x3E46384342312D64657672657365723C2E2E3E39384342312D64657672657365723C202020414E202320202020202020202020202020202020202020202020202020202020206465776F6C6C61736964203B202046384342312E2E3938434231,
  0x574F52524120574F4C205849464641204E41594F4C5055442E2E455455434120574F4C205849464641204E41594F4C5055442020302E3720232020202020202020202020202020202020202020202020202020202020202020202064696C6176203B202039394342312E2E3039434231,
  0x3E42394342312D64657672657365723C2E2E3E41394342312D64657672657365723C202020414E202320202020202020202020202020202020202020202020202020202020206465776F6C6C61736964203B202042394342312E2E4139434231,
  0x53534F52432048544957204F204E474953204E41594F4C5055442020302E3720232020202038564E203B2020202020203B20202020202020202020202020202020202064696C6176203B2020202020202020204339434231,
  0x4B52414D20454C42554F44204E41594F4C5055442E2E524F5443454C45532052455454454C204B43494854204E41594F4C5055442020302E3720232020202020202020202020202020202020202020202020202020202020202020202064696C6176203B202045394342312E2E4439434231,
  0x504F5453204C4C5546204B4F4F4E494843204E4F4954415554434E5550204E41594F4C5055442020302E3720232020202038564E203B2020202020203B20202020202020202020202020202020202064696C6176203B2020202020202020204639434231,
  0x504554532050552054414D524F4620444E414854524F48532E2E50414C5245564F2052455454454C2054414D524F4620444E414854524F48532020302E37202320202020202020202020202020202020202020202020202020202020202020206465726F6E6769203B202033414342312E2E3041434231,
  0x3E46464643312D64657672657365723C2E2E3E34414342312D64657672657365723C202020414E202320202020202020202020202020202020202020202020202020202020206465776F6C6C61736964203B202046464643312E2E3441434231,
  0x4F54414B204F454E204E4F47524F47204C4F424D5953204C41434953554D20454E49544E415A59422E2E494C495350204C4F424D5953204C41434953554D20454E49544E415A59422020312E3320232020202038564E203B2020202020203B20202020202020202020202020202020202064696C6176203B202035463044312E2E3030304431,
  0x3E46463044312D64657672657365723C2E2E3E36463044312D64657672657365723C202020414E202320202020202020202020202020202020202020202020202020202020206465776F6C6C61736964203B202046463044312E2E3646304431,
  0x322D46454C43204D555244204C4F424D5953204C41434953554D2E2E454E494C52414220454C474E4953204C4F424D5953204C41434953554D2020312E3320232020202038564E203B2020202020203B20202020202020202020202020202020202064696C6176203B202036323144312E2E3030314431,
  0x3E38323144312D64657672657365723C2E2E3E37323144312D64657672657365723C202020414E202320202020202020202020202020202020202020202020202020202020206465776F6C6C61736964203B202038323144312E2E3732314431,
  0x54534552204552555341454D20454C5049544C554D204C4F424D5953204C41434953554D2020312E3520232020202038564E203B2020202020203B20202020202020202020202020202020202064696C6176203B2020202020202020203932314431,
  0x45544F4E20454C4F4857204C4F424D5953204C41434953554D2E2E505241485320454C42554F44204C4F424D5953204C41434953554D2020312E3320232020202038564E203B2020202020203B20202020202020202020202020202020202064696C6176203B202044353144312E2E4132314431,
  0x45544F4E20464C4148204C4F424D5953204C41434953554D2020312E3320232020203536314431203735314431203B202020202020202020202020202020202064657070616D203B2020202020202020204535314431,
  0x45544F4E2052455452415551204C4F424D5953204C41434953554D2020312E3320232020203536314431203835314431203B202020202020202020202020202020202064657070616D203B2020202020202020204635314431,
  0x45544F4E20485448474945204C4F424D5953204C41434953554D20312E3323204536314431203536314431203835314431203B202020202020202020202020202020202064657070616D203B2020202020202020203036314431,
  0x45544F4E2048544E454554584953204C4F424D5953204C41434953554D20312E3323204636314431203536314431203835314431203B202020202020202020202020202020202064657070616D203B2020202020202020203136314431,
  0x45544F4E20444E4F4345532D595452494854204C4F424D5953204C41434953554D20312E3323203037314431203536314431203835314431203B202020202020202020202020202020202064657070616D203B2020202020202020203236314431,
  0x45544F4E20485452554F462D5954584953204C4F424D5953204C41434953554D20312E3323203137314431203536314431203835314431203B202020202020202020202020202020202064657070616D203B2020202020202020203336314431,
  0x45544F4E204854484749452D59544E45575420444552444E554820454E4F204C4F424D5953204C41434953554D20312E3323203237314431203536314431203835314431203B202020202020202020202020202020202064657070616D203B2020202020202020203436314431,
  0x352D47414C4620474E494E49424D4F43204C4F424D5953204C41434953554D2E2E4D45545320474E494E49424D4F43204C4F424D5953204C41434953554D2020312E3320232020202038564E203B2020202020203B20202020202020202020202020202020202064696C6176203B202032373144312E2E3536314431,
  0x45534152485020444E45204C4F424D5953204C41434953554D2E2E4D414542204E49474542204C4F424D5953204C41434953554D2020312E33202320202020202020202020202020202020202020202020202020202020206465776F6C6C61736964203B202041373144312E2E3337314431,
  0x4B43414C4220534956455242494D4553204C4F424D5953204C41434953554D2E2E544E4543434120474E494E49424D4F43204C4F424D5953204C41434953554D2020312E3320232020202038564E203B2020202020203B20202020202020202020202020202020202064696C6176203B202041423144312E2E4237314431,
  0x414D494E494D204C4F424D5953204C41434953554D2020312E3320232020203536314431203942314431203B202020202020202020202020202020202064657070616D203B2020202020202020204242314431,
  0x4B43414C4220414D494E494D204C4F424D5953204C41434953554D2020312E3320232020203536314431204142314431203B202020202020202020202020202020202064657070616D203B2020202020202020204342314431,
  0x455449485720414D494E494D494D4553204C4F424D5953204C41434953554D20312E3323204536314431203536314431203942314431203B202020202020202020202020202020202064657070616D203B2020202020202020204442314431,
  0x4B43414C4220414D494E494D494D4553204C4F424D5953204C41434953554D20312E3323204536314431203536314431204142314431203B202020202020202020202020202020202064657070616D203B2020202020202020204542314431,
  0x45544948572041535546204C4F424D5953204C41434953554D20312E3323204636314431203536314431203942314431203B202020202020202020202020202020202064657070616D203B2020202020202020204642314431,
  0x4B43414C422041535546204C4F424D5953204C41434953554D20312E3323204636314431203536314431204142314431203B202020202020202020202020202020202064657070616D203B2020202020202020203043314431,
  0x534954434E555042555320534550204C4F424D5953204C41434953554D2E2E545345522041544345465245502041474E4F4C204C4F424D5953204C41434953554D2020312E3320232020202038564E203B2020202020203B20202020202020202020202020202020202064696C6176203B202044443144312E2E3143314431,
  0x4E4749532054414C46204E415645494B204C4F424D5953204C41434953554D2E2E46454C432043204E415645494B204C4F424D5953204C41434953554D2020302E3820232020202038564E203B2020202020203B20202020202020202020202020202020202064696C6176203B202038453144312E2E4544314431,
  0x3E46463144312D64657672657365723C2E2E3E39453144312D64657672657365723C202020414E202320202020202020202020202020202020202020202020202020202020206465776F6C6C61736964203B202046463144312E2E3945314431]

def mapText26 : List Nat := [
  0x414D4D49454C204C41434953554D204B454552472E2E312D4C4F424D5953204E4F495441544F4E204C41434F56204B454552472020312E3420232020202038564E203B2020202020203B20202020202020202020202020202020202064696C6176203B202035343244312E2E3030324431,
  0x3E46443244312D64657672657365723C2E2E3E36343244312D64657672657365723C202020414E202320202020202020202020202020202020202020202020202020202020206465776F6C6C61736964203B202046443244312E2E3634324431,
  0x4E454554454E494E204C4152454D554E204E4159414D2E2E4F52455A204C4152454D554E204E4159414D20302E313120232020202038564E203B2020202020203B20202020202020202020202020202020202064696C6176203B202033463244312E2E3045324431,
  0x3E46463244312D64657672657365723C2E2E3E34463244312D64657672657365723C202020414E202320202020202020202020202020202020202020202020202020202020206465776F6C6C61736964203B202046463244312E2E3446324431,
  0x474E49524554534F4620524F46204D41524741525445542E2E485452414520524F46204D4152474F4E4F4D2020302E3420232020202038564E203B2020202020203B20202020202020202020202020202020202064696C6176203B202036353344312E2E3030334431,
  0x3E46353344312D64657672657365723C2E2E3E37353344312D64657672657365723C202020414E202320202020202020202020202020202020202020202020202020202020206465776F6C6C61736964203B202046353344312E2E3735334431,
  0x454E494E20544947494420534E455420444F5220474E49544E554F432E2E454E4F2054494749442054494E5520444F5220474E49544E554F432020302E3520232020202038564E203B2020202020203B20202020202020202020202020202020202064696C6176203B202031373344312E2E3036334431,
  0x45564946204B52414D20594C4C41542E2E454E4F204B52414D20594C4C415420434948504152474F45444920302E313120232020202038564E203B2020202020203B20202020202020202020202020202020202064696C6176203B202038373344312E2E3237334431,
  0x3E46463344312D64657672657365723C2E2E3E39373344312D64657672657365723C202020414E202320202020202020202020202020202020202020202020202020202020206465776F6C6C61736964203B202046463344312E2E3937334431,
  0x41204C41544950414320444C4F42204C41434954414D454854414D2020312E3320232020202020202020202031363030203B202020202020202020202020202020202064657070616D203B2020202020202020203030344431,
  0x42204C41544950414320444C4F42204C41434954414D454854414D2020312E3320232020202020202020202032363030203B202020202020202020202020202020202064657070616D203B2020202020202020203130344431,
  0x43204C41544950414320444C4F42204C41434954414D454854414D2020312E3320232020202020202020202033363030203B202020202020202020202020202020202064657070616D203B2020202020202020203230344431,
  0x44204C41544950414320444C4F42204C41434954414D454854414D2020312E3320232020202020202020202034363030203B202020202020202020202020202020202064657070616D203B2020202020202020203330344431,
  0x45204C41544950414320444C4F42204C41434954414D454854414D2020312E3320232020202020202020202035363030203B202020202020202020202020202020202064657070616D203B2020202020202020203430344431,
  0x46204C41544950414320444C4F42204C41434954414D454854414D2020312E3320232020202020202020202036363030203B202020202020202020202020202020202064657070616D203B2020202020202020203530344431,
  0x47204C41544950414320444C4F42204C41434954414D454854414D2020312E3320232020202020202020202037363030203B202020202020202020202020202020202064657070616D203B2020202020202020203630344431,
  0x48204C41544950414320444C4F42204C41434954414D454854414D2020312E3320232020202020202020202038363030203B202020202020202020202020202020202064657070616D203B2020202020202020203730344431,
  0x49204C41544950414320444C4F42204C41434954414D454854414D2020312E3320232020202020202020202039363030203B202020202020202020202020202020202064657070616D203B2020202020202020203830344431,
  0x4A204C41544950414320444C4F42204C41434954414D454854414D2020312E3320232020202020202020202041363030203B202020202020202020202020202020202064657070616D203B2020202020202020203930344431,
  0x4B204C41544950414320444C4F42204C41434954414D454854414D2020312E3320232020202020202020202042363030203B202020202020202020202020202020202064657070616D203B2020202020202020204130344431,
  0x4C204C41544950414320444C4F42204C41434954414D454854414D2020312E3320232020202020202020202043363030203B202020202020202020202020202020202064657070616D203B2020202020202020204230344431,
  0x4D204C41544950414320444C4F42204C41434954414D454854414D2020312E3320232020202020202020202044363030203B202020202020202020202020202020202064657070616D203B2020202020202020204330344431,
  0x4E204C41544950414320444C4F42204C41434954414D454854414D2020312E3320232020202020202020202045363030203B202020202020202020202020202020202064657070616D203B2020202020202020204430344431,
  0x4F204C41544950414320444C4F42204C41434954414D454854414D2020312E3320232020202020202020202046363030203B202020202020202020202020202020202064657070616D203B2020202020202020204530344431,
  0x50204C41544950414320444C4F42204C41434954414D454854414D2020312E3320232020202020202020202030373030203B202020202020202020202020202020202064657070616D203B2020202020202020204630344431,
  0x51204C41544950414320444C4F42204C41434954414D454854414D2020312E3320232020202020202020202031373030203B202020202020202020202020202020202064657070616D203B2020202020202020203031344431,
  0x52204C41544950414320444C4F42204C41434954414D454854414D2020312E3320232020202020202020202032373030203B202020202020202020202020202020202064657070616D203B2020202020202020203131344431,
  0x53204C41544950414320444C4F42204C41434954414D454854414D2020312E3320232020202020202020202033373030203B202020202020202020202020202020202064657070616D203B2020202020202020203231344431,
  0x54204C41544950414320444C4F42204C41434954414D454854414D2020312E3320232020202020202020202034373030203B202020202020202020202020202020202064657070616D203B2020202020202020203331344431,
  0x55204C41544950414320444C4F42204C41434954414D454854414D2020312E3320232020202020202020202035373030203B202020202020202020202020202020202064657070616D203B2020202020202020203431344431,
  0x56204C41544950414320444C4F42204C41434954414D454854414D2020312E3320232020202020202020202036373030203B202020202020202020202020202020202064657070616D203B2020202020202020203531344431,
  0x57204C41544950414320444C4F42204C41434954414D454854414D2020312E3320232020202020202020202037373030203B202020202020202020202020202020202064657070616D203B2020202020202020203631344431,
  0x58204C41544950414320444C4F42204C41434954414D454854414D2020312E3320232020202020202020202038373030203B202020202020202020202020202020202064657070616D203B2020202020202020203731344431,
  0x59204C41544950414320444C4F42204C41434954414D454854414D2020312E3320232020202020202020202039373030203B202020202020202020202020202020202064657070616D203B2020202020202020203831344431,
  0x5A204C41544950414320444C4F42204C41434954414D454854414D2020312E3320232020202020202020202041373030203B202020202020202020202020202020202064657070616D203B2020202020202020203931344431,
  0x41204C4C414D5320444C4F42204C41434954414D454854414D2020312E3320232020202020202020202031363030203B202020202020202020202020202020202064657070616D203B2020202020202020204131344431,
  0x42204C4C414D5320444C4F42204C41434954414D454854414D2020312E3320232020202020202020202032363030203B202020202020202020202020202020202064657070616D203B2020202020202020204231344431,
  0x43204C4C414D5320444C4F42204C41434954414D454854414D2020312E3320232020202020202020202033363030203B202020202020202020202020202020202064657070616D203B2020202020202020204331344431,
  0x44204C4C414D5320444C4F42204C41434954414D454854414D2020312E3320232020202020202020202034363030203B202020202020202020202020202020202064657070616D203B2020202020202020204431344431,
  0x45204C4C414D5320444C4F42204C41434954414D454854414D2020312E3320232020202020202020202035363030203B202020202020202020202020202020202064657070616D203B2020202020202020204531344431,
  0x46204C4C414D5320444C4F42204C41434954414D454854414D2020312E3320232020202020202020202036363030203B202020202020202020202020202020202064657070616D203B2020202020202020204631344431,
  0x47204C4C414D5320444C4F42204C41434954414D454854414D2020312E3320232020202020202020202037363030203B202020202020202020202020202020202064657070616D203B2020202020202020203032344431,
  0x48204C4C414D5320444C4F42204C41434954414D454854414D2020312E3320232020202020202020202038363030203B202020202020202020202020202020202064657070616D203B2020202020202020203132344431,
  0x49204C4C414D5320444C4F42204C41434954414D454854414D2020312E3320232020202020202020202039363030203B202020202020202020202020202020202064657070616D203B2020202020202020203232344431,
  0x4A204C4C414D5320444C4F42204C41434954414D454854414D2020312E3320232020202020202020202041363030203B202020202020202020202020202020202064657070616D203B2020202020202020203332344431,
  0x4B204C4C414D5320444C4F42204C41434954414D454854414D2020312E3320232020202020202020202042363030203B202020202020202020202020202020202064657070616D203B2020202020202020203432344431,
  0x4C204C4C414D5320444C4F42204C41434954414D454854414D2020312E3320232020202020202020202043363030203B202020202020202020202020202020202064657070616D203B2020202020202020203532344431,
  0x4D204C4C414D5320444C4F42204C41434954414D454854414D2020312E3320232020202020202020202044363030203B202020202020202020202020202020202064657070616D203B2020202020202020203632344431,
  0x4E204C4C414D5320444C4F42204C41434954414D454854414D2020312E3320232020202020202020202045363030203B202020202020202020202020202020202064657070616D203B2020202020202020203732344431,
  0x4F204C4C414D5320444C4F42204C41434954414D454854414D2020312E3320232020202020202020202046363030203B202020202020202020202020202020202064657070616D203B2020202020202020203832344431,
  0x50204C4C414D5320444C4F42204C41434954414D454854414D2020312E3320232020202020202020202030373030203B202020202020202020202020202020202064657070616D203B2020202020202020203932344431,
  0x51204C4C414D5320444C4F42204C41434954414D454854414D2020312E3320232020202020202020202031373030203B202020202020202020202020202020202064657070616D203B2020202020202020204132344431,
  0x52204C4C414D5320444C4F42204C41434954414D454854414D2020312E3320232020202020202020202032373030203B202020202020202020202020202020202064657070616D203B2020202020202020204232344431,
  0x53204C4C414D5320444C4F42204C41434954414D454854414D2020312E3320232020202020202020202033373030203B202020202020202020202020202020202064657070616D203B2020202020202020204332344431,
  0x54204C4C414D5320444C4F42204C41434954414D454854414D2020312E3320232020202020202020202034373030203B202020202020202020202020202020202064657070616D203B2020202020202020204432344431,
  0x55204C4C414D5320444C4F42204C41434954414D454854414D2020312E3320232020202020202020202035373030203B202020202020202020202020202020202064657070616D203B2020202020202020204532344431,
  0x56204C4C414D5320444C4F42204C41434954414D454854414D2020312E3320232020202020202020202036373030203B202020202020202020202020202020202064657070616D203B2020202020202020204632344431,
  0x57204C4C414D5320444C4F42204C41434954414D454854414D2020312E3320232020202020202020202037373030203B202020202020202020202020202020202064657070616D203B2020202020202020203033344431,
  0x58204C4C414D5320444C4F42204C41434954414D454854414D2020312E3320232020202020202020202038373030203B202020202020202020202020202020202064657070616D203B2020202020202020203133344431,
  0x59204C4C414D5320444C4F42204C41434954414D454854414D2020312E3320232020202020202020202039373030203B202020202020202020202020202020202064657070616D203B2020202020202020203233344431,
  0x5A204C4C414D5320444C4F42204C41434954414D454854414D2020312E3320232020202020202020202041373030203B202020202020202020202020202020202064657070616D203B2020202020202020203333344431,
  0x41204C4154495041432043494C415449204C41434954414D454854414D2020312E3320232020202020202020202031363030203B202020202020202020202020202020202064657070616D203B2020202020202020203433344431,
  0x42204C4154495041432043494C415449204C41434954414D454854414D2020312E3320232020202020202020202032363030203B202020202020202020202020202020202064657070616D203B2020202020202020203533344431,
  0x43204C4154495041432043494C415449204C41434954414D454854414D2020312E3320232020202020202020202033363030203B202020202020202020202020202020202064657070616D203B2020202020202020203633344431,
  0x44204C4154495041432043494C415449204C41434954414D454854414D2020312E3320232020202020202020202034363030203B202020202020202020202020202020202064657070616D203B2020202020202020203733344431,
  0x45204C4154495041432043494C415449204C41434954414D454854414D2020312E3320232020202020202020202035363030203B202020202020202020202020202020202064657070616D203B2020202020202020203833344431,
  0x46204C4154495041432043494C415449204C41434954414D454854414D2020312E3320232020202020202020202036363030203B202020202020202020202020202020202064657070616D203B2020202020202020203933344431,
  0x47204C4154495041432043494C415449204C41434954414D454854414D2020312E3320232020202020202020202037363030203B202020202020202020202020202020202064657070616D203B2020202020202020204133344431,
  0x48204C4154495041432043494C415449204C41434954414D454854414D2020312E3320232020202020202020202038363030203B202020202020202020202020202020202064657070616D203B2020202020202020204233344431,
  0x49204C4154495041432043494C415449204C41434954414D454854414D2020312E3320232020202020202020202039363030203B202020202020202020202020202020202064657070616D203B2020202020202020204333344431,
  0x4A204C4154495041432043494C415449204C41434954414D454854414D2020312E3320232020202020202020202041363030203B202020202020202020202020202020202064657070616D203B2020202020202020204433344431,
  0x4B204C4154495041432043494C415449204C41434954414D454854414D2020312E3320232020202020202020202042363030203B202020202020202020202020202020202064657070616D203B2020202020202020204533344431,
  0x4C204C4154495041432043494C415449204C41434954414D454854414D2020312E3320232020202020202020202043363030203B202020202020202020202020202020202064657070616D203B2020202020202020204633344431,
  0x4D204C4154495041432043494C415449204C41434954414D454854414D2020312E3320232020202020202020202044363030203B202020202020202020202020202020202064657070616D203B2020202020202020203034344431,
  0x4E204C4154495041432043494C415449204C41434954414D454854414D2020312E3320232020202020202020202045363030203B202020202020202020202020202020202064657070616D203B2020202020202020203134344431,
  0x4F204C4154495041432043494C415449204C41434954414D454854414D2020312E3320232020202020202020202046363030203B202020202020202020202020202020202064657070616D203B2020202020202020203234344431,
  0x50204C4154495041432043494C415449204C41434954414D454854414D2020312E3320232020202020202020202030373030203B202020202020202020202020202020202064657070616D203B2020202020202020203334344431,
  0x51204C4154495041432043494C415449204C41434954414D454854414D2020312E3320232020202020202020202031373030203B202020202020202020202020202020202064657070616D203B2020202020202020203434344431,
  0x52204C4154495041432043494C415449204C41434954414D454854414D2020312E3320232020202020202020202032373030203B202020202020202020202020202020202064657070616D203B2020202020202020203534344431,
  0x53204C4154495041432043494C415449204C41434954414D454854414D2020312E3320232020202020202020202033373030203B202020202020202020202020202020202064657070616D203B2020202020202020203634344431,
  0x54204C4154495041432043494C415449204C41434954414D454854414D2020312E3320232020202020202020202034373030203B202020202020202020202020202020202064657070616D203B2020202020202020203734344431,
  0x55204C4154495041432043494C415449204C41434954414D454854414D2020312E3320232020202020202020202035373030203B202020202020202020202020202020202064657070616D203B2020202020202020203834344431,
  0x56204C4154495041432043494C415449204C41434954414D454854414D2020312E3320232020202020202020202036373030203B202020202020202020202020202020202064657070616D203B2020202020202020203934344431,
  0x57204C4154495041432043494C415449204C41434954414D454854414D2020312E3320232020202020202020202037373030203B202020202020202020202020202020202064657070616D203B2020202020202020204134344431,
  0x58204C4154495041432043494C415449204C41434954414D454854414D2020312E3320232020202020202020202038373030203B202020202020202020202020202020202064657070616D203B2020202020202020204234344431,
  0x59204C4154495041432043494C415449204C41434954414D454854414D2020312E3320232020202020202020202039373030203B202020202020202020202020202020202064657070616D203B2020202020202020204334344431,
  0x5A204C4154495041432043494C415449204C41434954414D454854414D2020312E3320232020202020202020202041373030203B202020202020202020202020202020202064657070616D203B2020202020202020204434344431,
  0x41204C4C414D532043494C415449204C41434954414D454854414D2020312E3320232020202020202020202031363030203B202020202020202020202020202020202064657070616D203B2020202020202020204534344431,
  0x42204C4C414D532043494C415449204C41434954414D454854414D2020312E3320232020202020202020202032363030203B202020202020202020202020202020202064657070616D203B2020202020202020204634344431,
  0x43204C4C414D532043494C415449204C41434954414D454854414D2020312E3320232020202020202020202033363030203B202020202020202020202020202020202064657070616D203B2020202020202020203035344431,
  0x44204C4C414D532043494C415449204C41434954414D454854414D2020312E3320232020202020202020202034363030203B202020202020202020202020202020202064657070616D203B2020202020202020203135344431,
  0x45204C4C414D532043494C415449204C41434954414D454854414D2020312E3320232020202020202020202035363030203B202020202020202020202020202020202064657070616D203B2020202020202020203235344431,
  0x46204C4C414D532043494C415449204C41434954414D454854414D2020312E3320232020202020202020202036363030203B202020202020202020202020202020202064657070616D203B2020202020202020203335344431,
  0x47204C4C414D532043494C415449204C41434954414D454854414D2020312E3320232020202020202020202037363030203B202020202020202020202020202020202064657070616D203B2020202020202020203435344431,
  0x3E35353444312D64657672657365723C202020414E202320202020202020202020202020202020202020202020202020202020206465776F6C6C61736964203B2020202020202020203535344431,
  0x49204C4C414D532043494C415449204C41434954414D454854414D2020312E3320232020202020202020202039363030203B202020202020202020202020202020202064657070616D203B2020202020202020203635344431,
  0x4A204C4C414D532043494C415449204C41434954414D454854414D2020312E3320232020202020202020202041363030203B202020202020202020202020202020202064657070616D203B2020202020202020203735344431,
  0x4B204C4C414D532043494C415449204C41434954414D454854414D2020312E3320232020202020202020202042363030203B202020202020202020202020202020202064657070616D203B2020202020202020203835344431,
  0x4C204C4C414D532043494C415449204C41434954414D454854414D2020312E3320232020202020202020202043363030203B202020202020202020202020202020202064657070616D203B2020202020202020203935344431,
  0x4D204C4C414D532043494C415449204C41434954414D454854414D2020312E3320232020202020202020202044363030203B202020202020202020202020202020202064657070616D203B2020202020202020204135344431,
  0x4E204C4C414D532043494C415449204C41434954414D454854414D2020312E3320232020202020202020202045363030203B202020202020202020202020202020202064657070616D203B2020202020202020204235344431,
  0x4F204C4C414D532043494C415449204C41434954414D454854414D2020312E3320232020202020202020202046363030203B202020202020202020202020202020202064657070616D203B2020202020202020204335344431,
  0x50204C4C414D532043494C415449204C41434954414D454854414D2020312E3320232020202020202020202030373030203B202020202020202020202020202020202064657070616D203B2020202020202020204435344431,
  0x51204C4C414D532043494C415449204C41434954414D454854414D2020312E3320232020202020202020202031373030203B202020202020202020202020202020202064657070616D203B2020202020202020204535344431,
  0x52204C4C414D532043494C415449204C41434954414D454854414D2020312E3320232020202020202020202032373030203B202020202020202020202020202020202064657070616D203B2020202020202020204635344431,
  0x53204C4C414D532043494C415449204C41434954414D454854414D2020312E3320232020202020202020202033373030203B202020202020202020202020202020202064657070616D203B2020202020202020203036344431,
  0x54204C4C414D532043494C415449204C41434954414D454854414D2020312E3320232020202020202020202034373030203B202020202020202020202020202020202064657070616D203B2020202020202020203136344431,
  0x55204C4C414D532043494C415449204C41434954414D454854414D2020312E3320232020202020202020202035373030203B202020202020202020202020202020202064657070616D203B2020202020202020203236344431,
  0x56204C4C414D532043494C415449204C41434954414D454854414D2020312E3320232020202020202020202036373030203B202020202020202020202020202020202064657070616D203B2020202020202020203336344431,
  0x57204C4C414D532043494C415449204C41434954414D454854414D2020312E3320232020202020202020202037373030203B202020202020202020202020202020202064657070616D203B2020202020202020203436344431,
  0x58204C4C414D532043494C415449204C41434954414D454854414D2020312E3320232020202020202020202038373030203B202020202020202020202020202020202064657070616D203B2020202020202020203536344431,
  0x59204C4C414D532043494C415449204C41434954414D454854414D2020312E3320232020202020202020202039373030203B202020202020202020202020202020202064657070616D203B2020202020202020203636344431,
  0x5A204C4C414D532043494C415449204C41434954414D454854414D2020312E3320232020202020202020202041373030203B202020202020202020202020202020202064657070616D203B2020202020202020203736344431,
  0x41204C4154495041432043494C41544920444C4F42204C41434954414D454854414D2020312E3320232020202020202020202031363030203B202020202020202020202020202020202064657070616D203B2020202020202020203836344431,
  0x42204C4154495041432043494C41544920444C4F42204C41434954414D454854414D2020312E3320232020202020202020202032363030203B202020202020202020202020202020202064657070616D203B2020202020202020203936344431,
  0x43204C4154495041432043494C41544920444C4F42204C41434954414D454854414D2020312E3320232020202020202020202033363030203B202020202020202020202020202020202064657070616D203B2020202020202020204136344431,
  0x44204C4154495041432043494C41544920444C4F42204C41434954414D454854414D2020312E3320232020202020202020202034363030203B202020202020202020202020202020202064657070616D203B2020202020202020204236344431,
  0x45204C4154495041432043494C41544920444C4F42204C41434954414D454854414D2020312E3320232020202020202020202035363030203B202020202020202020202020202020202064657070616D203B2020202020202020204336344431,
  0x46204C4154495041432043494C41544920444C4F42204C41434954414D454854414D2020312E3320232020202020202020202036363030203B202020202020202020202020202020202064657070616D203B2020202020202020204436344431,
  0x47204C4154495041432043494C41544920444C4F42204C41434954414D454854414D2020312E3320232020202020202020202037363030203B202020202020202020202020202020202064657070616D203B2020202020202020204536344431,
  0x48204C4154495041432043494C41544920444C4F42204C41434954414D454854414D2020312E3320232020202020202020202038363030203B202020202020202020202020202020202064657070616D203B2020202020202020204636344431,
  0x49204C4154495041432043494C41544920444C4F42204C41434954414D454854414D2020312E3320232020202020202020202039363030203B202020202020202020202020202020202064657070616D203B2020202020202020203037344431,
  0x4A204C4154495041432043494C41544920444C4F42204C41434954414D454854414D2020312E3320232020202020202020202041363030203B202020202020202020202020202020202064657070616D203B2020202020202020203137344431,
  0x4B204C4154495041432043494C41544920444C4F42204C41434954414D454854414D2020312E3320232020202020202020202042363030203B202020202020202020202020202020202064657070616D203B2020202020202020203237344431,
  0x4C204C4154495041432043494C41544920444C4F42204C41434954414D454854414D2020312E3320232020202020202020202043363030203B202020202020202020202020202020202064657070616D203B2020202020202020203337344431,
  0x4D204C4154495041432043494C41544920444C4F42204C41434954414D454854414D2020312E3320232020202020202020202044363030203B202020202020202020202020202020202064657070616D203B2020202020202020203437344431,
  0x4E204C4154495041432043494C41544920444C4F42204C41434954414D454854414D2020312E3320232020202020202020202045363030203B202020202020202020202020202020202064657070616D203B2020202020202020203537344431,
  0x4F204C4154495041432043494C41544920444C4F42204C41434954414D454854414D2020312E3320232020202020202020202046363030203B202020202020202020202020202020202064657070616D203B2020202020202020203637344431,
  0x50204C4154495041432043494C41544920444C4F42204C41434954414D454854414D2020312E3320232020202020202020202030373030203B202020202020202020202020202020202064657070616D203B2020202020202020203737344431,
  0x51204C4154495041432043494C41544920444C4F42204C41434954414D454854414D2020312E3320232020202020202020202031373030203B202020202020202020202020202020202064657070616D203B2020202020202020203837344431,
  0x52204C4154495041432043494C41544920444C4F42204C41434954414D454854414D2020312E3320232020202020202020202032373030203B202020202020202020202020202020202064657070616D203B2020202020202020203937344431,
  0x53204C4154495041432043494C41544920444C4F42204C41434954414D454854414D2020312E3320232020202020202020202033373030203B202020202020202020202020202020202064657070616D203B2020202020202020204137344431,
  0x54204C4154495041432043494C41544920444C4F42204C41434954414D454854414D2020312E3320232020202020202020202034373030203B202020202020202020202020202020202064657070616D203B2020202020202020204237344431,
  0x55204C4154495041432043494C41544920444C4F42204C41434954414D454854414D2020312E3320232020202020202020202035373030203B202020202020202020202020202020202064657070616D203B2020202020202020204337344431,
  0x56204C4154495041432043494C41544920444C4F42204C41434954414D454854414D2020312E3320232020202020202020202036373030203B202020202020202020202020202020202064657070616D203B2020202020202020204437344431,
  0x57204C4154495041432043494C41544920444C4F42204C41434954414D454854414D2020312E3320232020202020202020202037373030203B202020202020202020202020202020202064657070616D203B2020202020202020204537344431,
  0x58204C4154495041432043494C41544920444C4F42204C41434954414D454854414D2020312E3320232020202020202020202038373030203B202020202020202020202020202020202064657070616D203B2020202020202020204637344431,
  0x59204C4154495041432043494C41544920444C4F42204C41434954414D454854414D2020312E3320232020202020202020202039373030203B202020202020202020202020202020202064657070616D203B2020202020202020203038344431,
  0x5A204C4154495041432043494C41544920444C4F42204C41434954414D454854414D2020312E3320232020202020202020202041373030203B202020202020202020202020202020202064657070616D203B2020202020202020203138344431,
  0x41204C4C414D532043494C41544920444C4F42204C41434954414D454854414D2020312E3320232020202020202020202031363030203B202020202020202020202020202020202064657070616D203B2020202020202020203238344431,
  0x42204C4C414D532043494C41544920444C4F42204C41434954414D454854414D2020312E3320232020202020202020202032363030203B202020202020202020202020202020202064657070616D203B2020202020202020203338344431,
  0x43204C4C414D532043494C41544920444C4F42204C41434954414D454854414D2020312E3320232020202020202020202033363030203B202020202020202020202020202020202064657070616D203B2020202020202020203438344431,
  0x44204C4C414D532043494C41544920444C4F42204C41434954414D454854414D2020312E3320232020202020202020202034363030203B202020202020202020202020202020202064657070616D203B2020202020202020203538344431,
  0x45204C4C414D532043494C41544920444C4F42204C41434954414D454854414D2020312E3320232020202020202020202035363030203B202020202020202020202020202020202064657070616D203B2020202020202020203638344431,
  0x46204C4C414D532043494C41544920444C4F42204C41434954414D454854414D2020312E3320232020202020202020202036363030203B202020202020202020202020202020202064657070616D203B2020202020202020203738344431,
  0x47204C4C414D532043494C41544920444C4F42204C41434954414D454854414D2020312E3320232020202020202020202037363030203B202020202020202020202020202020202064657070616D203B2020202020202020203838344431,
  0x48204C4C414D532043494C41544920444C4F42204C41434954414D454854414D2020312E3320232020202020202020202038363030203B202020202020202020202020202020202064657070616D203B2020202020202020203938344431,
  0x49204C4C414D532043494C41544920444C4F42204C41434954414D454854414D2020312E3320232020202020202020202039363030203B202020202020202020202020202020202064657070616D203B2020202020202020204138344431,
  0x4A204C4C414D532043494C41544920444C4F42204C41434954414D454854414D2020312E3320232020202020202020202041363030203B202020202020202020202020202020202064657070616D203B2020202020202020204238344431,
  0x4B204C4C414D532043494C41544920444C4F42204C41434954414D454854414D2020312E3320232020202020202020202042363030203B202020202020202020202020202020202064657070616D203B2020202020202020204338344431,
  0x4C204C4C414D532043494C41544920444C4F42204C41434954414D454854414D2020312E3320232020202020202020202043363030203B202020202020202020202020202020202064657070616D203B2020202020202020204438344431,
  0x4D204C4C414D532043494C41544920444C4F42204C41434954414D454854414D2020312E3320232020202020202020202044363030203B202020202020202020202020202020202064657070616D203B2020202020202020204538344431,
  0x4E204C4C414D532043494C41544920444C4F42204C41434954414D454854414D2020312E3320232020202020202020202045363030203B202020202020202020202020202020202064657070616D203B2020202020202020204638344431,
  0x4F204C4C414D532043494C41544920444C4F42204C41434954414D454854414D2020312E3320232020202020202020202046363030203B202020202020202020202020202020202064657070616D203B2020202020202020203039344431,
  0x50204C4C414D532043494C41544920444C4F42204C41434954414D454854414D2020312E3320232020202020202020202030373030203B202020202020202020202020202020202064657070616D203B2020202020202020203139344431,
  0x51204C4C414D532043494C41544920444C4F42204C41434954414D454854414D2020312E3320232020202020202020202031373030203B202020202020202020202020202020202064657070616D203B2020202020202020203239344431,
  0x52204C4C414D532043494C41544920444C4F42204C41434954414D454854414D2020312E3320232020202020202020202032373030203B202020202020202020202020202020202064657070616D203B2020202020202020203339344431,
  0x53204C4C414D532043494C41544920444C4F42204C41434954414D454854414D2020312E3320232020202020202020202033373030203B202020202020202020202020202020202064657070616D203B2020202020202020203439344431,
  0x54204C4C414D532043494C41544920444C4F42204C41434954414D454854414D2020312E3320232020202020202020202034373030203B202020202020202020202020202020202064657070616D203B2020202020202020203539344431,
  0x55204C4C414D532043494C41544920444C4F42204C41434954414D454854414D2020312E3320232020202020202020202035373030203B202020202020202020202020202020202064657070616D203B2020202020202020203639344431,
  0x56204C4C414D532043494C41544920444C4F42204C41434954414D454854414D2020312E3320232020202020202020202036373030203B202020202020202020202020202020202064657070616D203B2020202020202020203739344431,
  0x57204C4C414D532043494C41544920444C4F42204C41434954414D454854414D2020312E3320232020202020202020202037373030203B202020202020202020202020202020202064657070616D203B2020202020202020203839344431,
  0x58204C4C414D532043494C41544920444C4F42204C41434954414D454854414D2020312E3320232020202020202020202038373030203B202020202020202020202020202020202064657070616D203B2020202020202020203939344431,
  0x59204C4C414D532043494C41544920444C4F42204C41434954414D454854414D2020312E3320232020202020202020202039373030203B202020202020202020202020202020202064657070616D203B2020202020202020204139344431,
  0x5A204C4C414D532043494C41544920444C4F42204C41434954414D454854414D2020312E3320232020202020202020202041373030203B202020202020202020202020202020202064657070616D203B2020202020202020204239344431,
  0x41204C41544950414320545049524353204C41434954414D454854414D2020312E3320232020202020202020202031363030203B202020202020202020202020202020202064657070616D203B2020202020202020204339344431,
  0x3E44393444312D64657672657365723C202020414E202320202020202020202020202020202020202020202020202020202020206465776F6C6C61736964203B2020202020202020204439344431,
  0x43204C41544950414320545049524353204C41434954414D454854414D2020312E3320232020202020202020202033363030203B202020202020202020202020202020202064657070616D203B2020202020202020204539344431,
  0x44204C41544950414320545049524353204C41434954414D454854414D2020312E3320232020202020202020202034363030203B202020202020202020202020202020202064657070616D203B2020202020202020204639344431,
  0x3E31413444312D64657672657365723C2E2E3E30413444312D64657672657365723C202020414E202320202020202020202020202020202020202020202020202020202020206465776F6C6C61736964203B202031413444312E2E3041344431,
  0x47204C41544950414320545049524353204C41434954414D454854414D2020312E3320232020202020202020202037363030203B202020202020202020202020202020202064657070616D203B2020202020202020203241344431,
  0x3E34413444312D64657672657365723C2E2E3E33413444312D64657672657365723C202020414E202320202020202020202020202020202020202020202020202020202020206465776F6C6C61736964203B202034413444312E2E3341344431,
  0x4A204C41544950414320545049524353204C41434954414D454854414D2020312E3320232020202020202020202041363030203B202020202020202020202020202020202064657070616D203B2020202020202020203541344431,
  0x4B204C41544950414320545049524353204C41434954414D454854414D2020312E3320232020202020202020202042363030203B202020202020202020202020202020202064657070616D203B2020202020202020203641344431,
  0x3E38413444312D64657672657365723C2E2E3E37413444312D64657672657365723C202020414E202320202020202020202020202020202020202020202020202020202020206465776F6C6C61736964203B202038413444312E2E3741344431,
  0x4E204C41544950414320545049524353204C41434954414D454854414D2020312E3320232020202020202020202045363030203B202020202020202020202020202020202064657070616D203B2020202020202020203941344431,
  0x4F204C41544950414320545049524353204C41434954414D454854414D2020312E3320232020202020202020202046363030203B202020202020202020202020202020202064657070616D203B2020202020202020204141344431,
  0x50204C41544950414320545049524353204C41434954414D454854414D2020312E3320232020202020202020202030373030203B202020202020202020202020202020202064657070616D203B2020202020202020204241344431,
  0x51204C41544950414320545049524353204C41434954414D454854414D2020312E3320232020202020202020202031373030203B202020202020202020202020202020202064657070616D203B2020202020202020204341344431,
  0x3E44413444312D64657672657365723C202020414E202320202020202020202020202020202020202020202020202020202020206465776F6C6C61736964203B2020202020202020204441344431,
  0x53204C41544950414320545049524353204C41434954414D454854414D2020312E3320232020202020202020202033373030203B202020202020202020202020202020202064657070616D203B2020202020202020204541344431,
  0x54204C41544950414320545049524353204C41434954414D454854414D2020312E3320232020202020202020202034373030203B202020202020202020202020202020202064657070616D203B2020202020202020204641344431,
  0x55204C41544950414320545049524353204C41434954414D454854414D2020312E3320232020202020202020202035373030203B202020202020202020202020202020202064657070616D203B2020202020202020203042344431,
  0x56204C41544950414320545049524353204C41434954414D454854414D2020312E3320232020202020202020202036373030203B202020202020202020202020202020202064657070616D203B2020202020202020203142344431,
  0x57204C41544950414320545049524353204C41434954414D454854414D2020312E3320232020202020202020202037373030203B202020202020202020202020202020202064657070616D203B2020202020202020203242344431,
  0x58204C41544950414320545049524353204C41434954414D454854414D2020312E3320232020202020202020202038373030203B202020202020202020202020202020202064657070616D203B2020202020202020203342344431,
  0x59204C41544950414320545049524353204C41434954414D454854414D2020312E3320232020202020202020202039373030203B202020202020202020202020202020202064657070616D203B2020202020202020203442344431,
  0x5A204C41544950414320545049524353204C41434954414D454854414D2020312E3320232020202020202020202041373030203B202020202020202020202020202020202064657070616D203B2020202020202020203542344431,
  0x41204C4C414D5320545049524353204C41434954414D454854414D2020312E3320232020202020202020202031363030203B202020202020202020202020202020202064657070616D203B2020202020202020203642344431,
  0x42204C4C414D5320545049524353204C41434954414D454854414D2020312E3320232020202020202020202032363030203B202020202020202020202020202020202064657070616D203B2020202020202020203742344431,
  0x43204C4C414D5320545049524353204C41434954414D454854414D2020312E3320232020202020202020202033363030203B202020202020202020202020202020202064657070616D203B2020202020202020203842344431,
  0x44204C4C414D5320545049524353204C41434954414D454854414D2020312E3320232020202020202020202034363030203B202020202020202020202020202020202064657070616D203B2020202020202020203942344431,
  0x3E41423444312D64657672657365723C202020414E202320202020202020202020202020202020202020202020202020202020206465776F6C6C61736964203B2020202020202020204142344431,
  0x46204C4C414D5320545049524353204C41434954414D454854414D2020312E3320232020202020202020202036363030203B202020202020202020202020202020202064657070616D203B2020202020202020204242344431,
  0x3E43423444312D64657672657365723C202020414E202320202020202020202020202020202020202020202020202020202020206465776F6C6C61736964203B2020202020202020204342344431,
  0x48204C4C414D5320545049524353204C41434954414D454854414D2020312E3320232020202020202020202038363030203B202020202020202020202020202020202064657070616D203B2020202020202020204442344431,
  0x49204C4C414D5320545049524353204C41434954414D454854414D2020312E3320232020202020202020202039363030203B202020202020202020202020202020202064657070616D203B2020202020202020204542344431,
  0x4A204C4C414D5320545049524353204C41434954414D454854414D2020312E3320232020202020202020202041363030203B202020202020202020202020202020202064657070616D203B2020202020202020204642344431,
  0x4B204C4C414D5320545049524353204C41434954414D454854414D2020312E3320232020202020202020202042363030203B202020202020202020202020202020202064657070616D203B2020202020202020203043344431,
  0x4C204C4C414D5320545049524353204C41434954414D454854414D2020302E3420232020202020202020202043363030203B202020202020202020202020202020202064657070616D203B2020202020202020203143344431,
  0x4D204C4C414D5320545049524353204C41434954414D454854414D2020312E3320232020202020202020202044363030203B202020202020202020202020202020202064657070616D203B2020202020202020203243344431,
  0x4E204C4C414D5320545049524353204C41434954414D454854414D2020312E3320232020202020202020202045363030203B202020202020202020202020202020202064657070616D203B2020202020202020203343344431,
  0x3E34433444312D64657672657365723C202020414E202320202020202020202020202020202020202020202020202020202020206465776F6C6C61736964203B2020202020202020203443344431,
  0x50204C4C414D5320545049524353204C41434954414D454854414D2020312E3320232020202020202020202030373030203B202020202020202020202020202020202064657070616D203B2020202020202020203543344431,
  0x51204C4C414D5320545049524353204C41434954414D454854414D2020312E3320232020202020202020202031373030203B202020202020202020202020202020202064657070616D203B2020202020202020203643344431,
  0x52204C4C414D5320545049524353204C41434954414D454854414D2020312E3320232020202020202020202032373030203B202020202020202020202020202020202064657070616D203B2020202020202020203743344431,
  0x53204C4C414D5320545049524353204C41434954414D454854414D2020312E3320232020202020202020202033373030203B202020202020202020202020202020202064657070616D203B2020202020202020203843344431,
  0x54204C4C414D5320545049524353204C41434954414D454854414D2020312E3320232020202020202020202034373030203B202020202020202020202020202020202064657070616D203B2020202020202020203943344431,
  0x55204C4C414D5320545049524353204C41434954414D454854414D2020312E3320232020202020202020202035373030203B202020202020202020202020202020202064657070616D203B2020202020202020204143344431,
  0x56204C4C414D5320545049524353204C41434954414D454854414D2020312E3320232020202020202020202036373030203B202020202020202020202020202020202064657070616D203B2020202020202020204243344431,
  0x57204C4C414D5320545049524353204C41434954414D454854414D2020312E3320232020202020202020202037373030203B202020202020202020202020202020202064657070616D203B2020202020202020204343344431,
  0x58204C4C414D5320545049524353204C41434954414D454854414D2020312E3320232020202020202020202038373030203B202020202020202020202020202020202064657070616D203B2020202020202020204443344431,
  0x59204C4C414D5320545049524353204C41434954414D454854414D2020312E3320232020202020202020202039373030203B202020202020202020202020202020202064657070616D203B2020202020202020204543344431,
  0x5A204C4C414D5320545049524353204C41434954414D454854414D2020312E3320232020202020202020202041373030203B202020202020202020202020202020202064657070616D203B2020202020202020204643344431,
  0x41204C4154495041432054504952435320444C4F42204C41434954414D454854414D2020312E3320232020202020202020202031363030203B202020202020202020202020202020202064657070616D203B2020202020202020203044344431,
  0x42204C4154495041432054504952435320444C4F42204C41434954414D454854414D2020312E3320232020202020202020202032363030203B202020202020202020202020202020202064657070616D203B2020202020202020203144344431,
  0x43204C4154495041432054504952435320444C4F42204C41434954414D454854414D2020312E3320232020202020202020202033363030203B202020202020202020202020202020202064657070616D203B2020202020202020203244344431,
  0x44204C4154495041432054504952435320444C4F42204C41434954414D454854414D2020312E3320232020202020202020202034363030203B202020202020202020202020202020202064657070616D203B2020202020202020203344344431,
  0x45204C4154495041432054504952435320444C4F42204C41434954414D454854414D2020312E3320232020202020202020202035363030203B202020202020202020202020202020202064657070616D203B2020202020202020203444344431,
  0x46204C4154495041432054504952435320444C4F42204C41434954414D454854414D2020312E3320232020202020202020202036363030203B202020202020202020202020202020202064657070616D203B2020202020202020203544344431,
  0x47204C4154495041432054504952435320444C4F42204C41434954414D454854414D2020312E3320232020202020202020202037363030203B202020202020202020202020202020202064657070616D203B2020202020202020203644344431,
  0x48204C4154495041432054504952435320444C4F42204C41434954414D454854414D2020312E3320232020202020202020202038363030203B202020202020202020202020202020202064657070616D203B2020202020202020203744344431,
  0x49204C4154495041432054504952435320444C4F42204C41434954414D454854414D2020312E3320232020202020202020202039363030203B202020202020202020202020202020202064657070616D203B2020202020202020203844344431,
  0x4A204C4154495041432054504952435320444C4F42204C41434954414D454854414D2020312E3320232020202020202020202041363030203B202020202020202020202020202020202064657070616D203B2020202020202020203944344431,
  0x4B204C4154495041432054504952435320444C4F42204C41434954414D454854414D2020312E3320232020202020202020202042363030203B202020202020202020202020202020202064657070616D203B2020202020202020204144344431,
  0x4C204C4154495041432054504952435320444C4F42204C41434954414D454854414D2020312E3320232020202020202020202043363030203B202020202020202020202020202020202064657070616D203B2020202020202020204244344431,
  0x4D204C4154495041432054504952435320444C4F42204C41434954414D454854414D2020312E3320232020202020202020202044363030203B202020202020202020202020202020202064657070616D203B2020202020202020204344344431,
  0x4E204C4154495041432054504952435320444C4F42204C41434954414D454854414D2020312E3320232020202020202020202045363030203B202020202020202020202020202020202064657070616D203B2020202020202020204444344431,
  0x4F204C4154495041432054504952435320444C4F42204C41434954414D454854414D2020312E3320232020202020202020202046363030203B202020202020202020202020202020202064657070616D203B2020202020202020204544344431,
  0x50204C4154495041432054504952435320444C4F42204C41434954414D454854414D2020312E3320232020202020202020202030373030203B202020202020202020202020202020202064657070616D203B2020202020202020204644344431,
  0x51204C4154495041432054504952435320444C4F42204C41434954414D454854414D2020312E3320232020202020202020202031373030203B202020202020202020202020202020202064657070616D203B2020202020202020203045344431,
  0x52204C4154495041432054504952435320444C4F42204C41434954414D454854414D2020312E3320232020202020202020202032373030203B202020202020202020202020202020202064657070616D203B2020202020202020203145344431,
  0x53204C4154495041432054504952435320444C4F42204C41434954414D454854414D2020312E3320232020202020202020202033373030203B202020202020202020202020202020202064657070616D203B2020202020202020203245344431,
  0x54204C4154495041432054504952435320444C4F42204C41434954414D454854414D2020312E3320232020202020202020202034373030203B202020202020202020202020202020202064657070616D203B2020202020202020203345344431,
  0x55204C4154495041432054504952435320444C4F42204C41434954414D454854414D2020312E3320232020202020202020202035373030203B202020202020202020202020202020202064657070616D203B2020202020202020203445344431,
  0x56204C4154495041432054504952435320444C4F42204C41434954414D454854414D2020312E3320232020202020202020202036373030203B202020202020202020202020202020202064657070616D203B2020202020202020203545344431,
  0x57204C4154495041432054504952435320444C4F42204C41434954414D454854414D2020312E3320232020202020202020202037373030203B202020202020202020202020202020202064657070616D203B2020202020202020203645344431,
  0x58204C4154495041432054504952435320444C4F42204C41434954414D454854414D2020312E3320232020202020202020202038373030203B202020202020202020202020202020202064657070616D203B2020202020202020203745344431,
  0x59204C4154495041432054504952435320444C4F42204C41434954414D454854414D2020312E3320232020202020202020202039373030203B202020202020202020202020202020202064657070616D203B2020202020202020203845344431,
  0x5A204C4154495041432054504952435320444C4F42204C41434954414D454854414D2020312E3320232020202020202020202041373030203B202020202020202020202020202020202064657070616D203B2020202020202020203945344431,
  0x41204C4C414D532054504952435320444C4F42204C41434954414D454854414D2020312E3320232020202020202020202031363030203B202020202020202020202020202020202064657070616D203B2020202020202020204145344431,
  0x42204C4C414D532054504952435320444C4F42204C41434954414D454854414D2020312E3320232020202020202020202032363030203B202020202020202020202020202020202064657070616D203B2020202020202020204245344431,
  0x43204C4C414D532054504952435320444C4F42204C41434954414D454854414D2020312E3320232020202020202020202033363030203B202020202020202020202020202020202064657070616D203B2020202020202020204345344431,
  0x44204C4C414D532054504952435320444C4F42204C41434954414D454854414D2020312E3320232020202020202020202034363030203B202020202020202020202020202020202064657070616D203B2020202020202020204445344431,
  0x45204C4C414D532054504952435320444C4F42204C41434954414D454854414D2020312E3320232020202020202020202035363030203B202020202020202020202020202020202064657070616D203B2020202020202020204545344431,
  0x46204C4C414D532054504952435320444C4F42204C41434954414D454854414D2020312E3320232020202020202020202036363030203B202020202020202020202020202020202064657070616D203B2020202020202020204645344431,
  0x47204C4C414D532054504952435320444C4F42204C41434954414D454854414D2020312E3320232020202020202020202037363030203B202020202020202020202020202020202064657070616D203B2020202020202020203046344431,
  0x48204C4C414D532054504952435320444C4F42204C41434954414D454854414D2020312E3320232020202020202020202038363030203B202020202020202020202020202020202064657070616D203B2020202020202020203146344431,
  0x49204C4C414D532054504952435320444C4F42204C41434954414D454854414D2020312E3320232020202020202020202039363030203B202020202020202020202020202020202064657070616D203B2020202020202020203246344431,
  0x4A204C4C414D532054504952435320444C4F42204C41434954414D454854414D2020312E3320232020202020202020202041363030203B202020202020202020202020202020202064657070616D203B2020202020202020203346344431]

def mapText27 : List Nat := [
  0x4B204C4C414D532054504952435320444C4F42204C41434954414D454854414D2020312E3320232020202020202020202042363030203B202020202020202020202020202020202064657070616D203B2020202020202020203446344431,
  0x4C204C4C414D532054504952435320444C4F42204C41434954414D454854414D2020312E3320232020202020202020202043363030203B202020202020202020202020202020202064657070616D203B2020202020202020203546344431,
  0x4D204C4C414D532054504952435320444C4F42204C41434954414D454854414D2020312E3320232020202020202020202044363030203B202020202020202020202020202020202064657070616D203B2020202020202020203646344431,
  0x4E204C4C414D532054504952435320444C4F42204C41434954414D454854414D2020312E3320232020202020202020202045363030203B202020202020202020202020202020202064657070616D203B2020202020202020203746344431,
  0x4F204C4C414D532054504952435320444C4F42204C41434954414D454854414D2020312E3320232020202020202020202046363030203B202020202020202020202020202020202064657070616D203B2020202020202020203846344431,
  0x50204C4C414D532054504952435320444C4F42204C41434954414D454854414D2020312E3320232020202020202020202030373030203B202020202020202020202020202020202064657070616D203B2020202020202020203946344431,
  0x51204C4C414D532054504952435320444C4F42204C41434954414D454854414D2020312E3320232020202020202020202031373030203B202020202020202020202020202020202064657070616D203B2020202020202020204146344431,
  0x52204C4C414D532054504952435320444C4F42204C41434954414D454854414D2020312E3320232020202020202020202032373030203B202020202020202020202020202020202064657070616D203B2020202020202020204246344431,
  0x53204C4C414D532054504952435320444C4F42204C41434954414D454854414D2020312E3320232020202020202020202033373030203B202020202020202020202020202020202064657070616D203B2020202020202020204346344431,
  0x54204C4C414D532054504952435320444C4F42204C41434954414D454854414D2020312E3320232020202020202020202034373030203B202020202020202020202020202020202064657070616D203B2020202020202020204446344431,
  0x55204C4C414D532054504952435320444C4F42204C41434954414D454854414D2020312E3320232020202020202020202035373030203B202020202020202020202020202020202064657070616D203B2020202020202020204546344431,
  0x56204C4C414D532054504952435320444C4F42204C41434954414D454854414D2020312E3320232020202020202020202036373030203B202020202020202020202020202020202064657070616D203B2020202020202020204646344431,
  0x57204C4C414D532054504952435320444C4F42204C41434954414D454854414D2020312E3320232020202020202020202037373030203B202020202020202020202020202020202064657070616D203B2020202020202020203030354431,
  0x58204C4C414D532054504952435320444C4F42204C41434954414D454854414D2020312E3320232020202020202020202038373030203B202020202020202020202020202020202064657070616D203B2020202020202020203130354431,
  0x59204C4C414D532054504952435320444C4F42204C41434954414D454854414D2020312E3320232020202020202020202039373030203B202020202020202020202020202020202064657070616D203B2020202020202020203230354431,
  0x5A204C4C414D532054504952435320444C4F42204C41434954414D454854414D2020312E3320232020202020202020202041373030203B202020202020202020202020202020202064657070616D203B2020202020202020203330354431,
  0x41204C415449504143205255544B415246204C41434954414D454854414D2020312E3320232020202020202020202031363030203B202020202020202020202020202020202064657070616D203B2020202020202020203430354431,
  0x42204C415449504143205255544B415246204C41434954414D454854414D2020312E3320232020202020202020202032363030203B202020202020202020202020202020202064657070616D203B2020202020202020203530354431,
  0x3E36303544312D64657672657365723C202020414E202320202020202020202020202020202020202020202020202020202020206465776F6C6C61736964203B2020202020202020203630354431,
  0x44204C415449504143205255544B415246204C41434954414D454854414D2020312E3320232020202020202020202034363030203B202020202020202020202020202020202064657070616D203B2020202020202020203730354431,
  0x45204C415449504143205255544B415246204C41434954414D454854414D2020312E3320232020202020202020202035363030203B202020202020202020202020202020202064657070616D203B2020202020202020203830354431,
  0x46204C415449504143205255544B415246204C41434954414D454854414D2020312E3320232020202020202020202036363030203B202020202020202020202020202020202064657070616D203B2020202020202020203930354431,
  0x47204C415449504143205255544B415246204C41434954414D454854414D2020312E3320232020202020202020202037363030203B202020202020202020202020202020202064657070616D203B2020202020202020204130354431,
  0x3E43303544312D64657672657365723C2E2E3E42303544312D64657672657365723C202020414E202320202020202020202020202020202020202020202020202020202020206465776F6C6C61736964203B202043303544312E2E4230354431,
  0x4A204C415449504143205255544B415246204C41434954414D454854414D2020312E3320232020202020202020202041363030203B202020202020202020202020202020202064657070616D203B2020202020202020204430354431,
  0x4B204C415449504143205255544B415246204C41434954414D454854414D2020312E3320232020202020202020202042363030203B202020202020202020202020202020202064657070616D203B2020202020202020204530354431,
  0x4C204C415449504143205255544B415246204C41434954414D454854414D2020312E3320232020202020202020202043363030203B202020202020202020202020202020202064657070616D203B2020202020202020204630354431,
  0x4D204C415449504143205255544B415246204C41434954414D454854414D2020312E3320232020202020202020202044363030203B202020202020202020202020202020202064657070616D203B2020202020202020203031354431,
  0x4E204C415449504143205255544B415246204C41434954414D454854414D2020312E3320232020202020202020202045363030203B202020202020202020202020202020202064657070616D203B2020202020202020203131354431,
  0x4F204C415449504143205255544B415246204C41434954414D454854414D2020312E3320232020202020202020202046363030203B202020202020202020202020202020202064657070616D203B2020202020202020203231354431,
  0x50204C415449504143205255544B415246204C41434954414D454854414D2020312E3320232020202020202020202030373030203B202020202020202020202020202020202064657070616D203B2020202020202020203331354431,
  0x51204C415449504143205255544B415246204C41434954414D454854414D2020312E3320232020202020202020202031373030203B202020202020202020202020202020202064657070616D203B2020202020202020203431354431,
  0x3E35313544312D64657672657365723C202020414E202320202020202020202020202020202020202020202020202020202020206465776F6C6C61736964203B2020202020202020203531354431,
  0x53204C415449504143205255544B415246204C41434954414D454854414D2020312E3320232020202020202020202033373030203B202020202020202020202020202020202064657070616D203B2020202020202020203631354431,
  0x54204C415449504143205255544B415246204C41434954414D454854414D2020312E3320232020202020202020202034373030203B202020202020202020202020202020202064657070616D203B2020202020202020203731354431,
  0x55204C415449504143205255544B415246204C41434954414D454854414D2020312E3320232020202020202020202035373030203B202020202020202020202020202020202064657070616D203B2020202020202020203831354431,
  0x56204C415449504143205255544B415246204C41434954414D454854414D2020312E3320232020202020202020202036373030203B202020202020202020202020202020202064657070616D203B2020202020202020203931354431,
  0x57204C415449504143205255544B415246204C41434954414D454854414D2020312E3320232020202020202020202037373030203B202020202020202020202020202020202064657070616D203B2020202020202020204131354431,
  0x58204C415449504143205255544B415246204C41434954414D454854414D2020312E3320232020202020202020202038373030203B202020202020202020202020202020202064657070616D203B2020202020202020204231354431,
  0x59204C415449504143205255544B415246204C41434954414D454854414D2020312E3320232020202020202020202039373030203B202020202020202020202020202020202064657070616D203B2020202020202020204331354431,
  0x3E44313544312D64657672657365723C202020414E202320202020202020202020202020202020202020202020202020202020206465776F6C6C61736964203B2020202020202020204431354431,
  0x41204C4C414D53205255544B415246204C41434954414D454854414D2020312E3320232020202020202020202031363030203B202020202020202020202020202020202064657070616D203B2020202020202020204531354431,
  0x42204C4C414D53205255544B415246204C41434954414D454854414D2020312E3320232020202020202020202032363030203B202020202020202020202020202020202064657070616D203B2020202020202020204631354431,
  0x43204C4C414D53205255544B415246204C41434954414D454854414D2020312E3320232020202020202020202033363030203B202020202020202020202020202020202064657070616D203B2020202020202020203032354431,
  0x44204C4C414D53205255544B415246204C41434954414D454854414D2020312E3320232020202020202020202034363030203B202020202020202020202020202020202064657070616D203B2020202020202020203132354431,
  0x45204C4C414D53205255544B415246204C41434954414D454854414D2020312E3320232020202020202020202035363030203B202020202020202020202020202020202064657070616D203B2020202020202020203232354431,
  0x46204C4C414D53205255544B415246204C41434954414D454854414D2020312E3320232020202020202020202036363030203B202020202020202020202020202020202064657070616D203B2020202020202020203332354431,
  0x47204C4C414D53205255544B415246204C41434954414D454854414D2020312E3320232020202020202020202037363030203B202020202020202020202020202020202064657070616D203B2020202020202020203432354431,
  0x48204C4C414D53205255544B415246204C41434954414D454854414D2020312E3320232020202020202020202038363030203B202020202020202020202020202020202064657070616D203B2020202020202020203532354431,
  0x49204C4C414D53205255544B415246204C41434954414D454854414D2020312E3320232020202020202020202039363030203B202020202020202020202020202020202064657070616D203B2020202020202020203632354431,
  0x4A204C4C414D53205255544B415246204C41434954414D454854414D2020312E3320232020202020202020202041363030203B202020202020202020202020202020202064657070616D203B2020202020202020203732354431,
  0x4B204C4C414D53205255544B415246204C41434954414D454854414D2020312E3320232020202020202020202042363030203B202020202020202020202020202020202064657070616D203B2020202020202020203832354431,
  0x4C204C4C414D53205255544B415246204C41434954414D454854414D2020312E3320232020202020202020202043363030203B202020202020202020202020202020202064657070616D203B2020202020202020203932354431,
  0x4D204C4C414D53205255544B415246204C41434954414D454854414D2020312E3320232020202020202020202044363030203B202020202020202020202020202020202064657070616D203B2020202020202020204132354431,
  0x4E204C4C414D53205255544B415246204C41434954414D454854414D2020312E3320232020202020202020202045363030203B202020202020202020202020202020202064657070616D203B2020202020202020204232354431,
  0x4F204C4C414D53205255544B415246204C41434954414D454854414D2020312E3320232020202020202020202046363030203B202020202020202020202020202020202064657070616D203B2020202020202020204332354431,
  0x50204C4C414D53205255544B415246204C41434954414D454854414D2020312E3320232020202020202020202030373030203B202020202020202020202020202020202064657070616D203B2020202020202020204432354431,
  0x51204C4C414D53205255544B415246204C41434954414D454854414D2020312E3320232020202020202020202031373030203B202020202020202020202020202020202064657070616D203B2020202020202020204532354431,
  0x52204C4C414D53205255544B415246204C41434954414D454854414D2020312E3320232020202020202020202032373030203B202020202020202020202020202020202064657070616D203B2020202020202020204632354431,
  0x53204C4C414D53205255544B415246204C41434954414D454854414D2020312E3320232020202020202020202033373030203B202020202020202020202020202020202064657070616D203B2020202020202020203033354431,
  0x54204C4C414D53205255544B415246204C41434954414D454854414D2020312E3320232020202020202020202034373030203B202020202020202020202020202020202064657070616D203B2020202020202020203133354431,
  0x55204C4C414D53205255544B415246204C41434954414D454854414D2020312E3320232020202020202020202035373030203B202020202020202020202020202020202064657070616D203B2020202020202020203233354431,
  0x56204C4C414D53205255544B415246204C41434954414D454854414D2020312E3320232020202020202020202036373030203B202020202020202020202020202020202064657070616D203B2020202020202020203333354431,
  0x57204C4C414D53205255544B415246204C41434954414D454854414D2020312E3320232020202020202020202037373030203B202020202020202020202020202020202064657070616D203B2020202020202020203433354431,
  0x58204C4C414D53205255544B415246204C41434954414D454854414D2020312E3320232020202020202020202038373030203B202020202020202020202020202020202064657070616D203B2020202020202020203533354431,
  0x59204C4C414D53205255544B415246204C41434954414D454854414D2020312E3320232020202020202020202039373030203B202020202020202020202020202020202064657070616D203B2020202020202020203633354431,
  0x5A204C4C414D53205255544B415246204C41434954414D454854414D2020312E3320232020202020202020202041373030203B202020202020202020202020202020202064657070616D203B2020202020202020203733354431,
  0x41204C415449504143204B43555254532D454C42554F44204C41434954414D454854414D2020312E3320232020202020202020202031363030203B202020202020202020202020202020202064657070616D203B2020202020202020203833354431,
  0x42204C415449504143204B43555254532D454C42554F44204C41434954414D454854414D2020312E3320232020202020202020202032363030203B202020202020202020202020202020202064657070616D203B2020202020202020203933354431,
  0x3E41333544312D64657672657365723C202020414E202320202020202020202020202020202020202020202020202020202020206465776F6C6C61736964203B2020202020202020204133354431,
  0x44204C415449504143204B43555254532D454C42554F44204C41434954414D454854414D2020312E3320232020202020202020202034363030203B202020202020202020202020202020202064657070616D203B2020202020202020204233354431,
  0x45204C415449504143204B43555254532D454C42554F44204C41434954414D454854414D2020312E3320232020202020202020202035363030203B202020202020202020202020202020202064657070616D203B2020202020202020204333354431,
  0x46204C415449504143204B43555254532D454C42554F44204C41434954414D454854414D2020312E3320232020202020202020202036363030203B202020202020202020202020202020202064657070616D203B2020202020202020204433354431,
  0x47204C415449504143204B43555254532D454C42554F44204C41434954414D454854414D2020312E3320232020202020202020202037363030203B202020202020202020202020202020202064657070616D203B2020202020202020204533354431,
  0x3E46333544312D64657672657365723C202020414E202320202020202020202020202020202020202020202020202020202020206465776F6C6C61736964203B2020202020202020204633354431,
  0x49204C415449504143204B43555254532D454C42554F44204C41434954414D454854414D2020312E3320232020202020202020202039363030203B202020202020202020202020202020202064657070616D203B2020202020202020203034354431,
  0x4A204C415449504143204B43555254532D454C42554F44204C41434954414D454854414D2020312E3320232020202020202020202041363030203B202020202020202020202020202020202064657070616D203B2020202020202020203134354431,
  0x4B204C415449504143204B43555254532D454C42554F44204C41434954414D454854414D2020312E3320232020202020202020202042363030203B202020202020202020202020202020202064657070616D203B2020202020202020203234354431,
  0x4C204C415449504143204B43555254532D454C42554F44204C41434954414D454854414D2020312E3320232020202020202020202043363030203B202020202020202020202020202020202064657070616D203B2020202020202020203334354431,
  0x4D204C415449504143204B43555254532D454C42554F44204C41434954414D454854414D2020312E3320232020202020202020202044363030203B202020202020202020202020202020202064657070616D203B2020202020202020203434354431,
  0x3E35343544312D64657672657365723C202020414E202320202020202020202020202020202020202020202020202020202020206465776F6C6C61736964203B2020202020202020203534354431,
  0x4F204C415449504143204B43555254532D454C42554F44204C41434954414D454854414D2020312E3320232020202020202020202046363030203B202020202020202020202020202020202064657070616D203B2020202020202020203634354431,
  0x3E39343544312D64657672657365723C2E2E3E37343544312D64657672657365723C202020414E202320202020202020202020202020202020202020202020202020202020206465776F6C6C61736964203B202039343544312E2E3734354431,
  0x53204C415449504143204B43555254532D454C42554F44204C41434954414D454854414D2020312E3320232020202020202020202033373030203B202020202020202020202020202020202064657070616D203B2020202020202020204134354431,
  0x54204C415449504143204B43555254532D454C42554F44204C41434954414D454854414D2020312E3320232020202020202020202034373030203B202020202020202020202020202020202064657070616D203B2020202020202020204234354431,
  0x55204C415449504143204B43555254532D454C42554F44204C41434954414D454854414D2020312E3320232020202020202020202035373030203B202020202020202020202020202020202064657070616D203B2020202020202020204334354431,
  0x56204C415449504143204B43555254532D454C42554F44204C41434954414D454854414D2020312E3320232020202020202020202036373030203B202020202020202020202020202020202064657070616D203B2020202020202020204434354431,
  0x57204C415449504143204B43555254532D454C42554F44204C41434954414D454854414D2020312E3320232020202020202020202037373030203B202020202020202020202020202020202064657070616D203B2020202020202020204534354431,
  0x58204C415449504143204B43555254532D454C42554F44204C41434954414D454854414D2020312E3320232020202020202020202038373030203B202020202020202020202020202020202064657070616D203B2020202020202020204634354431,
  0x59204C415449504143204B43555254532D454C42554F44204C41434954414D454854414D2020312E3320232020202020202020202039373030203B202020202020202020202020202020202064657070616D203B2020202020202020203035354431,
  0x3E31353544312D64657672657365723C202020414E202320202020202020202020202020202020202020202020202020202020206465776F6C6C61736964203B2020202020202020203135354431,
  0x41204C4C414D53204B43555254532D454C42554F44204C41434954414D454854414D2020312E3320232020202020202020202031363030203B202020202020202020202020202020202064657070616D203B2020202020202020203235354431,
  0x42204C4C414D53204B43555254532D454C42554F44204C41434954414D454854414D2020312E3320232020202020202020202032363030203B202020202020202020202020202020202064657070616D203B2020202020202020203335354431,
  0x43204C4C414D53204B43555254532D454C42554F44204C41434954414D454854414D2020312E3320232020202020202020202033363030203B202020202020202020202020202020202064657070616D203B2020202020202020203435354431,
  0x44204C4C414D53204B43555254532D454C42554F44204C41434954414D454854414D2020312E3320232020202020202020202034363030203B202020202020202020202020202020202064657070616D203B2020202020202020203535354431,
  0x45204C4C414D53204B43555254532D454C42554F44204C41434954414D454854414D2020312E3320232020202020202020202035363030203B202020202020202020202020202020202064657070616D203B2020202020202020203635354431,
  0x46204C4C414D53204B43555254532D454C42554F44204C41434954414D454854414D2020312E3320232020202020202020202036363030203B202020202020202020202020202020202064657070616D203B2020202020202020203735354431,
  0x47204C4C414D53204B43555254532D454C42554F44204C41434954414D454854414D2020312E3320232020202020202020202037363030203B202020202020202020202020202020202064657070616D203B2020202020202020203835354431,
  0x48204C4C414D53204B43555254532D454C42554F44204C41434954414D454854414D2020312E3320232020202020202020202038363030203B202020202020202020202020202020202064657070616D203B2020202020202020203935354431,
  0x49204C4C414D53204B43555254532D454C42554F44204C41434954414D454854414D2020312E3320232020202020202020202039363030203B202020202020202020202020202020202064657070616D203B2020202020202020204135354431,
  0x4A204C4C414D53204B43555254532D454C42554F44204C41434954414D454854414D2020312E3320232020202020202020202041363030203B202020202020202020202020202020202064657070616D203B2020202020202020204235354431,
  0x4B204C4C414D53204B43555254532D454C42554F44204C41434954414D454854414D2020312E3320232020202020202020202042363030203B202020202020202020202020202020202064657070616D203B2020202020202020204335354431,
  0x4C204C4C414D53204B43555254532D454C42554F44204C41434954414D454854414D2020312E3320232020202020202020202043363030203B202020202020202020202020202020202064657070616D203B2020202020202020204435354431,
  0x4D204C4C414D53204B43555254532D454C42554F44204C41434954414D454854414D2020312E3320232020202020202020202044363030203B202020202020202020202020202020202064657070616D203B2020202020202020204535354431,
  0x4E204C4C414D53204B43555254532D454C42554F44204C41434954414D454854414D2020312E3320232020202020202020202045363030203B202020202020202020202020202020202064657070616D203B2020202020202020204635354431,
  0x4F204C4C414D53204B43555254532D454C42554F44204C41434954414D454854414D2020312E3320232020202020202020202046363030203B202020202020202020202020202020202064657070616D203B2020202020202020203036354431,
  0x50204C4C414D53204B43555254532D454C42554F44204C41434954414D454854414D2020312E3320232020202020202020202030373030203B202020202020202020202020202020202064657070616D203B2020202020202020203136354431,
  0x51204C4C414D53204B43555254532D454C42554F44204C41434954414D454854414D2020312E3320232020202020202020202031373030203B202020202020202020202020202020202064657070616D203B2020202020202020203236354431,
  0x52204C4C414D53204B43555254532D454C42554F44204C41434954414D454854414D2020312E3320232020202020202020202032373030203B202020202020202020202020202020202064657070616D203B2020202020202020203336354431,
  0x53204C4C414D53204B43555254532D454C42554F44204C41434954414D454854414D2020312E3320232020202020202020202033373030203B202020202020202020202020202020202064657070616D203B2020202020202020203436354431,
  0x54204C4C414D53204B43555254532D454C42554F44204C41434954414D454854414D2020312E3320232020202020202020202034373030203B202020202020202020202020202020202064657070616D203B2020202020202020203536354431,
  0x55204C4C414D53204B43555254532D454C42554F44204C41434954414D454854414D2020312E3320232020202020202020202035373030203B202020202020202020202020202020202064657070616D203B2020202020202020203636354431,
  0x56204C4C414D53204B43555254532D454C42554F44204C41434954414D454854414D2020312E3320232020202020202020202036373030203B202020202020202020202020202020202064657070616D203B2020202020202020203736354431,
  0x57204C4C414D53204B43555254532D454C42554F44204C41434954414D454854414D2020312E3320232020202020202020202037373030203B202020202020202020202020202020202064657070616D203B2020202020202020203836354431,
  0x58204C4C414D53204B43555254532D454C42554F44204C41434954414D454854414D2020312E3320232020202020202020202038373030203B202020202020202020202020202020202064657070616D203B2020202020202020203936354431,
  0x59204C4C414D53204B43555254532D454C42554F44204C41434954414D454854414D2020312E3320232020202020202020202039373030203B202020202020202020202020202020202064657070616D203B2020202020202020204136354431,
  0x5A204C4C414D53204B43555254532D454C42554F44204C41434954414D454854414D2020312E3320232020202020202020202041373030203B202020202020202020202020202020202064657070616D203B2020202020202020204236354431,
  0x41204C415449504143205255544B41524620444C4F42204C41434954414D454854414D2020312E3320232020202020202020202031363030203B202020202020202020202020202020202064657070616D203B2020202020202020204336354431,
  0x42204C415449504143205255544B41524620444C4F42204C41434954414D454854414D2020312E3320232020202020202020202032363030203B202020202020202020202020202020202064657070616D203B2020202020202020204436354431,
  0x43204C415449504143205255544B41524620444C4F42204C41434954414D454854414D2020312E3320232020202020202020202033363030203B202020202020202020202020202020202064657070616D203B2020202020202020204536354431,
  0x44204C415449504143205255544B41524620444C4F42204C41434954414D454854414D2020312E3320232020202020202020202034363030203B202020202020202020202020202020202064657070616D203B2020202020202020204636354431,
  0x45204C415449504143205255544B41524620444C4F42204C41434954414D454854414D2020312E3320232020202020202020202035363030203B202020202020202020202020202020202064657070616D203B2020202020202020203037354431,
  0x46204C415449504143205255544B41524620444C4F42204C41434954414D454854414D2020312E3320232020202020202020202036363030203B202020202020202020202020202020202064657070616D203B2020202020202020203137354431,
  0x47204C415449504143205255544B41524620444C4F42204C41434954414D454854414D2020312E3320232020202020202020202037363030203B202020202020202020202020202020202064657070616D203B2020202020202020203237354431,
  0x48204C415449504143205255544B41524620444C4F42204C41434954414D454854414D2020312E3320232020202020202020202038363030203B202020202020202020202020202020202064657070616D203B2020202020202020203337354431,
  0x49204C415449504143205255544B41524620444C4F42204C41434954414D454854414D2020312E3320232020202020202020202039363030203B202020202020202020202020202020202064657070616D203B2020202020202020203437354431,
  0x4A204C415449504143205255544B41524620444C4F42204C41434954414D454854414D2020312E3320232020202020202020202041363030203B202020202020202020202020202020202064657070616D203B2020202020202020203537354431,
  0x4B204C415449504143205255544B41524620444C4F42204C41434954414D454854414D2020312E3320232020202020202020202042363030203B202020202020202020202020202020202064657070616D203B2020202020202020203637354431,
  0x4C204C415449504143205255544B41524620444C4F42204C41434954414D454854414D2020312E3320232020202020202020202043363030203B202020202020202020202020202020202064657070616D203B2020202020202020203737354431,
  0x4D204C415449504143205255544B41524620444C4F42204C41434954414D454854414D2020312E3320232020202020202020202044363030203B202020202020202020202020202020202064657070616D203B2020202020202020203837354431,
  0x4E204C415449504143205255544B41524620444C4F42204C41434954414D454854414D2020312E3320232020202020202020202045363030203B202020202020202020202020202020202064657070616D203B2020202020202020203937354431,
  0x4F204C415449504143205255544B41524620444C4F42204C41434954414D454854414D2020312E3320232020202020202020202046363030203B202020202020202020202020202020202064657070616D203B2020202020202020204137354431,
  0x50204C415449504143205255544B41524620444C4F42204C41434954414D454854414D2020312E3320232020202020202020202030373030203B202020202020202020202020202020202064657070616D203B2020202020202020204237354431,
  0x51204C415449504143205255544B41524620444C4F42204C41434954414D454854414D2020312E3320232020202020202020202031373030203B202020202020202020202020202020202064657070616D203B2020202020202020204337354431,
  0x52204C415449504143205255544B41524620444C4F42204C41434954414D454854414D2020312E3320232020202020202020202032373030203B202020202020202020202020202020202064657070616D203B2020202020202020204437354431,
  0x53204C415449504143205255544B41524620444C4F42204C41434954414D454854414D2020312E3320232020202020202020202033373030203B202020202020202020202020202020202064657070616D203B2020202020202020204537354431,
  0x54204C415449504143205255544B41524620444C4F42204C41434954414D454854414D2020312E3320232020202020202020202034373030203B202020202020202020202020202020202064657070616D203B2020202020202020204637354431,
  0x55204C415449504143205255544B41524620444C4F42204C41434954414D454854414D2020312E3320232020202020202020202035373030203B202020202020202020202020202020202064657070616D203B2020202020202020203038354431,
  0x56204C415449504143205255544B41524620444C4F42204C41434954414D454854414D2020312E3320232020202020202020202036373030203B202020202020202020202020202020202064657070616D203B2020202020202020203138354431,
  0x57204C415449504143205255544B41524620444C4F42204C41434954414D454854414D2020312E3320232020202020202020202037373030203B202020202020202020202020202020202064657070616D203B2020202020202020203238354431,
  0x58204C415449504143205255544B41524620444C4F42204C41434954414D454854414D2020312E3320232020202020202020202038373030203B202020202020202020202020202020202064657070616D203B2020202020202020203338354431,
  0x59204C415449504143205255544B41524620444C4F42204C41434954414D454854414D2020312E3320232020202020202020202039373030203B202020202020202020202020202020202064657070616D203B2020202020202020203438354431,
  0x5A204C415449504143205255544B41524620444C4F42204C41434954414D454854414D2020312E3320232020202020202020202041373030203B202020202020202020202020202020202064657070616D203B2020202020202020203538354431,
  0x41204C4C414D53205255544B41524620444C4F42204C41434954414D454854414D2020312E3320232020202020202020202031363030203B202020202020202020202020202020202064657070616D203B2020202020202020203638354431,
  0x42204C4C414D53205255544B41524620444C4F42204C41434954414D454854414D2020312E3320232020202020202020202032363030203B202020202020202020202020202020202064657070616D203B2020202020202020203738354431,
  0x43204C4C414D53205255544B41524620444C4F42204C41434954414D454854414D2020312E3320232020202020202020202033363030203B202020202020202020202020202020202064657070616D203B2020202020202020203838354431,
  0x44204C4C414D53205255544B41524620444C4F42204C41434954414D454854414D2020312E3320232020202020202020202034363030203B202020202020202020202020202020202064657070616D203B2020202020202020203938354431,
  0x45204C4C414D53205255544B41524620444C4F42204C41434954414D454854414D2020312E3320232020202020202020202035363030203B202020202020202020202020202020202064657070616D203B2020202020202020204138354431,
  0x46204C4C414D53205255544B41524620444C4F42204C41434954414D454854414D2020312E3320232020202020202020202036363030203B202020202020202020202020202020202064657070616D203B2020202020202020204238354431,
  0x47204C4C414D53205255544B41524620444C4F42204C41434954414D454854414D2020312E3320232020202020202020202037363030203B202020202020202020202020202020202064657070616D203B2020202020202020204338354431,
  0x48204C4C414D53205255544B41524620444C4F42204C41434954414D454854414D2020312E3320232020202020202020202038363030203B202020202020202020202020202020202064657070616D203B2020202020202020204438354431,
  0x49204C4C414D53205255544B41524620444C4F42204C41434954414D454854414D2020312E3320232020202020202020202039363030203B202020202020202020202020202020202064657070616D203B2020202020202020204538354431,
  0x4A204C4C414D53205255544B41524620444C4F42204C41434954414D454854414D2020312E3320232020202020202020202041363030203B202020202020202020202020202020202064657070616D203B2020202020202020204638354431,
  0x4B204C4C414D53205255544B41524620444C4F42204C41434954414D454854414D2020312E3320232020202020202020202042363030203B202020202020202020202020202020202064657070616D203B2020202020202020203039354431,
  0x4C204C4C414D53205255544B41524620444C4F42204C41434954414D454854414D2020312E3320232020202020202020202043363030203B202020202020202020202020202020202064657070616D203B2020202020202020203139354431,
  0x4D204C4C414D53205255544B41524620444C4F42204C41434954414D454854414D2020312E3320232020202020202020202044363030203B202020202020202020202020202020202064657070616D203B2020202020202020203239354431,
  0x4E204C4C414D53205255544B41524620444C4F42204C41434954414D454854414D2020312E3320232020202020202020202045363030203B202020202020202020202020202020202064657070616D203B2020202020202020203339354431,
  0x4F204C4C414D53205255544B41524620444C4F42204C41434954414D454854414D2020312E3320232020202020202020202046363030203B202020202020202020202020202020202064657070616D203B2020202020202020203439354431,
  0x50204C4C414D53205255544B41524620444C4F42204C41434954414D454854414D2020312E3320232020202020202020202030373030203B202020202020202020202020202020202064657070616D203B2020202020202020203539354431,
  0x51204C4C414D53205255544B41524620444C4F42204C41434954414D454854414D2020312E3320232020202020202020202031373030203B202020202020202020202020202020202064657070616D203B2020202020202020203639354431,
  0x52204C4C414D53205255544B41524620444C4F42204C41434954414D454854414D2020312E3320232020202020202020202032373030203B202020202020202020202020202020202064657070616D203B2020202020202020203739354431,
  0x53204C4C414D53205255544B41524620444C4F42204C41434954414D454854414D2020312E3320232020202020202020202033373030203B202020202020202020202020202020202064657070616D203B2020202020202020203839354431,
  0x54204C4C414D53205255544B41524620444C4F42204C41434954414D454854414D2020312E3320232020202020202020202034373030203B202020202020202020202020202020202064657070616D203B2020202020202020203939354431,
  0x55204C4C414D53205255544B41524620444C4F42204C41434954414D454854414D2020312E3320232020202020202020202035373030203B202020202020202020202020202020202064657070616D203B2020202020202020204139354431,
  0x56204C4C414D53205255544B41524620444C4F42204C41434954414D454854414D2020312E3320232020202020202020202036373030203B202020202020202020202020202020202064657070616D203B2020202020202020204239354431,
  0x57204C4C414D53205255544B41524620444C4F42204C41434954414D454854414D2020312E3320232020202020202020202037373030203B202020202020202020202020202020202064657070616D203B2020202020202020204339354431,
  0x58204C4C414D53205255544B41524620444C4F42204C41434954414D454854414D2020312E3320232020202020202020202038373030203B202020202020202020202020202020202064657070616D203B2020202020202020204439354431,
  0x59204C4C414D53205255544B41524620444C4F42204C41434954414D454854414D2020312E3320232020202020202020202039373030203B202020202020202020202020202020202064657070616D203B2020202020202020204539354431,
  0x5A204C4C414D53205255544B41524620444C4F42204C41434954414D454854414D2020312E3320232020202020202020202041373030203B202020202020202020202020202020202064657070616D203B2020202020202020204639354431,
  0x41204C4154495041432046495245532D534E4153204C41434954414D454854414D2020312E3320232020202020202020202031363030203B202020202020202020202020202020202064657070616D203B2020202020202020203041354431,
  0x42204C4154495041432046495245532D534E4153204C41434954414D454854414D2020312E3320232020202020202020202032363030203B202020202020202020202020202020202064657070616D203B2020202020202020203141354431,
  0x43204C4154495041432046495245532D534E4153204C41434954414D454854414D2020312E3320232020202020202020202033363030203B202020202020202020202020202020202064657070616D203B2020202020202020203241354431,
  0x44204C4154495041432046495245532D534E4153204C41434954414D454854414D2020312E3320232020202020202020202034363030203B202020202020202020202020202020202064657070616D203B2020202020202020203341354431,
  0x45204C4154495041432046495245532D534E4153204C41434954414D454854414D2020312E3320232020202020202020202035363030203B202020202020202020202020202020202064657070616D203B2020202020202020203441354431,
  0x46204C4154495041432046495245532D534E4153204C41434954414D454854414D2020312E3320232020202020202020202036363030203B202020202020202020202020202020202064657070616D203B2020202020202020203541354431,
  0x47204C4154495041432046495245532D534E4153204C41434954414D454854414D2020312E3320232020202020202020202037363030203B202020202020202020202020202020202064657070616D203B2020202020202020203641354431,
  0x48204C4154495041432046495245532D534E4153204C41434954414D454854414D2020312E3320232020202020202020202038363030203B202020202020202020202020202020202064657070616D203B2020202020202020203741354431,
  0x49204C4154495041432046495245532D534E4153204C41434954414D454854414D2020312E3320232020202020202020202039363030203B202020202020202020202020202020202064657070616D203B2020202020202020203841354431,
  0x4A204C4154495041432046495245532D534E4153204C41434954414D454854414D2020312E3320232020202020202020202041363030203B202020202020202020202020202020202064657070616D203B2020202020202020203941354431,
  0x4B204C4154495041432046495245532D534E4153204C41434954414D454854414D2020312E3320232020202020202020202042363030203B202020202020202020202020202020202064657070616D203B2020202020202020204141354431,
  0x4C204C4154495041432046495245532D534E4153204C41434954414D454854414D2020312E3320232020202020202020202043363030203B202020202020202020202020202020202064657070616D203B2020202020202020204241354431,
  0x4D204C4154495041432046495245532D534E4153204C41434954414D454854414D2020312E3320232020202020202020202044363030203B202020202020202020202020202020202064657070616D203B2020202020202020204341354431,
  0x4E204C4154495041432046495245532D534E4153204C41434954414D454854414D2020312E3320232020202020202020202045363030203B202020202020202020202020202020202064657070616D203B2020202020202020204441354431,
  0x4F204C4154495041432046495245532D534E4153204C41434954414D454854414D2020312E3320232020202020202020202046363030203B202020202020202020202020202020202064657070616D203B2020202020202020204541354431,
  0x50204C4154495041432046495245532D534E4153204C41434954414D454854414D2020312E3320232020202020202020202030373030203B202020202020202020202020202020202064657070616D203B2020202020202020204641354431,
  0x51204C4154495041432046495245532D534E4153204C41434954414D454854414D2020312E3320232020202020202020202031373030203B202020202020202020202020202020202064657070616D203B2020202020202020203042354431,
  0x52204C4154495041432046495245532D534E4153204C41434954414D454854414D2020312E3320232020202020202020202032373030203B202020202020202020202020202020202064657070616D203B2020202020202020203142354431,
  0x53204C4154495041432046495245532D534E4153204C41434954414D454854414D2020312E3320232020202020202020202033373030203B202020202020202020202020202020202064657070616D203B2020202020202020203242354431,
  0x54204C4154495041432046495245532D534E4153204C41434954414D454854414D2020312E3320232020202020202020202034373030203B202020202020202020202020202020202064657070616D203B2020202020202020203342354431,
  0x55204C4154495041432046495245532D534E4153204C41434954414D454854414D2020312E3320232020202020202020202035373030203B202020202020202020202020202020202064657070616D203B2020202020202020203442354431,
  0x56204C4154495041432046495245532D534E4153204C41434954414D454854414D2020312E3320232020202020202020202036373030203B202020202020202020202020202020202064657070616D203B2020202020202020203542354431,
  0x57204C4154495041432046495245532D534E4153204C41434954414D454854414D2020312E3320232020202020202020202037373030203B202020202020202020202020202020202064657070616D203B2020202020202020203642354431,
  0x58204C4154495041432046495245532D534E4153204C41434954414D454854414D2020312E3320232020202020202020202038373030203B202020202020202020202020202020202064657070616D203B2020202020202020203742354431,
  0x59204C4154495041432046495245532D534E4153204C41434954414D454854414D2020312E3320232020202020202020202039373030203B202020202020202020202020202020202064657070616D203B2020202020202020203842354431,
  0x5A204C4154495041432046495245532D534E4153204C41434954414D454854414D2020312E3320232020202020202020202041373030203B202020202020202020202020202020202064657070616D203B2020202020202020203942354431,
  0x41204C4C414D532046495245532D534E4153204C41434954414D454854414D2020312E3320232020202020202020202031363030203B202020202020202020202020202020202064657070616D203B2020202020202020204142354431,
  0x42204C4C414D532046495245532D534E4153204C41434954414D454854414D2020312E3320232020202020202020202032363030203B202020202020202020202020202020202064657070616D203B2020202020202020204242354431,
  0x43204C4C414D532046495245532D534E4153204C41434954414D454854414D2020312E3320232020202020202020202033363030203B202020202020202020202020202020202064657070616D203B2020202020202020204342354431,
  0x44204C4C414D532046495245532D534E4153204C41434954414D454854414D2020312E3320232020202020202020202034363030203B202020202020202020202020202020202064657070616D203B2020202020202020204442354431,
  0x45204C4C414D532046495245532D534E4153204C41434954414D454854414D2020312E3320232020202020202020202035363030203B202020202020202020202020202020202064657070616D203B2020202020202020204542354431,
  0x46204C4C414D532046495245532D534E4153204C41434954414D454854414D2020312E3320232020202020202020202036363030203B202020202020202020202020202020202064657070616D203B2020202020202020204642354431,
  0x47204C4C414D532046495245532D534E4153204C41434954414D454854414D2020312E3320232020202020202020202037363030203B202020202020202020202020202020202064657070616D203B2020202020202020203043354431,
  0x48204C4C414D532046495245532D534E4153204C41434954414D454854414D2020312E3320232020202020202020202038363030203B202020202020202020202020202020202064657070616D203B2020202020202020203143354431,
  0x49204C4C414D532046495245532D534E4153204C41434954414D454854414D2020312E3320232020202020202020202039363030203B202020202020202020202020202020202064657070616D203B2020202020202020203243354431,
  0x4A204C4C414D532046495245532D534E4153204C41434954414D454854414D2020312E3320232020202020202020202041363030203B202020202020202020202020202020202064657070616D203B2020202020202020203343354431,
  0x4B204C4C414D532046495245532D534E4153204C41434954414D454854414D2020312E3320232020202020202020202042363030203B202020202020202020202020202020202064657070616D203B2020202020202020203443354431,
  0x4C204C4C414D532046495245532D534E4153204C41434954414D454854414D2020312E3320232020202020202020202043363030203B202020202020202020202020202020202064657070616D203B2020202020202020203543354431,
  0x4D204C4C414D532046495245532D534E4153204C41434954414D454854414D2020312E3320232020202020202020202044363030203B202020202020202020202020202020202064657070616D203B2020202020202020203643354431,
  0x4E204C4C414D532046495245532D534E4153204C41434954414D454854414D2020312E3320232020202020202020202045363030203B202020202020202020202020202020202064657070616D203B2020202020202020203743354431,
  0x4F204C4C414D532046495245532D534E4153204C41434954414D454854414D2020312E3320232020202020202020202046363030203B202020202020202020202020202020202064657070616D203B2020202020202020203843354431,
  0x50204C4C414D532046495245532D534E4153204C41434954414D454854414D2020312E3320232020202020202020202030373030203B202020202020202020202020202020202064657070616D203B2020202020202020203943354431,
  0x51204C4C414D532046495245532D534E4153204C41434954414D454854414D2020312E3320232020202020202020202031373030203B202020202020202020202020202020202064657070616D203B2020202020202020204143354431,
  0x52204C4C414D532046495245532D534E4153204C41434954414D454854414D2020312E3320232020202020202020202032373030203B202020202020202020202020202020202064657070616D203B2020202020202020204243354431,
  0x53204C4C414D532046495245532D534E4153204C41434954414D454854414D2020312E3320232020202020202020202033373030203B202020202020202020202020202020202064657070616D203B2020202020202020204343354431,
  0x54204C4C414D532046495245532D534E4153204C41434954414D454854414D2020312E3320232020202020202020202034373030203B202020202020202020202020202020202064657070616D203B2020202020202020204443354431,
  0x55204C4C414D532046495245532D534E4153204C41434954414D454854414D2020312E3320232020202020202020202035373030203B202020202020202020202020202020202064657070616D203B2020202020202020204543354431,
  0x56204C4C414D532046495245532D534E4153204C41434954414D454854414D2020312E3320232020202020202020202036373030203B202020202020202020202020202020202064657070616D203B2020202020202020204643354431,
  0x57204C4C414D532046495245532D534E4153204C41434954414D454854414D2020312E3320232020202020202020202037373030203B202020202020202020202020202020202064657070616D203B2020202020202020203044354431,
  0x58204C4C414D532046495245532D534E4153204C41434954414D454854414D2020312E3320232020202020202020202038373030203B202020202020202020202020202020202064657070616D203B2020202020202020203144354431,
  0x59204C4C414D532046495245532D534E4153204C41434954414D454854414D2020312E3320232020202020202020202039373030203B202020202020202020202020202020202064657070616D203B2020202020202020203244354431,
  0x5A204C4C414D532046495245532D534E4153204C41434954414D454854414D2020312E3320232020202020202020202041373030203B202020202020202020202020202020202064657070616D203B2020202020202020203344354431,
  0x41204C41544950414320444C4F422046495245532D534E4153204C41434954414D454854414D2020312E3320232020202020202020202031363030203B202020202020202020202020202020202064657070616D203B2020202020202020203444354431,
  0x42204C41544950414320444C4F422046495245532D534E4153204C41434954414D454854414D2020312E3320232020202020202020202032363030203B202020202020202020202020202020202064657070616D203B2020202020202020203544354431,
  0x43204C41544950414320444C4F422046495245532D534E4153204C41434954414D454854414D2020312E3320232020202020202020202033363030203B202020202020202020202020202020202064657070616D203B2020202020202020203644354431,
  0x44204C41544950414320444C4F422046495245532D534E4153204C41434954414D454854414D2020312E3320232020202020202020202034363030203B202020202020202020202020202020202064657070616D203B2020202020202020203744354431,
  0x45204C41544950414320444C4F422046495245532D534E4153204C41434954414D454854414D2020312E3320232020202020202020202035363030203B202020202020202020202020202020202064657070616D203B2020202020202020203844354431,
  0x46204C41544950414320444C4F422046495245532D534E4153204C41434954414D454854414D2020312E3320232020202020202020202036363030203B202020202020202020202020202020202064657070616D203B2020202020202020203944354431,
  0x47204C41544950414320444C4F422046495245532D534E4153204C41434954414D454854414D2020312E3320232020202020202020202037363030203B202020202020202020202020202020202064657070616D203B2020202020202020204144354431,
  0x48204C41544950414320444C4F422046495245532D534E4153204C41434954414D454854414D2020312E3320232020202020202020202038363030203B202020202020202020202020202020202064657070616D203B2020202020202020204244354431,
  0x49204C41544950414320444C4F422046495245532D534E4153204C41434954414D454854414D2020312E3320232020202020202020202039363030203B202020202020202020202020202020202064657070616D203B2020202020202020204344354431,
  0x4A204C41544950414320444C4F422046495245532D534E4153204C41434954414D454854414D2020312E3320232020202020202020202041363030203B202020202020202020202020202020202064657070616D203B2020202020202020204444354431,
  0x4B204C41544950414320444C4F422046495245532D534E4153204C41434954414D454854414D2020312E3320232020202020202020202042363030203B202020202020202020202020202020202064657070616D203B2020202020202020204544354431,
  0x4C204C41544950414320444C4F422046495245532D534E4153204C41434954414D454854414D2020312E3320232020202020202020202043363030203B202020202020202020202020202020202064657070616D203B2020202020202020204644354431,
  0x4D204C41544950414320444C4F422046495245532D534E4153204C41434954414D454854414D2020312E3320232020202020202020202044363030203B202020202020202020202020202020202064657070616D203B2020202020202020203045354431,
  0x4E204C41544950414320444C4F422046495245532D534E4153204C41434954414D454854414D2020312E3320232020202020202020202045363030203B202020202020202020202020202020202064657070616D203B2020202020202020203145354431,
  0x4F204C41544950414320444C4F422046495245532D534E4153204C41434954414D454854414D2020312E3320232020202020202020202046363030203B202020202020202020202020202020202064657070616D203B2020202020202020203245354431,
  0x50204C41544950414320444C4F422046495245532D534E4153204C41434954414D454854414D2020312E3320232020202020202020202030373030203B202020202020202020202020202020202064657070616D203B2020202020202020203345354431,
  0x51204C41544950414320444C4F422046495245532D534E4153204C41434954414D454854414D2020312E3320232020202020202020202031373030203B202020202020202020202020202020202064657070616D203B2020202020202020203445354431,
  0x52204C41544950414320444C4F422046495245532D534E4153204C41434954414D454854414D2020312E3320232020202020202020202032373030203B202020202020202020202020202020202064657070616D203B2020202020202020203545354431,
  0x53204C41544950414320444C4F422046495245532D534E4153204C41434954414D454854414D2020312E3320232020202020202020202033373030203B202020202020202020202020202020202064657070616D203B2020202020202020203645354431,
  0x54204C41544950414320444C4F422046495245532D534E4153204C41434954414D454854414D2020312E3320232020202020202020202034373030203B202020202020202020202020202020202064657070616D203B2020202020202020203745354431,
  0x55204C41544950414320444C4F422046495245532D534E4153204C41434954414D454854414D2020312E3320232020202020202020202035373030203B202020202020202020202020202020202064657070616D203B2020202020202020203845354431,
  0x56204C41544950414320444C4F422046495245532D534E4153204C41434954414D454854414D2020312E3320232020202020202020202036373030203B202020202020202020202020202020202064657070616D203B2020202020202020203945354431,
  0x57204C41544950414320444C4F422046495245532D534E4153204C41434954414D454854414D2020312E3320232020202020202020202037373030203B202020202020202020202020202020202064657070616D203B2020202020202020204145354431,
  0x58204C41544950414320444C4F422046495245532D534E4153204C41434954414D454854414D2020312E3320232020202020202020202038373030203B202020202020202020202020202020202064657070616D203B2020202020202020204245354431,
  0x59204C41544950414320444C4F422046495245532D534E4153204C41434954414D454854414D2020312E3320232020202020202020202039373030203B202020202020202020202020202020202064657070616D203B2020202020202020204345354431,
  0x5A204C41544950414320444C4F422046495245532D534E4153204C41434954414D454854414D2020312E3320232020202020202020202041373030203B202020202020202020202020202020202064657070616D203B2020202020202020204445354431,
  0x41204C4C414D5320444C4F422046495245532D534E4153204C41434954414D454854414D2020312E3320232020202020202020202031363030203B202020202020202020202020202020202064657070616D203B2020202020202020204545354431,
  0x42204C4C414D5320444C4F422046495245532D534E4153204C41434954414D454854414D2020312E3320232020202020202020202032363030203B202020202020202020202020202020202064657070616D203B2020202020202020204645354431,
  0x43204C4C414D5320444C4F422046495245532D534E4153204C41434954414D454854414D2020312E3320232020202020202020202033363030203B202020202020202020202020202020202064657070616D203B2020202020202020203046354431]

def mapText28 : List Nat := [
  0x44204C4C414D5320444C4F422046495245532D534E4153204C41434954414D454854414D2020312E3320232020202020202020202034363030203B202020202020202020202020202020202064657070616D203B2020202020202020203146354431,
  0x45204C4C414D5320444C4F422046495245532D534E4153204C41434954414D454854414D2020312E3320232020202020202020202035363030203B202020202020202020202020202020202064657070616D203B2020202020202020203246354431,
  0x46204C4C414D5320444C4F422046495245532D534E4153204C41434954414D454854414D2020312E3320232020202020202020202036363030203B202020202020202020202020202020202064657070616D203B2020202020202020203346354431,
  0x47204C4C414D5320444C4F422046495245532D534E4153204C41434954414D454854414D2020312E3320232020202020202020202037363030203B202020202020202020202020202020202064657070616D203B2020202020202020203446354431,
  0x48204C4C414D5320444C4F422046495245532D534E4153204C41434954414D454854414D2020312E3320232020202020202020202038363030203B202020202020202020202020202020202064657070616D203B2020202020202020203546354431,
  0x49204C4C414D5320444C4F422046495245532D534E4153204C41434954414D454854414D2020312E3320232020202020202020202039363030203B202020202020202020202020202020202064657070616D203B2020202020202020203646354431,
  0x4A204C4C414D5320444C4F422046495245532D534E4153204C41434954414D454854414D2020312E3320232020202020202020202041363030203B202020202020202020202020202020202064657070616D203B2020202020202020203746354431,
  0x4B204C4C414D5320444C4F422046495245532D534E4153204C41434954414D454854414D2020312E3320232020202020202020202042363030203B202020202020202020202020202020202064657070616D203B2020202020202020203846354431,
  0x4C204C4C414D5320444C4F422046495245532D534E4153204C41434954414D454854414D2020312E3320232020202020202020202043363030203B202020202020202020202020202020202064657070616D203B2020202020202020203946354431,
  0x4D204C4C414D5320444C4F422046495245532D534E4153204C41434954414D454854414D2020312E3320232020202020202020202044363030203B202020202020202020202020202020202064657070616D203B2020202020202020204146354431,
  0x4E204C4C414D5320444C4F422046495245532D534E4153204C41434954414D454854414D2020312E3320232020202020202020202045363030203B202020202020202020202020202020202064657070616D203B2020202020202020204246354431,
  0x4F204C4C414D5320444C4F422046495245532D534E4153204C41434954414D454854414D2020312E3320232020202020202020202046363030203B202020202020202020202020202020202064657070616D203B2020202020202020204346354431,
  0x50204C4C414D5320444C4F422046495245532D534E4153204C41434954414D454854414D2020312E3320232020202020202020202030373030203B202020202020202020202020202020202064657070616D203B2020202020202020204446354431,
  0x51204C4C414D5320444C4F422046495245532D534E4153204C41434954414D454854414D2020312E3320232020202020202020202031373030203B202020202020202020202020202020202064657070616D203B2020202020202020204546354431,
  0x52204C4C414D5320444C4F422046495245532D534E4153204C41434954414D454854414D2020312E3320232020202020202020202032373030203B202020202020202020202020202020202064657070616D203B2020202020202020204646354431,
  0x53204C4C414D5320444C4F422046495245532D534E4153204C41434954414D454854414D2020312E3320232020202020202020202033373030203B202020202020202020202020202020202064657070616D203B2020202020202020203030364431,
  0x54204C4C414D5320444C4F422046495245532D534E4153204C41434954414D454854414D2020312E3320232020202020202020202034373030203B202020202020202020202020202020202064657070616D203B2020202020202020203130364431,
  0x55204C4C414D5320444C4F422046495245532D534E4153204C41434954414D454854414D2020312E3320232020202020202020202035373030203B202020202020202020202020202020202064657070616D203B2020202020202020203230364431,
  0x56204C4C414D5320444C4F422046495245532D534E4153204C41434954414D454854414D2020312E3320232020202020202020202036373030203B202020202020202020202020202020202064657070616D203B2020202020202020203330364431,
  0x57204C4C414D5320444C4F422046495245532D534E4153204C41434954414D454854414D2020312E3320232020202020202020202037373030203B202020202020202020202020202020202064657070616D203B2020202020202020203430364431,
  0x58204C4C414D5320444C4F422046495245532D534E4153204C41434954414D454854414D2020312E3320232020202020202020202038373030203B202020202020202020202020202020202064657070616D203B2020202020202020203530364431,
  0x59204C4C414D5320444C4F422046495245532D534E4153204C41434954414D454854414D2020312E3320232020202020202020202039373030203B202020202020202020202020202020202064657070616D203B2020202020202020203630364431,
  0x5A204C4C414D5320444C4F422046495245532D534E4153204C41434954414D454854414D2020312E3320232020202020202020202041373030203B202020202020202020202020202020202064657070616D203B2020202020202020203730364431,
  0x41204C4154495041432043494C4154492046495245532D534E4153204C41434954414D454854414D2020312E3320232020202020202020202031363030203B202020202020202020202020202020202064657070616D203B2020202020202020203830364431,
  0x42204C4154495041432043494C4154492046495245532D534E4153204C41434954414D454854414D2020312E3320232020202020202020202032363030203B202020202020202020202020202020202064657070616D203B2020202020202020203930364431,
  0x43204C4154495041432043494C4154492046495245532D534E4153204C41434954414D454854414D2020312E3320232020202020202020202033363030203B202020202020202020202020202020202064657070616D203B2020202020202020204130364431,
  0x44204C4154495041432043494C4154492046495245532D534E4153204C41434954414D454854414D2020312E3320232020202020202020202034363030203B202020202020202020202020202020202064657070616D203B2020202020202020204230364431,
  0x45204C4154495041432043494C4154492046495245532D534E4153204C41434954414D454854414D2020312E3320232020202020202020202035363030203B202020202020202020202020202020202064657070616D203B2020202020202020204330364431,
  0x46204C4154495041432043494C4154492046495245532D534E4153204C41434954414D454854414D2020312E3320232020202020202020202036363030203B202020202020202020202020202020202064657070616D203B2020202020202020204430364431,
  0x47204C4154495041432043494C4154492046495245532D534E4153204C41434954414D454854414D2020312E3320232020202020202020202037363030203B202020202020202020202020202020202064657070616D203B2020202020202020204530364431,
  0x48204C4154495041432043494C4154492046495245532D534E4153204C41434954414D454854414D2020312E3320232020202020202020202038363030203B202020202020202020202020202020202064657070616D203B2020202020202020204630364431,
  0x49204C4154495041432043494C4154492046495245532D534E4153204C41434954414D454854414D2020312E3320232020202020202020202039363030203B202020202020202020202020202020202064657070616D203B2020202020202020203031364431,
  0x4A204C4154495041432043494C4154492046495245532D534E4153204C41434954414D454854414D2020312E3320232020202020202020202041363030203B202020202020202020202020202020202064657070616D203B2020202020202020203131364431,
  0x4B204C4154495041432043494C4154492046495245532D534E4153204C41434954414D454854414D2020312E3320232020202020202020202042363030203B202020202020202020202020202020202064657070616D203B2020202020202020203231364431,
  0x4C204C4154495041432043494C4154492046495245532D534E4153204C41434954414D454854414D2020312E3320232020202020202020202043363030203B202020202020202020202020202020202064657070616D203B2020202020202020203331364431,
  0x4D204C4154495041432043494C4154492046495245532D534E4153204C41434954414D454854414D2020312E3320232020202020202020202044363030203B202020202020202020202020202020202064657070616D203B2020202020202020203431364431,
  0x4E204C4154495041432043494C4154492046495245532D534E4153204C41434954414D454854414D2020312E3320232020202020202020202045363030203B202020202020202020202020202020202064657070616D203B2020202020202020203531364431,
  0x4F204C4154495041432043494C4154492046495245532D534E4153204C41434954414D454854414D2020312E3320232020202020202020202046363030203B202020202020202020202020202020202064657070616D203B2020202020202020203631364431,
  0x50204C4154495041432043494C4154492046495245532D534E4153204C41434954414D454854414D2020312E3320232020202020202020202030373030203B202020202020202020202020202020202064657070616D203B2020202020202020203731364431,
  0x51204C4154495041432043494C4154492046495245532D534E4153204C41434954414D454854414D2020312E3320232020202020202020202031373030203B202020202020202020202020202020202064657070616D203B2020202020202020203831364431,
  0x52204C4154495041432043494C4154492046495245532D534E4153204C41434954414D454854414D2020312E3320232020202020202020202032373030203B202020202020202020202020202020202064657070616D203B2020202020202020203931364431,
  0x53204C4154495041432043494C4154492046495245532D534E4153204C41434954414D454854414D2020312E3320232020202020202020202033373030203B202020202020202020202020202020202064657070616D203B2020202020202020204131364431,
  0x54204C4154495041432043494C4154492046495245532D534E4153204C41434954414D454854414D2020312E3320232020202020202020202034373030203B202020202020202020202020202020202064657070616D203B2020202020202020204231364431,
  0x55204C4154495041432043494C4154492046495245532D534E4153204C41434954414D454854414D2020312E3320232020202020202020202035373030203B202020202020202020202020202020202064657070616D203B2020202020202020204331364431,
  0x56204C4154495041432043494C4154492046495245532D534E4153204C41434954414D454854414D2020312E3320232020202020202020202036373030203B202020202020202020202020202020202064657070616D203B2020202020202020204431364431,
  0x57204C4154495041432043494C4154492046495245532D534E4153204C41434954414D454854414D2020312E3320232020202020202020202037373030203B202020202020202020202020202020202064657070616D203B2020202020202020204531364431,
  0x58204C4154495041432043494C4154492046495245532D534E4153204C41434954414D454854414D2020312E3320232020202020202020202038373030203B202020202020202020202020202020202064657070616D203B2020202020202020204631364431,
  0x59204C4154495041432043494C4154492046495245532D534E4153204C41434954414D454854414D2020312E3320232020202020202020202039373030203B202020202020202020202020202020202064657070616D203B2020202020202020203032364431,
  0x5A204C4154495041432043494C4154492046495245532D534E4153204C41434954414D454854414D2020312E3320232020202020202020202041373030203B202020202020202020202020202020202064657070616D203B2020202020202020203132364431,
  0x41204C4C414D532043494C4154492046495245532D534E4153204C41434954414D454854414D2020312E3320232020202020202020202031363030203B202020202020202020202020202020202064657070616D203B2020202020202020203232364431,
  0x42204C4C414D532043494C4154492046495245532D534E4153204C41434954414D454854414D2020312E3320232020202020202020202032363030203B202020202020202020202020202020202064657070616D203B2020202020202020203332364431,
  0x43204C4C414D532043494C4154492046495245532D534E4153204C41434954414D454854414D2020312E3320232020202020202020202033363030203B202020202020202020202020202020202064657070616D203B2020202020202020203432364431,
  0x44204C4C414D532043494C4154492046495245532D534E4153204C41434954414D454854414D2020312E3320232020202020202020202034363030203B202020202020202020202020202020202064657070616D203B2020202020202020203532364431,
  0x45204C4C414D532043494C4154492046495245532D534E4153204C41434954414D454854414D2020312E3320232020202020202020202035363030203B202020202020202020202020202020202064657070616D203B2020202020202020203632364431,
  0x46204C4C414D532043494C4154492046495245532D534E4153204C41434954414D454854414D2020312E3320232020202020202020202036363030203B202020202020202020202020202020202064657070616D203B2020202020202020203732364431,
  0x47204C4C414D532043494C4154492046495245532D534E4153204C41434954414D454854414D2020312E3320232020202020202020202037363030203B202020202020202020202020202020202064657070616D203B2020202020202020203832364431,
  0x48204C4C414D532043494C4154492046495245532D534E4153204C41434954414D454854414D2020312E3320232020202020202020202038363030203B202020202020202020202020202020202064657070616D203B2020202020202020203932364431,
  0x49204C4C414D532043494C4154492046495245532D534E4153204C41434954414D454854414D2020312E3320232020202020202020202039363030203B202020202020202020202020202020202064657070616D203B2020202020202020204132364431,
  0x4A204C4C414D532043494C4154492046495245532D534E4153204C41434954414D454854414D2020312E3320232020202020202020202041363030203B202020202020202020202020202020202064657070616D203B2020202020202020204232364431,
  0x4B204C4C414D532043494C4154492046495245532D534E4153204C41434954414D454854414D2020312E3320232020202020202020202042363030203B202020202020202020202020202020202064657070616D203B2020202020202020204332364431,
  0x4C204C4C414D532043494C4154492046495245532D534E4153204C41434954414D454854414D2020312E3320232020202020202020202043363030203B202020202020202020202020202020202064657070616D203B2020202020202020204432364431,
  0x4D204C4C414D532043494C4154492046495245532D534E4153204C41434954414D454854414D2020312E3320232020202020202020202044363030203B202020202020202020202020202020202064657070616D203B2020202020202020204532364431,
  0x4E204C4C414D532043494C4154492046495245532D534E4153204C41434954414D454854414D2020312E3320232020202020202020202045363030203B202020202020202020202020202020202064657070616D203B2020202020202020204632364431,
  0x4F204C4C414D532043494C4154492046495245532D534E4153204C41434954414D454854414D2020312E3320232020202020202020202046363030203B202020202020202020202020202020202064657070616D203B2020202020202020203033364431,
  0x50204C4C414D532043494C4154492046495245532D534E4153204C41434954414D454854414D2020312E3320232020202020202020202030373030203B202020202020202020202020202020202064657070616D203B2020202020202020203133364431,
  0x51204C4C414D532043494C4154492046495245532D534E4153204C41434954414D454854414D2020312E3320232020202020202020202031373030203B202020202020202020202020202020202064657070616D203B2020202020202020203233364431,
  0x52204C4C414D532043494C4154492046495245532D534E4153204C41434954414D454854414D2020312E3320232020202020202020202032373030203B202020202020202020202020202020202064657070616D203B2020202020202020203333364431,
  0x53204C4C414D532043494C4154492046495245532D534E4153204C41434954414D454854414D2020312E3320232020202020202020202033373030203B202020202020202020202020202020202064657070616D203B2020202020202020203433364431,
  0x54204C4C414D532043494C4154492046495245532D534E4153204C41434954414D454854414D2020312E3320232020202020202020202034373030203B202020202020202020202020202020202064657070616D203B2020202020202020203533364431,
  0x55204C4C414D532043494C4154492046495245532D534E4153204C41434954414D454854414D2020312E3320232020202020202020202035373030203B202020202020202020202020202020202064657070616D203B2020202020202020203633364431,
  0x56204C4C414D532043494C4154492046495245532D534E4153204C41434954414D454854414D2020312E3320232020202020202020202036373030203B202020202020202020202020202020202064657070616D203B2020202020202020203733364431,
  0x57204C4C414D532043494C4154492046495245532D534E4153204C41434954414D454854414D2020312E3320232020202020202020202037373030203B202020202020202020202020202020202064657070616D203B2020202020202020203833364431,
  0x58204C4C414D532043494C4154492046495245532D534E4153204C41434954414D454854414D2020312E3320232020202020202020202038373030203B202020202020202020202020202020202064657070616D203B2020202020202020203933364431,
  0x59204C4C414D532043494C4154492046495245532D534E4153204C41434954414D454854414D2020312E3320232020202020202020202039373030203B202020202020202020202020202020202064657070616D203B2020202020202020204133364431,
  0x5A204C4C414D532043494C4154492046495245532D534E4153204C41434954414D454854414D2020312E3320232020202020202020202041373030203B202020202020202020202020202020202064657070616D203B2020202020202020204233364431,
  0x41204C4154495041432043494C41544920444C4F422046495245532D534E4153204C41434954414D454854414D2020312E3320232020202020202020202031363030203B202020202020202020202020202020202064657070616D203B2020202020202020204333364431,
  0x42204C4154495041432043494C41544920444C4F422046495245532D534E4153204C41434954414D454854414D2020312E3320232020202020202020202032363030203B202020202020202020202020202020202064657070616D203B2020202020202020204433364431,
  0x43204C4154495041432043494C41544920444C4F422046495245532D534E4153204C41434954414D454854414D2020312E3320232020202020202020202033363030203B202020202020202020202020202020202064657070616D203B2020202020202020204533364431,
  0x44204C4154495041432043494C41544920444C4F422046495245532D534E4153204C41434954414D454854414D2020312E3320232020202020202020202034363030203B202020202020202020202020202020202064657070616D203B2020202020202020204633364431,
  0x45204C4154495041432043494C41544920444C4F422046495245532D534E4153204C41434954414D454854414D2020312E3320232020202020202020202035363030203B202020202020202020202020202020202064657070616D203B2020202020202020203034364431,
  0x46204C4154495041432043494C41544920444C4F422046495245532D534E4153204C41434954414D454854414D2020312E3320232020202020202020202036363030203B202020202020202020202020202020202064657070616D203B2020202020202020203134364431,
  0x47204C4154495041432043494C41544920444C4F422046495245532D534E4153204C41434954414D454854414D2020312E3320232020202020202020202037363030203B202020202020202020202020202020202064657070616D203B2020202020202020203234364431,
  0x48204C4154495041432043494C41544920444C4F422046495245532D534E4153204C41434954414D454854414D2020312E3320232020202020202020202038363030203B202020202020202020202020202020202064657070616D203B2020202020202020203334364431,
  0x49204C4154495041432043494C41544920444C4F422046495245532D534E4153204C41434954414D454854414D2020312E3320232020202020202020202039363030203B202020202020202020202020202020202064657070616D203B2020202020202020203434364431,
  0x4A204C4154495041432043494C41544920444C4F422046495245532D534E4153204C41434954414D454854414D2020312E3320232020202020202020202041363030203B202020202020202020202020202020202064657070616D203B2020202020202020203534364431,
  0x4B204C4154495041432043494C41544920444C4F422046495245532D534E4153204C41434954414D454854414D2020312E3320232020202020202020202042363030203B202020202020202020202020202020202064657070616D203B2020202020202020203634364431,
  0x4C204C4154495041432043494C41544920444C4F422046495245532D534E4153204C41434954414D454854414D2020312E3320232020202020202020202043363030203B202020202020202020202020202020202064657070616D203B2020202020202020203734364431,
  0x4D204C4154495041432043494C41544920444C4F422046495245532D534E4153204C41434954414D454854414D2020312E3320232020202020202020202044363030203B202020202020202020202020202020202064657070616D203B2020202020202020203834364431,
  0x4E204C4154495041432043494C41544920444C4F422046495245532D534E4153204C41434954414D454854414D2020312E3320232020202020202020202045363030203B202020202020202020202020202020202064657070616D203B2020202020202020203934364431,
  0x4F204C4154495041432043494C41544920444C4F422046495245532D534E4153204C41434954414D454854414D2020312E3320232020202020202020202046363030203B202020202020202020202020202020202064657070616D203B2020202020202020204134364431,
  0x50204C4154495041432043494C41544920444C4F422046495245532D534E4153204C41434954414D454854414D2020312E3320232020202020202020202030373030203B202020202020202020202020202020202064657070616D203B2020202020202020204234364431,
  0x51204C4154495041432043494C41544920444C4F422046495245532D534E4153204C41434954414D454854414D2020312E3320232020202020202020202031373030203B202020202020202020202020202020202064657070616D203B2020202020202020204334364431,
  0x52204C4154495041432043494C41544920444C4F422046495245532D534E4153204C41434954414D454854414D2020312E3320232020202020202020202032373030203B202020202020202020202020202020202064657070616D203B2020202020202020204434364431,
  0x53204C4154495041432043494C41544920444C4F422046495245532D534E4153204C41434954414D454854414D2020312E3320232020202020202020202033373030203B202020202020202020202020202020202064657070616D203B2020202020202020204534364431,
  0x54204C4154495041432043494C41544920444C4F422046495245532D534E4153204C41434954414D454854414D2020312E3320232020202020202020202034373030203B202020202020202020202020202020202064657070616D203B2020202020202020204634364431,
  0x55204C4154495041432043494C41544920444C4F422046495245532D534E4153204C41434954414D454854414D2020312E3320232020202020202020202035373030203B202020202020202020202020202020202064657070616D203B2020202020202020203035364431,
  0x56204C4154495041432043494C41544920444C4F422046495245532D534E4153204C41434954414D454854414D2020312E3320232020202020202020202036373030203B202020202020202020202020202020202064657070616D203B2020202020202020203135364431,
  0x57204C4154495041432043494C41544920444C4F422046495245532D534E4153204C41434954414D454854414D2020312E3320232020202020202020202037373030203B202020202020202020202020202020202064657070616D203B2020202020202020203235364431,
  0x58204C4154495041432043494C41544920444C4F422046495245532D534E4153204C41434954414D454854414D2020312E3320232020202020202020202038373030203B202020202020202020202020202020202064657070616D203B2020202020202020203335364431,
  0x59204C4154495041432043494C41544920444C4F422046495245532D534E4153204C41434954414D454854414D2020312E3320232020202020202020202039373030203B202020202020202020202020202020202064657070616D203B2020202020202020203435364431,
  0x5A204C4154495041432043494C41544920444C4F422046495245532D534E4153204C41434954414D454854414D2020312E3320232020202020202020202041373030203B202020202020202020202020202020202064657070616D203B2020202020202020203535364431,
  0x41204C4C414D532043494C41544920444C4F422046495245532D534E4153204C41434954414D454854414D2020312E3320232020202020202020202031363030203B202020202020202020202020202020202064657070616D203B2020202020202020203635364431,
  0x42204C4C414D532043494C41544920444C4F422046495245532D534E4153204C41434954414D454854414D2020312E3320232020202020202020202032363030203B202020202020202020202020202020202064657070616D203B2020202020202020203735364431,
  0x43204C4C414D532043494C41544920444C4F422046495245532D534E4153204C41434954414D454854414D2020312E3320232020202020202020202033363030203B202020202020202020202020202020202064657070616D203B2020202020202020203835364431,
  0x44204C4C414D532043494C41544920444C4F422046495245532D534E4153204C41434954414D454854414D2020312E3320232020202020202020202034363030203B202020202020202020202020202020202064657070616D203B2020202020202020203935364431,
  0x45204C4C414D532043494C41544920444C4F422046495245532D534E4153204C41434954414D454854414D2020312E3320232020202020202020202035363030203B202020202020202020202020202020202064657070616D203B2020202020202020204135364431,
  0x46204C4C414D532043494C41544920444C4F422046495245532D534E4153204C41434954414D454854414D2020312E3320232020202020202020202036363030203B202020202020202020202020202020202064657070616D203B2020202020202020204235364431,
  0x47204C4C414D532043494C41544920444C4F422046495245532D534E4153204C41434954414D454854414D2020312E3320232020202020202020202037363030203B202020202020202020202020202020202064657070616D203B2020202020202020204335364431,
  0x48204C4C414D532043494C41544920444C4F422046495245532D534E4153204C41434954414D454854414D2020312E3320232020202020202020202038363030203B202020202020202020202020202020202064657070616D203B2020202020202020204435364431,
  0x49204C4C414D532043494C41544920444C4F422046495245532D534E4153204C41434954414D454854414D2020312E3320232020202020202020202039363030203B202020202020202020202020202020202064657070616D203B2020202020202020204535364431,
  0x4A204C4C414D532043494C41544920444C4F422046495245532D534E4153204C41434954414D454854414D2020312E3320232020202020202020202041363030203B202020202020202020202020202020202064657070616D203B2020202020202020204635364431,
  0x4B204C4C414D532043494C41544920444C4F422046495245532D534E4153204C41434954414D454854414D2020312E3320232020202020202020202042363030203B202020202020202020202020202020202064657070616D203B2020202020202020203036364431,
  0x4C204C4C414D532043494C41544920444C4F422046495245532D534E4153204C41434954414D454854414D2020312E3320232020202020202020202043363030203B202020202020202020202020202020202064657070616D203B2020202020202020203136364431,
  0x4D204C4C414D532043494C41544920444C4F422046495245532D534E4153204C41434954414D454854414D2020312E3320232020202020202020202044363030203B202020202020202020202020202020202064657070616D203B2020202020202020203236364431,
  0x4E204C4C414D532043494C41544920444C4F422046495245532D534E4153204C41434954414D454854414D2020312E3320232020202020202020202045363030203B202020202020202020202020202020202064657070616D203B2020202020202020203336364431,
  0x4F204C4C414D532043494C41544920444C4F422046495245532D534E4153204C41434954414D454854414D2020312E3320232020202020202020202046363030203B202020202020202020202020202020202064657070616D203B2020202020202020203436364431,
  0x50204C4C414D532043494C41544920444C4F422046495245532D534E4153204C41434954414D454854414D2020312E3320232020202020202020202030373030203B202020202020202020202020202020202064657070616D203B2020202020202020203536364431,
  0x51204C4C414D532043494C41544920444C4F422046495245532D534E4153204C41434954414D454854414D2020312E3320232020202020202020202031373030203B202020202020202020202020202020202064657070616D203B2020202020202020203636364431,
  0x52204C4C414D532043494C41544920444C4F422046495245532D534E4153204C41434954414D454854414D2020312E3320232020202020202020202032373030203B202020202020202020202020202020202064657070616D203B2020202020202020203736364431,
  0x53204C4C414D532043494C41544920444C4F422046495245532D534E4153204C41434954414D454854414D2020312E3320232020202020202020202033373030203B202020202020202020202020202020202064657070616D203B2020202020202020203836364431,
  0x54204C4C414D532043494C41544920444C4F422046495245532D534E4153204C41434954414D454854414D2020312E3320232020202020202020202034373030203B202020202020202020202020202020202064657070616D203B2020202020202020203936364431,
  0x55204C4C414D532043494C41544920444C4F422046495245532D534E4153204C41434954414D454854414D2020312E3320232020202020202020202035373030203B202020202020202020202020202020202064657070616D203B2020202020202020204136364431,
  0x56204C4C414D532043494C41544920444C4F422046495245532D534E4153204C41434954414D454854414D2020312E3320232020202020202020202036373030203B202020202020202020202020202020202064657070616D203B2020202020202020204236364431,
  0x57204C4C414D532043494C41544920444C4F422046495245532D534E4153204C41434954414D454854414D2020312E3320232020202020202020202037373030203B202020202020202020202020202020202064657070616D203B2020202020202020204336364431,
  0x58204C4C414D532043494C41544920444C4F422046495245532D534E4153204C41434954414D454854414D2020312E3320232020202020202020202038373030203B202020202020202020202020202020202064657070616D203B2020202020202020204436364431,
  0x59204C4C414D532043494C41544920444C4F422046495245532D534E4153204C41434954414D454854414D2020312E3320232020202020202020202039373030203B202020202020202020202020202020202064657070616D203B2020202020202020204536364431,
  0x5A204C4C414D532043494C41544920444C4F422046495245532D534E4153204C41434954414D454854414D2020312E3320232020202020202020202041373030203B202020202020202020202020202020202064657070616D203B2020202020202020204636364431,
  0x41204C4154495041432045434150534F4E4F4D204C41434954414D454854414D2020312E3320232020202020202020202031363030203B202020202020202020202020202020202064657070616D203B2020202020202020203037364431,
  0x42204C4154495041432045434150534F4E4F4D204C41434954414D454854414D2020312E3320232020202020202020202032363030203B202020202020202020202020202020202064657070616D203B2020202020202020203137364431,
  0x43204C4154495041432045434150534F4E4F4D204C41434954414D454854414D2020312E3320232020202020202020202033363030203B202020202020202020202020202020202064657070616D203B2020202020202020203237364431,
  0x44204C4154495041432045434150534F4E4F4D204C41434954414D454854414D2020312E3320232020202020202020202034363030203B202020202020202020202020202020202064657070616D203B2020202020202020203337364431,
  0x45204C4154495041432045434150534F4E4F4D204C41434954414D454854414D2020312E3320232020202020202020202035363030203B202020202020202020202020202020202064657070616D203B2020202020202020203437364431,
  0x46204C4154495041432045434150534F4E4F4D204C41434954414D454854414D2020312E3320232020202020202020202036363030203B202020202020202020202020202020202064657070616D203B2020202020202020203537364431,
  0x47204C4154495041432045434150534F4E4F4D204C41434954414D454854414D2020312E3320232020202020202020202037363030203B202020202020202020202020202020202064657070616D203B2020202020202020203637364431,
  0x48204C4154495041432045434150534F4E4F4D204C41434954414D454854414D2020312E3320232020202020202020202038363030203B202020202020202020202020202020202064657070616D203B2020202020202020203737364431,
  0x49204C4154495041432045434150534F4E4F4D204C41434954414D454854414D2020312E3320232020202020202020202039363030203B202020202020202020202020202020202064657070616D203B2020202020202020203837364431,
  0x4A204C4154495041432045434150534F4E4F4D204C41434954414D454854414D2020312E3320232020202020202020202041363030203B202020202020202020202020202020202064657070616D203B2020202020202020203937364431,
  0x4B204C4154495041432045434150534F4E4F4D204C41434954414D454854414D2020312E3320232020202020202020202042363030203B202020202020202020202020202020202064657070616D203B2020202020202020204137364431,
  0x4C204C4154495041432045434150534F4E4F4D204C41434954414D454854414D2020312E3320232020202020202020202043363030203B202020202020202020202020202020202064657070616D203B2020202020202020204237364431,
  0x4D204C4154495041432045434150534F4E4F4D204C41434954414D454854414D2020312E3320232020202020202020202044363030203B202020202020202020202020202020202064657070616D203B2020202020202020204337364431,
  0x4E204C4154495041432045434150534F4E4F4D204C41434954414D454854414D2020312E3320232020202020202020202045363030203B202020202020202020202020202020202064657070616D203B2020202020202020204437364431,
  0x4F204C4154495041432045434150534F4E4F4D204C41434954414D454854414D2020312E3320232020202020202020202046363030203B202020202020202020202020202020202064657070616D203B2020202020202020204537364431,
  0x50204C4154495041432045434150534F4E4F4D204C41434954414D454854414D2020312E3320232020202020202020202030373030203B202020202020202020202020202020202064657070616D203B2020202020202020204637364431,
  0x51204C4154495041432045434150534F4E4F4D204C41434954414D454854414D2020312E3320232020202020202020202031373030203B202020202020202020202020202020202064657070616D203B2020202020202020203038364431,
  0x52204C4154495041432045434150534F4E4F4D204C41434954414D454854414D2020312E3320232020202020202020202032373030203B202020202020202020202020202020202064657070616D203B2020202020202020203138364431,
  0x53204C4154495041432045434150534F4E4F4D204C41434954414D454854414D2020312E3320232020202020202020202033373030203B202020202020202020202020202020202064657070616D203B2020202020202020203238364431,
  0x54204C4154495041432045434150534F4E4F4D204C41434954414D454854414D2020312E3320232020202020202020202034373030203B202020202020202020202020202020202064657070616D203B2020202020202020203338364431,
  0x55204C4154495041432045434150534F4E4F4D204C41434954414D454854414D2020312E3320232020202020202020202035373030203B202020202020202020202020202020202064657070616D203B2020202020202020203438364431,
  0x56204C4154495041432045434150534F4E4F4D204C41434954414D454854414D2020312E3320232020202020202020202036373030203B202020202020202020202020202020202064657070616D203B2020202020202020203538364431,
  0x57204C4154495041432045434150534F4E4F4D204C41434954414D454854414D2020312E3320232020202020202020202037373030203B202020202020202020202020202020202064657070616D203B2020202020202020203638364431,
  0x58204C4154495041432045434150534F4E4F4D204C41434954414D454854414D2020312E3320232020202020202020202038373030203B202020202020202020202020202020202064657070616D203B2020202020202020203738364431,
  0x59204C4154495041432045434150534F4E4F4D204C41434954414D454854414D2020312E3320232020202020202020202039373030203B202020202020202020202020202020202064657070616D203B2020202020202020203838364431,
  0x5A204C4154495041432045434150534F4E4F4D204C41434954414D454854414D2020312E3320232020202020202020202041373030203B202020202020202020202020202020202064657070616D203B2020202020202020203938364431,
  0x41204C4C414D532045434150534F4E4F4D204C41434954414D454854414D2020312E3320232020202020202020202031363030203B202020202020202020202020202020202064657070616D203B2020202020202020204138364431,
  0x42204C4C414D532045434150534F4E4F4D204C41434954414D454854414D2020312E3320232020202020202020202032363030203B202020202020202020202020202020202064657070616D203B2020202020202020204238364431,
  0x43204C4C414D532045434150534F4E4F4D204C41434954414D454854414D2020312E3320232020202020202020202033363030203B202020202020202020202020202020202064657070616D203B2020202020202020204338364431,
  0x44204C4C414D532045434150534F4E4F4D204C41434954414D454854414D2020312E3320232020202020202020202034363030203B202020202020202020202020202020202064657070616D203B2020202020202020204438364431,
  0x45204C4C414D532045434150534F4E4F4D204C41434954414D454854414D2020312E3320232020202020202020202035363030203B202020202020202020202020202020202064657070616D203B2020202020202020204538364431,
  0x46204C4C414D532045434150534F4E4F4D204C41434954414D454854414D2020312E3320232020202020202020202036363030203B202020202020202020202020202020202064657070616D203B2020202020202020204638364431,
  0x47204C4C414D532045434150534F4E4F4D204C41434954414D454854414D2020312E3320232020202020202020202037363030203B202020202020202020202020202020202064657070616D203B2020202020202020203039364431,
  0x48204C4C414D532045434150534F4E4F4D204C41434954414D454854414D2020312E3320232020202020202020202038363030203B202020202020202020202020202020202064657070616D203B2020202020202020203139364431,
  0x49204C4C414D532045434150534F4E4F4D204C41434954414D454854414D2020312E3320232020202020202020202039363030203B202020202020202020202020202020202064657070616D203B2020202020202020203239364431,
  0x4A204C4C414D532045434150534F4E4F4D204C41434954414D454854414D2020312E3320232020202020202020202041363030203B202020202020202020202020202020202064657070616D203B2020202020202020203339364431,
  0x4B204C4C414D532045434150534F4E4F4D204C41434954414D454854414D2020312E3320232020202020202020202042363030203B202020202020202020202020202020202064657070616D203B2020202020202020203439364431,
  0x4C204C4C414D532045434150534F4E4F4D204C41434954414D454854414D2020312E3320232020202020202020202043363030203B202020202020202020202020202020202064657070616D203B2020202020202020203539364431,
  0x4D204C4C414D532045434150534F4E4F4D204C41434954414D454854414D2020312E3320232020202020202020202044363030203B202020202020202020202020202020202064657070616D203B2020202020202020203639364431,
  0x4E204C4C414D532045434150534F4E4F4D204C41434954414D454854414D2020312E3320232020202020202020202045363030203B202020202020202020202020202020202064657070616D203B2020202020202020203739364431,
  0x4F204C4C414D532045434150534F4E4F4D204C41434954414D454854414D2020312E3320232020202020202020202046363030203B202020202020202020202020202020202064657070616D203B2020202020202020203839364431,
  0x50204C4C414D532045434150534F4E4F4D204C41434954414D454854414D2020312E3320232020202020202020202030373030203B202020202020202020202020202020202064657070616D203B2020202020202020203939364431,
  0x51204C4C414D532045434150534F4E4F4D204C41434954414D454854414D2020312E3320232020202020202020202031373030203B202020202020202020202020202020202064657070616D203B2020202020202020204139364431,
  0x52204C4C414D532045434150534F4E4F4D204C41434954414D454854414D2020312E3320232020202020202020202032373030203B202020202020202020202020202020202064657070616D203B2020202020202020204239364431,
  0x53204C4C414D532045434150534F4E4F4D204C41434954414D454854414D2020312E3320232020202020202020202033373030203B202020202020202020202020202020202064657070616D203B2020202020202020204339364431,
  0x54204C4C414D532045434150534F4E4F4D204C41434954414D454854414D2020312E3320232020202020202020202034373030203B202020202020202020202020202020202064657070616D203B2020202020202020204439364431,
  0x55204C4C414D532045434150534F4E4F4D204C41434954414D454854414D2020312E3320232020202020202020202035373030203B202020202020202020202020202020202064657070616D203B2020202020202020204539364431,
  0x56204C4C414D532045434150534F4E4F4D204C41434954414D454854414D2020312E3320232020202020202020202036373030203B202020202020202020202020202020202064657070616D203B2020202020202020204639364431,
  0x57204C4C414D532045434150534F4E4F4D204C41434954414D454854414D2020312E3320232020202020202020202037373030203B202020202020202020202020202020202064657070616D203B2020202020202020203041364431,
  0x58204C4C414D532045434150534F4E4F4D204C41434954414D454854414D2020312E3320232020202020202020202038373030203B202020202020202020202020202020202064657070616D203B2020202020202020203141364431,
  0x59204C4C414D532045434150534F4E4F4D204C41434954414D454854414D2020312E3320232020202020202020202039373030203B202020202020202020202020202020202064657070616D203B2020202020202020203241364431,
  0x5A204C4C414D532045434150534F4E4F4D204C41434954414D454854414D2020312E3320232020202020202020202041373030203B202020202020202020202020202020202064657070616D203B2020202020202020203341364431,
  0x49205353454C544F44204C4C414D532043494C415449204C41434954414D454854414D2020312E3420232020202020202020202031333130203B202020202020202020202020202020202064657070616D203B2020202020202020203441364431,
  0x4A205353454C544F44204C4C414D532043494C415449204C41434954414D454854414D2020312E3420232020202020202020202037333230203B202020202020202020202020202020202064657070616D203B2020202020202020203541364431,
  0x3E37413644312D64657672657365723C2E2E3E36413644312D64657672657365723C202020414E202320202020202020202020202020202020202020202020202020202020206465776F6C6C61736964203B202037413644312E2E3641364431,
  0x4148504C41204C41544950414320444C4F42204C41434954414D454854414D2020312E3320232020202020202020202031423330203B202020202020202020202020202020202064657070616D203B2020202020202020203841364431,
  0x41544542204C41544950414320444C4F42204C41434954414D454854414D2020312E3320232020202020202020202032423330203B202020202020202020202020202020202064657070616D203B2020202020202020203941364431,
  0x414D4D4147204C41544950414320444C4F42204C41434954414D454854414D2020312E3320232020202020202020202033423330203B202020202020202020202020202020202064657070616D203B2020202020202020204141364431,
  0x41544C4544204C41544950414320444C4F42204C41434954414D454854414D2020312E3320232020202020202020202034423330203B202020202020202020202020202020202064657070616D203B2020202020202020204241364431,
  0x4E4F4C49535045204C41544950414320444C4F42204C41434954414D454854414D2020312E3320232020202020202020202035423330203B202020202020202020202020202020202064657070616D203B2020202020202020204341364431,
  0x4154455A204C41544950414320444C4F42204C41434954414D454854414D2020312E3320232020202020202020202036423330203B202020202020202020202020202020202064657070616D203B2020202020202020204441364431,
  0x415445204C41544950414320444C4F42204C41434954414D454854414D2020312E3320232020202020202020202037423330203B202020202020202020202020202020202064657070616D203B2020202020202020204541364431,
  0x4154454854204C41544950414320444C4F42204C41434954414D454854414D2020312E3320232020202020202020202038423330203B202020202020202020202020202020202064657070616D203B2020202020202020204641364431,
  0x41544F49204C41544950414320444C4F42204C41434954414D454854414D2020312E3320232020202020202020202039423330203B202020202020202020202020202020202064657070616D203B2020202020202020203042364431,
  0x415050414B204C41544950414320444C4F42204C41434954414D454854414D2020312E3320232020202020202020202041423330203B202020202020202020202020202020202064657070616D203B2020202020202020203142364431,
  0x41444D414C204C41544950414320444C4F42204C41434954414D454854414D2020312E3320232020202020202020202042423330203B202020202020202020202020202020202064657070616D203B2020202020202020203242364431,
  0x554D204C41544950414320444C4F42204C41434954414D454854414D2020312E3320232020202020202020202043423330203B202020202020202020202020202020202064657070616D203B2020202020202020203342364431,
  0x554E204C41544950414320444C4F42204C41434954414D454854414D2020312E3320232020202020202020202044423330203B202020202020202020202020202020202064657070616D203B2020202020202020203442364431,
  0x4958204C41544950414320444C4F42204C41434954414D454854414D2020312E3320232020202020202020202045423330203B202020202020202020202020202020202064657070616D203B2020202020202020203542364431,
  0x4E4F5243494D4F204C41544950414320444C4F42204C41434954414D454854414D2020312E3320232020202020202020202046423330203B202020202020202020202020202020202064657070616D203B2020202020202020203642364431,
  0x4950204C41544950414320444C4F42204C41434954414D454854414D2020312E3320232020202020202020202030433330203B202020202020202020202020202020202064657070616D203B2020202020202020203742364431,
  0x4F4852204C41544950414320444C4F42204C41434954414D454854414D2020312E3320232020202020202020202031433330203B202020202020202020202020202020202064657070616D203B2020202020202020203842364431,
  0x4C4F424D5953204154454854204C41544950414320444C4F42204C41434954414D454854414D2020312E3320232020202020202020202038423330203B202020202020202020202020202020202064657070616D203B2020202020202020203942364431,
  0x414D474953204C41544950414320444C4F42204C41434954414D454854414D2020312E3320232020202020202020202033433330203B202020202020202020202020202020202064657070616D203B2020202020202020204142364431,
  0x554154204C41544950414320444C4F42204C41434954414D454854414D2020312E3320232020202020202020202034433330203B202020202020202020202020202020202064657070616D203B2020202020202020204242364431,
  0x4E4F4C49535055204C41544950414320444C4F42204C41434954414D454854414D2020312E3320232020202020202020202035433330203B202020202020202020202020202020202064657070616D203B2020202020202020204342364431,
  0x494850204C41544950414320444C4F42204C41434954414D454854414D2020312E3320232020202020202020202036433330203B202020202020202020202020202020202064657070616D203B2020202020202020204442364431,
  0x494843204C41544950414320444C4F42204C41434954414D454854414D2020312E3320232020202020202020202037433330203B202020202020202020202020202020202064657070616D203B2020202020202020204542364431,
  0x495350204C41544950414320444C4F42204C41434954414D454854414D2020312E3320232020202020202020202038433330203B202020202020202020202020202020202064657070616D203B2020202020202020204642364431,
  0x4147454D4F204C41544950414320444C4F42204C41434954414D454854414D2020312E3320232020202020202020202039433330203B202020202020202020202020202020202064657070616D203B2020202020202020203043364431,
  0x414C42414E20444C4F42204C41434954414D454854414D2020312E3320232020202020202020202037303232203B202020202020202020202020202020202064657070616D203B2020202020202020203143364431,
  0x4148504C41204C4C414D5320444C4F42204C41434954414D454854414D2020312E3320232020202020202020202031423330203B202020202020202020202020202020202064657070616D203B2020202020202020203243364431,
  0x41544542204C4C414D5320444C4F42204C41434954414D454854414D2020312E3320232020202020202020202032423330203B202020202020202020202020202020202064657070616D203B2020202020202020203343364431,
  0x414D4D4147204C4C414D5320444C4F42204C41434954414D454854414D2020312E3320232020202020202020202033423330203B202020202020202020202020202020202064657070616D203B2020202020202020203443364431,
  0x41544C4544204C4C414D5320444C4F42204C41434954414D454854414D2020312E3320232020202020202020202034423330203B202020202020202020202020202020202064657070616D203B2020202020202020203543364431,
  0x4E4F4C49535045204C4C414D5320444C4F42204C41434954414D454854414D2020312E3320232020202020202020202035423330203B202020202020202020202020202020202064657070616D203B2020202020202020203643364431,
  0x4154455A204C4C414D5320444C4F42204C41434954414D454854414D2020312E3320232020202020202020202036423330203B202020202020202020202020202020202064657070616D203B2020202020202020203743364431,
  0x415445204C4C414D5320444C4F42204C41434954414D454854414D2020312E3320232020202020202020202037423330203B202020202020202020202020202020202064657070616D203B2020202020202020203843364431,
  0x4154454854204C4C414D5320444C4F42204C41434954414D454854414D2020312E3320232020202020202020202038423330203B202020202020202020202020202020202064657070616D203B2020202020202020203943364431,
  0x41544F49204C4C414D5320444C4F42204C41434954414D454854414D2020312E3320232020202020202020202039423330203B202020202020202020202020202020202064657070616D203B2020202020202020204143364431,
  0x415050414B204C4C414D5320444C4F42204C41434954414D454854414D2020312E3320232020202020202020202041423330203B202020202020202020202020202020202064657070616D203B2020202020202020204243364431,
  0x41444D414C204C4C414D5320444C4F42204C41434954414D454854414D2020312E3320232020202020202020202042423330203B202020202020202020202020202020202064657070616D203B2020202020202020204343364431,
  0x554D204C4C414D5320444C4F42204C41434954414D454854414D2020312E3320232020202020202020202043423330203B202020202020202020202020202020202064657070616D203B2020202020202020204443364431,
  0x554E204C4C414D5320444C4F42204C41434954414D454854414D2020312E3320232020202020202020202044423330203B202020202020202020202020202020202064657070616D203B2020202020202020204543364431,
  0x4958204C4C414D5320444C4F42204C41434954414D454854414D2020312E3320232020202020202020202045423330203B202020202020202020202020202020202064657070616D203B2020202020202020204643364431,
  0x4E4F5243494D4F204C4C414D5320444C4F42204C41434954414D454854414D2020312E3320232020202020202020202046423330203B202020202020202020202020202020202064657070616D203B2020202020202020203044364431,
  0x4950204C4C414D5320444C4F42204C41434954414D454854414D2020312E3320232020202020202020202030433330203B202020202020202020202020202020202064657070616D203B2020202020202020203144364431,
  0x4F4852204C4C414D5320444C4F42204C41434954414D454854414D2020312E3320232020202020202020202031433330203B202020202020202020202020202020202064657070616D203B2020202020202020203244364431,
  0x414D474953204C4C414D5320444C4F42204C41434954414D454854414D2E2E414D474953204C414E4946204C4C414D5320444C4F42204C41434954414D454854414D2020312E3320232020202020202020202033433330203B202020202020202020202020202020202064657070616D203B202034443644312E2E3344364431,
  0x554154204C4C414D5320444C4F42204C41434954414D454854414D2020312E3320232020202020202020202034433330203B202020202020202020202020202020202064657070616D203B2020202020202020203544364431,
  0x4E4F4C49535055204C4C414D5320444C4F42204C41434954414D454854414D2020312E3320232020202020202020202035433330203B202020202020202020202020202020202064657070616D203B2020202020202020203644364431,
  0x494850204C4C414D5320444C4F42204C41434954414D454854414D2020312E3320232020202020202020202036433330203B202020202020202020202020202020202064657070616D203B2020202020202020203744364431,
  0x494843204C4C414D5320444C4F42204C41434954414D454854414D2020312E3320232020202020202020202037433330203B202020202020202020202020202020202064657070616D203B2020202020202020203844364431,
  0x495350204C4C414D5320444C4F42204C41434954414D454854414D2020312E3320232020202020202020202038433330203B202020202020202020202020202020202064657070616D203B2020202020202020203944364431,
  0x4147454D4F204C4C414D5320444C4F42204C41434954414D454854414D2020312E3320232020202020202020202039433330203B202020202020202020202020202020202064657070616D203B2020202020202020204144364431,
  0x4C4149544E45524546464944204C41495452415020444C4F42204C41434954414D454854414D2020312E3320232020202020202020202032303232203B202020202020202020202020202020202064657070616D203B2020202020202020204244364431,
  0x4C4F424D5953204E4F4C4953504520444C4F42204C41434954414D454854414D2020312E3320232020202020202020202035423330203B202020202020202020202020202020202064657070616D203B2020202020202020204344364431,
  0x4C4F424D595320415445485420444C4F42204C41434954414D454854414D2020312E3320232020202020202020202038423330203B202020202020202020202020202020202064657070616D203B2020202020202020204444364431,
  0x4C4F424D595320415050414B20444C4F42204C41434954414D454854414D2020312E3320232020202020202020202041423330203B202020202020202020202020202020202064657070616D203B2020202020202020204544364431,
  0x4C4F424D59532049485020444C4F42204C41434954414D454854414D2020312E3320232020202020202020202036433330203B202020202020202020202020202020202064657070616D203B2020202020202020204644364431,
  0x4C4F424D5953204F485220444C4F42204C41434954414D454854414D2020312E3320232020202020202020202031433330203B202020202020202020202020202020202064657070616D203B2020202020202020203045364431,
  0x4C4F424D595320495020444C4F42204C41434954414D454854414D2020312E3320232020202020202020202030433330203B202020202020202020202020202020202064657070616D203B2020202020202020203145364431,
  0x4148504C41204C4154495041432043494C415449204C41434954414D454854414D2020312E3320232020202020202020202031423330203B202020202020202020202020202020202064657070616D203B2020202020202020203245364431,
  0x41544542204C4154495041432043494C415449204C41434954414D454854414D2020312E3320232020202020202020202032423330203B202020202020202020202020202020202064657070616D203B2020202020202020203345364431,
  0x414D4D4147204C4154495041432043494C415449204C41434954414D454854414D2020312E3320232020202020202020202033423330203B202020202020202020202020202020202064657070616D203B2020202020202020203445364431,
  0x41544C4544204C4154495041432043494C415449204C41434954414D454854414D2020312E3320232020202020202020202034423330203B202020202020202020202020202020202064657070616D203B2020202020202020203545364431,
  0x4E4F4C49535045204C4154495041432043494C415449204C41434954414D454854414D2020312E3320232020202020202020202035423330203B202020202020202020202020202020202064657070616D203B2020202020202020203645364431,
  0x4154455A204C4154495041432043494C415449204C41434954414D454854414D2020312E3320232020202020202020202036423330203B202020202020202020202020202020202064657070616D203B2020202020202020203745364431,
  0x415445204C4154495041432043494C415449204C41434954414D454854414D2020312E3320232020202020202020202037423330203B202020202020202020202020202020202064657070616D203B2020202020202020203845364431,
  0x4154454854204C4154495041432043494C415449204C41434954414D454854414D2020312E3320232020202020202020202038423330203B202020202020202020202020202020202064657070616D203B2020202020202020203945364431,
  0x41544F49204C4154495041432043494C415449204C41434954414D454854414D2020312E3320232020202020202020202039423330203B202020202020202020202020202020202064657070616D203B2020202020202020204145364431,
  0x415050414B204C4154495041432043494C415449204C41434954414D454854414D2020312E3320232020202020202020202041423330203B202020202020202020202020202020202064657070616D203B2020202020202020204245364431,
  0x41444D414C204C4154495041432043494C415449204C41434954414D454854414D2020312E3320232020202020202020202042423330203B202020202020202020202020202020202064657070616D203B2020202020202020204345364431]

def mapText29 : List Nat := [
  0x554D204C4154495041432043494C415449204C41434954414D454854414D2020312E3320232020202020202020202043423330203B202020202020202020202020202020202064657070616D203B2020202020202020204445364431,
  0x554E204C4154495041432043494C415449204C41434954414D454854414D2020312E3320232020202020202020202044423330203B202020202020202020202020202020202064657070616D203B2020202020202020204545364431,
  0x4958204C4154495041432043494C415449204C41434954414D454854414D2020312E3320232020202020202020202045423330203B202020202020202020202020202020202064657070616D203B2020202020202020204645364431,
  0x4E4F5243494D4F204C4154495041432043494C415449204C41434954414D454854414D2020312E3320232020202020202020202046423330203B202020202020202020202020202020202064657070616D203B2020202020202020203046364431,
  0x4950204C4154495041432043494C415449204C41434954414D454854414D2020312E3320232020202020202020202030433330203B202020202020202020202020202020202064657070616D203B2020202020202020203146364431,
  0x4F4852204C4154495041432043494C415449204C41434954414D454854414D2020312E3320232020202020202020202031433330203B202020202020202020202020202020202064657070616D203B2020202020202020203246364431,
  0x4C4F424D5953204154454854204C4154495041432043494C415449204C41434954414D454854414D2020312E3320232020202020202020202038423330203B202020202020202020202020202020202064657070616D203B2020202020202020203346364431,
  0x414D474953204C4154495041432043494C415449204C41434954414D454854414D2020312E3320232020202020202020202033433330203B202020202020202020202020202020202064657070616D203B2020202020202020203446364431,
  0x554154204C4154495041432043494C415449204C41434954414D454854414D2020312E3320232020202020202020202034433330203B202020202020202020202020202020202064657070616D203B2020202020202020203546364431,
  0x4E4F4C49535055204C4154495041432043494C415449204C41434954414D454854414D2020312E3320232020202020202020202035433330203B202020202020202020202020202020202064657070616D203B2020202020202020203646364431,
  0x494850204C4154495041432043494C415449204C41434954414D454854414D2020312E3320232020202020202020202036433330203B202020202020202020202020202020202064657070616D203B2020202020202020203746364431,
  0x494843204C4154495041432043494C415449204C41434954414D454854414D2020312E3320232020202020202020202037433330203B202020202020202020202020202020202064657070616D203B2020202020202020203846364431,
  0x495350204C4154495041432043494C415449204C41434954414D454854414D2020312E3320232020202020202020202038433330203B202020202020202020202020202020202064657070616D203B2020202020202020203946364431,
  0x4147454D4F204C4154495041432043494C415449204C41434954414D454854414D2020312E3320232020202020202020202039433330203B202020202020202020202020202020202064657070616D203B2020202020202020204146364431,
  0x414C42414E2043494C415449204C41434954414D454854414D2020312E3320232020202020202020202037303232203B202020202020202020202020202020202064657070616D203B2020202020202020204246364431,
  0x4148504C41204C4C414D532043494C415449204C41434954414D454854414D2020312E3320232020202020202020202031423330203B202020202020202020202020202020202064657070616D203B2020202020202020204346364431,
  0x41544542204C4C414D532043494C415449204C41434954414D454854414D2020312E3320232020202020202020202032423330203B202020202020202020202020202020202064657070616D203B2020202020202020204446364431,
  0x414D4D4147204C4C414D532043494C415449204C41434954414D454854414D2020312E3320232020202020202020202033423330203B202020202020202020202020202020202064657070616D203B2020202020202020204546364431,
  0x41544C4544204C4C414D532043494C415449204C41434954414D454854414D2020312E3320232020202020202020202034423330203B202020202020202020202020202020202064657070616D203B2020202020202020204646364431,
  0x4E4F4C49535045204C4C414D532043494C415449204C41434954414D454854414D2020312E3320232020202020202020202035423330203B202020202020202020202020202020202064657070616D203B2020202020202020203030374431,
  0x4154455A204C4C414D532043494C415449204C41434954414D454854414D2020312E3320232020202020202020202036423330203B202020202020202020202020202020202064657070616D203B2020202020202020203130374431,
  0x415445204C4C414D532043494C415449204C41434954414D454854414D2020312E3320232020202020202020202037423330203B202020202020202020202020202020202064657070616D203B2020202020202020203230374431,
  0x4154454854204C4C414D532043494C415449204C41434954414D454854414D2020312E3320232020202020202020202038423330203B202020202020202020202020202020202064657070616D203B2020202020202020203330374431,
  0x41544F49204C4C414D532043494C415449204C41434954414D454854414D2020312E3320232020202020202020202039423330203B202020202020202020202020202020202064657070616D203B2020202020202020203430374431,
  0x415050414B204C4C414D532043494C415449204C41434954414D454854414D2020312E3320232020202020202020202041423330203B202020202020202020202020202020202064657070616D203B2020202020202020203530374431,
  0x41444D414C204C4C414D532043494C415449204C41434954414D454854414D2020312E3320232020202020202020202042423330203B202020202020202020202020202020202064657070616D203B2020202020202020203630374431,
  0x554D204C4C414D532043494C415449204C41434954414D454854414D2020312E3320232020202020202020202043423330203B202020202020202020202020202020202064657070616D203B2020202020202020203730374431,
  0x554E204C4C414D532043494C415449204C41434954414D454854414D2020312E3320232020202020202020202044423330203B202020202020202020202020202020202064657070616D203B2020202020202020203830374431,
  0x4958204C4C414D532043494C415449204C41434954414D454854414D2020312E3320232020202020202020202045423330203B202020202020202020202020202020202064657070616D203B2020202020202020203930374431,
  0x4E4F5243494D4F204C4C414D532043494C415449204C41434954414D454854414D2020312E3320232020202020202020202046423330203B202020202020202020202020202020202064657070616D203B2020202020202020204130374431,
  0x4950204C4C414D532043494C415449204C41434954414D454854414D2020312E3320232020202020202020202030433330203B202020202020202020202020202020202064657070616D203B2020202020202020204230374431,
  0x4F4852204C4C414D532043494C415449204C41434954414D454854414D2020312E3320232020202020202020202031433330203B202020202020202020202020202020202064657070616D203B2020202020202020204330374431,
  0x414D474953204C4C414D532043494C415449204C41434954414D454854414D2E2E414D474953204C414E4946204C4C414D532043494C415449204C41434954414D454854414D2020312E3320232020202020202020202033433330203B202020202020202020202020202020202064657070616D203B202045303744312E2E4430374431,
  0x554154204C4C414D532043494C415449204C41434954414D454854414D2020312E3320232020202020202020202034433330203B202020202020202020202020202020202064657070616D203B2020202020202020204630374431,
  0x4E4F4C49535055204C4C414D532043494C415449204C41434954414D454854414D2020312E3320232020202020202020202035433330203B202020202020202020202020202020202064657070616D203B2020202020202020203031374431,
  0x494850204C4C414D532043494C415449204C41434954414D454854414D2020312E3320232020202020202020202036433330203B202020202020202020202020202020202064657070616D203B2020202020202020203131374431,
  0x494843204C4C414D532043494C415449204C41434954414D454854414D2020312E3320232020202020202020202037433330203B202020202020202020202020202020202064657070616D203B2020202020202020203231374431,
  0x495350204C4C414D532043494C415449204C41434954414D454854414D2020312E3320232020202020202020202038433330203B202020202020202020202020202020202064657070616D203B2020202020202020203331374431,
  0x4147454D4F204C4C414D532043494C415449204C41434954414D454854414D2020312E3320232020202020202020202039433330203B202020202020202020202020202020202064657070616D203B2020202020202020203431374431,
  0x4C4149544E45524546464944204C4149545241502043494C415449204C41434954414D454854414D2020312E3320232020202020202020202032303232203B202020202020202020202020202020202064657070616D203B2020202020202020203531374431,
  0x4C4F424D5953204E4F4C495350452043494C415449204C41434954414D454854414D2020312E3320232020202020202020202035423330203B202020202020202020202020202020202064657070616D203B2020202020202020203631374431,
  0x4C4F424D59532041544548542043494C415449204C41434954414D454854414D2020312E3320232020202020202020202038423330203B202020202020202020202020202020202064657070616D203B2020202020202020203731374431,
  0x4C4F424D595320415050414B2043494C415449204C41434954414D454854414D2020312E3320232020202020202020202041423330203B202020202020202020202020202020202064657070616D203B2020202020202020203831374431,
  0x4C4F424D5953204948502043494C415449204C41434954414D454854414D2020312E3320232020202020202020202036433330203B202020202020202020202020202020202064657070616D203B2020202020202020203931374431,
  0x4C4F424D5953204F48522043494C415449204C41434954414D454854414D2020312E3320232020202020202020202031433330203B202020202020202020202020202020202064657070616D203B2020202020202020204131374431,
  0x4C4F424D59532049502043494C415449204C41434954414D454854414D2020312E3320232020202020202020202030433330203B202020202020202020202020202020202064657070616D203B2020202020202020204231374431,
  0x4148504C41204C4154495041432043494C41544920444C4F42204C41434954414D454854414D2020312E3320232020202020202020202031423330203B202020202020202020202020202020202064657070616D203B2020202020202020204331374431,
  0x41544542204C4154495041432043494C41544920444C4F42204C41434954414D454854414D2020312E3320232020202020202020202032423330203B202020202020202020202020202020202064657070616D203B2020202020202020204431374431,
  0x414D4D4147204C4154495041432043494C41544920444C4F42204C41434954414D454854414D2020312E3320232020202020202020202033423330203B202020202020202020202020202020202064657070616D203B2020202020202020204531374431,
  0x41544C4544204C4154495041432043494C41544920444C4F42204C41434954414D454854414D2020312E3320232020202020202020202034423330203B202020202020202020202020202020202064657070616D203B2020202020202020204631374431,
  0x4E4F4C49535045204C4154495041432043494C41544920444C4F42204C41434954414D454854414D2020312E3320232020202020202020202035423330203B202020202020202020202020202020202064657070616D203B2020202020202020203032374431,
  0x4154455A204C4154495041432043494C41544920444C4F42204C41434954414D454854414D2020312E3320232020202020202020202036423330203B202020202020202020202020202020202064657070616D203B2020202020202020203132374431,
  0x415445204C4154495041432043494C41544920444C4F42204C41434954414D454854414D2020312E3320232020202020202020202037423330203B202020202020202020202020202020202064657070616D203B2020202020202020203232374431,
  0x4154454854204C4154495041432043494C41544920444C4F42204C41434954414D454854414D2020312E3320232020202020202020202038423330203B202020202020202020202020202020202064657070616D203B2020202020202020203332374431,
  0x41544F49204C4154495041432043494C41544920444C4F42204C41434954414D454854414D2020312E3320232020202020202020202039423330203B202020202020202020202020202020202064657070616D203B2020202020202020203432374431,
  0x415050414B204C4154495041432043494C41544920444C4F42204C41434954414D454854414D2020312E3320232020202020202020202041423330203B202020202020202020202020202020202064657070616D203B2020202020202020203532374431,
  0x41444D414C204C4154495041432043494C41544920444C4F42204C41434954414D454854414D2020312E3320232020202020202020202042423330203B202020202020202020202020202020202064657070616D203B2020202020202020203632374431,
  0x554D204C4154495041432043494C41544920444C4F42204C41434954414D454854414D2020312E3320232020202020202020202043423330203B202020202020202020202020202020202064657070616D203B2020202020202020203732374431,
  0x554E204C4154495041432043494C41544920444C4F42204C41434954414D454854414D2020312E3320232020202020202020202044423330203B202020202020202020202020202020202064657070616D203B2020202020202020203832374431,
  0x4958204C4154495041432043494C41544920444C4F42204C41434954414D454854414D2020312E3320232020202020202020202045423330203B202020202020202020202020202020202064657070616D203B2020202020202020203932374431,
  0x4E4F5243494D4F204C4154495041432043494C41544920444C4F42204C41434954414D454854414D2020312E3320232020202020202020202046423330203B202020202020202020202020202020202064657070616D203B2020202020202020204132374431,
  0x4950204C4154495041432043494C41544920444C4F42204C41434954414D454854414D2020312E3320232020202020202020202030433330203B202020202020202020202020202020202064657070616D203B2020202020202020204232374431,
  0x4F4852204C4154495041432043494C41544920444C4F42204C41434954414D454854414D2020312E3320232020202020202020202031433330203B202020202020202020202020202020202064657070616D203B2020202020202020204332374431,
  0x4C4F424D5953204154454854204C4154495041432043494C41544920444C4F42204C41434954414D454854414D2020312E3320232020202020202020202038423330203B202020202020202020202020202020202064657070616D203B2020202020202020204432374431,
  0x414D474953204C4154495041432043494C41544920444C4F42204C41434954414D454854414D2020312E3320232020202020202020202033433330203B202020202020202020202020202020202064657070616D203B2020202020202020204532374431,
  0x554154204C4154495041432043494C41544920444C4F42204C41434954414D454854414D2020312E3320232020202020202020202034433330203B202020202020202020202020202020202064657070616D203B2020202020202020204632374431,
  0x4E4F4C49535055204C4154495041432043494C41544920444C4F42204C41434954414D454854414D2020312E3320232020202020202020202035433330203B202020202020202020202020202020202064657070616D203B2020202020202020203033374431,
  0x494850204C4154495041432043494C41544920444C4F42204C41434954414D454854414D2020312E3320232020202020202020202036433330203B202020202020202020202020202020202064657070616D203B2020202020202020203133374431,
  0x494843204C4154495041432043494C41544920444C4F42204C41434954414D454854414D2020312E3320232020202020202020202037433330203B202020202020202020202020202020202064657070616D203B2020202020202020203233374431,
  0x495350204C4154495041432043494C41544920444C4F42204C41434954414D454854414D2020312E3320232020202020202020202038433330203B202020202020202020202020202020202064657070616D203B2020202020202020203333374431,
  0x4147454D4F204C4154495041432043494C41544920444C4F42204C41434954414D454854414D2020312E3320232020202020202020202039433330203B202020202020202020202020202020202064657070616D203B2020202020202020203433374431,
  0x414C42414E2043494C41544920444C4F42204C41434954414D454854414D2020312E3320232020202020202020202037303232203B202020202020202020202020202020202064657070616D203B2020202020202020203533374431,
  0x4148504C41204C4C414D532043494C41544920444C4F42204C41434954414D454854414D2020312E3320232020202020202020202031423330203B202020202020202020202020202020202064657070616D203B2020202020202020203633374431,
  0x41544542204C4C414D532043494C41544920444C4F42204C41434954414D454854414D2020312E3320232020202020202020202032423330203B202020202020202020202020202020202064657070616D203B2020202020202020203733374431,
  0x414D4D4147204C4C414D532043494C41544920444C4F42204C41434954414D454854414D2020312E3320232020202020202020202033423330203B202020202020202020202020202020202064657070616D203B2020202020202020203833374431,
  0x41544C4544204C4C414D532043494C41544920444C4F42204C41434954414D454854414D2020312E3320232020202020202020202034423330203B202020202020202020202020202020202064657070616D203B2020202020202020203933374431,
  0x4E4F4C49535045204C4C414D532043494C41544920444C4F42204C41434954414D454854414D2020312E3320232020202020202020202035423330203B202020202020202020202020202020202064657070616D203B2020202020202020204133374431,
  0x4154455A204C4C414D532043494C41544920444C4F42204C41434954414D454854414D2020312E3320232020202020202020202036423330203B202020202020202020202020202020202064657070616D203B2020202020202020204233374431,
  0x415445204C4C414D532043494C41544920444C4F42204C41434954414D454854414D2020312E3320232020202020202020202037423330203B202020202020202020202020202020202064657070616D203B2020202020202020204333374431,
  0x4154454854204C4C414D532043494C41544920444C4F42204C41434954414D454854414D2020312E3320232020202020202020202038423330203B202020202020202020202020202020202064657070616D203B2020202020202020204433374431,
  0x41544F49204C4C414D532043494C41544920444C4F42204C41434954414D454854414D2020312E3320232020202020202020202039423330203B202020202020202020202020202020202064657070616D203B2020202020202020204533374431,
  0x415050414B204C4C414D532043494C41544920444C4F42204C41434954414D454854414D2020312E3320232020202020202020202041423330203B202020202020202020202020202020202064657070616D203B2020202020202020204633374431,
  0x41444D414C204C4C414D532043494C41544920444C4F42204C41434954414D454854414D2020312E3320232020202020202020202042423330203B202020202020202020202020202020202064657070616D203B2020202020202020203034374431,
  0x554D204C4C414D532043494C41544920444C4F42204C41434954414D454854414D2020312E3320232020202020202020202043423330203B202020202020202020202020202020202064657070616D203B2020202020202020203134374431,
  0x554E204C4C414D532043494C41544920444C4F42204C41434954414D454854414D2020312E3320232020202020202020202044423330203B202020202020202020202020202020202064657070616D203B2020202020202020203234374431,
  0x4958204C4C414D532043494C41544920444C4F42204C41434954414D454854414D2020312E3320232020202020202020202045423330203B202020202020202020202020202020202064657070616D203B2020202020202020203334374431,
  0x4E4F5243494D4F204C4C414D532043494C41544920444C4F42204C41434954414D454854414D2020312E3320232020202020202020202046423330203B202020202020202020202020202020202064657070616D203B2020202020202020203434374431,
  0x4950204C4C414D532043494C41544920444C4F42204C41434954414D454854414D2020312E3320232020202020202020202030433330203B202020202020202020202020202020202064657070616D203B2020202020202020203534374431,
  0x4F4852204C4C414D532043494C41544920444C4F42204C41434954414D454854414D2020312E3320232020202020202020202031433330203B202020202020202020202020202020202064657070616D203B2020202020202020203634374431,
  0x414D474953204C4C414D532043494C41544920444C4F42204C41434954414D454854414D2E2E414D474953204C414E4946204C4C414D532043494C41544920444C4F42204C41434954414D454854414D2020312E3320232020202020202020202033433330203B202020202020202020202020202020202064657070616D203B202038343744312E2E3734374431,
  0x554154204C4C414D532043494C41544920444C4F42204C41434954414D454854414D2020312E3320232020202020202020202034433330203B202020202020202020202020202020202064657070616D203B2020202020202020203934374431,
  0x4E4F4C49535055204C4C414D532043494C41544920444C4F42204C41434954414D454854414D2020312E3320232020202020202020202035433330203B202020202020202020202020202020202064657070616D203B2020202020202020204134374431,
  0x494850204C4C414D532043494C41544920444C4F42204C41434954414D454854414D2020312E3320232020202020202020202036433330203B202020202020202020202020202020202064657070616D203B2020202020202020204234374431,
  0x494843204C4C414D532043494C41544920444C4F42204C41434954414D454854414D2020312E3320232020202020202020202037433330203B202020202020202020202020202020202064657070616D203B2020202020202020204334374431,
  0x495350204C4C414D532043494C41544920444C4F42204C41434954414D454854414D2020312E3320232020202020202020202038433330203B202020202020202020202020202020202064657070616D203B2020202020202020204434374431,
  0x4147454D4F204C4C414D532043494C41544920444C4F42204C41434954414D454854414D2020312E3320232020202020202020202039433330203B202020202020202020202020202020202064657070616D203B2020202020202020204534374431,
  0x4C4149544E45524546464944204C4149545241502043494C41544920444C4F42204C41434954414D454854414D2020312E3320232020202020202020202032303232203B202020202020202020202020202020202064657070616D203B2020202020202020204634374431,
  0x4C4F424D5953204E4F4C495350452043494C41544920444C4F42204C41434954414D454854414D2020312E3320232020202020202020202035423330203B202020202020202020202020202020202064657070616D203B2020202020202020203035374431,
  0x4C4F424D59532041544548542043494C41544920444C4F42204C41434954414D454854414D2020312E3320232020202020202020202038423330203B202020202020202020202020202020202064657070616D203B2020202020202020203135374431,
  0x4C4F424D595320415050414B2043494C41544920444C4F42204C41434954414D454854414D2020312E3320232020202020202020202041423330203B202020202020202020202020202020202064657070616D203B2020202020202020203235374431,
  0x4C4F424D5953204948502043494C41544920444C4F42204C41434954414D454854414D2020312E3320232020202020202020202036433330203B202020202020202020202020202020202064657070616D203B2020202020202020203335374431,
  0x4C4F424D5953204F48522043494C41544920444C4F42204C41434954414D454854414D2020312E3320232020202020202020202031433330203B202020202020202020202020202020202064657070616D203B2020202020202020203435374431,
  0x4C4F424D59532049502043494C41544920444C4F42204C41434954414D454854414D2020312E3320232020202020202020202030433330203B202020202020202020202020202020202064657070616D203B2020202020202020203535374431,
  0x4148504C41204C41544950414320444C4F422046495245532D534E4153204C41434954414D454854414D2020312E3320232020202020202020202031423330203B202020202020202020202020202020202064657070616D203B2020202020202020203635374431,
  0x41544542204C41544950414320444C4F422046495245532D534E4153204C41434954414D454854414D2020312E3320232020202020202020202032423330203B202020202020202020202020202020202064657070616D203B2020202020202020203735374431,
  0x414D4D4147204C41544950414320444C4F422046495245532D534E4153204C41434954414D454854414D2020312E3320232020202020202020202033423330203B202020202020202020202020202020202064657070616D203B2020202020202020203835374431,
  0x41544C4544204C41544950414320444C4F422046495245532D534E4153204C41434954414D454854414D2020312E3320232020202020202020202034423330203B202020202020202020202020202020202064657070616D203B2020202020202020203935374431,
  0x4E4F4C49535045204C41544950414320444C4F422046495245532D534E4153204C41434954414D454854414D2020312E3320232020202020202020202035423330203B202020202020202020202020202020202064657070616D203B2020202020202020204135374431,
  0x4154455A204C41544950414320444C4F422046495245532D534E4153204C41434954414D454854414D2020312E3320232020202020202020202036423330203B202020202020202020202020202020202064657070616D203B2020202020202020204235374431,
  0x415445204C41544950414320444C4F422046495245532D534E4153204C41434954414D454854414D2020312E3320232020202020202020202037423330203B202020202020202020202020202020202064657070616D203B2020202020202020204335374431,
  0x4154454854204C41544950414320444C4F422046495245532D534E4153204C41434954414D454854414D2020312E3320232020202020202020202038423330203B202020202020202020202020202020202064657070616D203B2020202020202020204435374431,
  0x41544F49204C41544950414320444C4F422046495245532D534E4153204C41434954414D454854414D2020312E3320232020202020202020202039423330203B202020202020202020202020202020202064657070616D203B2020202020202020204535374431,
  0x415050414B204C41544950414320444C4F422046495245532D534E4153204C41434954414D454854414D2020312E3320232020202020202020202041423330203B202020202020202020202020202020202064657070616D203B2020202020202020204635374431,
  0x41444D414C204C41544950414320444C4F422046495245532D534E4153204C41434954414D454854414D2020312E3320232020202020202020202042423330203B202020202020202020202020202020202064657070616D203B2020202020202020203036374431,
  0x554D204C41544950414320444C4F422046495245532D534E4153204C41434954414D454854414D2020312E3320232020202020202020202043423330203B202020202020202020202020202020202064657070616D203B2020202020202020203136374431,
  0x554E204C41544950414320444C4F422046495245532D534E4153204C41434954414D454854414D2020312E3320232020202020202020202044423330203B202020202020202020202020202020202064657070616D203B2020202020202020203236374431,
  0x4958204C41544950414320444C4F422046495245532D534E4153204C41434954414D454854414D2020312E3320232020202020202020202045423330203B202020202020202020202020202020202064657070616D203B2020202020202020203336374431,
  0x4E4F5243494D4F204C41544950414320444C4F422046495245532D534E4153204C41434954414D454854414D2020312E3320232020202020202020202046423330203B202020202020202020202020202020202064657070616D203B2020202020202020203436374431,
  0x4950204C41544950414320444C4F422046495245532D534E4153204C41434954414D454854414D2020312E3320232020202020202020202030433330203B202020202020202020202020202020202064657070616D203B2020202020202020203536374431,
  0x4F4852204C41544950414320444C4F422046495245532D534E4153204C41434954414D454854414D2020312E3320232020202020202020202031433330203B202020202020202020202020202020202064657070616D203B2020202020202020203636374431,
  0x4C4F424D5953204154454854204C41544950414320444C4F422046495245532D534E4153204C41434954414D454854414D2020312E3320232020202020202020202038423330203B202020202020202020202020202020202064657070616D203B2020202020202020203736374431,
  0x414D474953204C41544950414320444C4F422046495245532D534E4153204C41434954414D454854414D2020312E3320232020202020202020202033433330203B202020202020202020202020202020202064657070616D203B2020202020202020203836374431,
  0x554154204C41544950414320444C4F422046495245532D534E4153204C41434954414D454854414D2020312E3320232020202020202020202034433330203B202020202020202020202020202020202064657070616D203B2020202020202020203936374431,
  0x4E4F4C49535055204C41544950414320444C4F422046495245532D534E4153204C41434954414D454854414D2020312E3320232020202020202020202035433330203B202020202020202020202020202020202064657070616D203B2020202020202020204136374431,
  0x494850204C41544950414320444C4F422046495245532D534E4153204C41434954414D454854414D2020312E3320232020202020202020202036433330203B202020202020202020202020202020202064657070616D203B2020202020202020204236374431,
  0x494843204C41544950414320444C4F422046495245532D534E4153204C41434954414D454854414D2020312E3320232020202020202020202037433330203B202020202020202020202020202020202064657070616D203B2020202020202020204336374431,
  0x495350204C41544950414320444C4F422046495245532D534E4153204C41434954414D454854414D2020312E3320232020202020202020202038433330203B202020202020202020202020202020202064657070616D203B2020202020202020204436374431,
  0x4147454D4F204C41544950414320444C4F422046495245532D534E4153204C41434954414D454854414D2020312E3320232020202020202020202039433330203B202020202020202020202020202020202064657070616D203B2020202020202020204536374431,
  0x414C42414E20444C4F422046495245532D534E4153204C41434954414D454854414D2020312E3320232020202020202020202037303232203B202020202020202020202020202020202064657070616D203B2020202020202020204636374431,
  0x4148504C41204C4C414D5320444C4F422046495245532D534E4153204C41434954414D454854414D2020312E3320232020202020202020202031423330203B202020202020202020202020202020202064657070616D203B2020202020202020203037374431,
  0x41544542204C4C414D5320444C4F422046495245532D534E4153204C41434954414D454854414D2020312E3320232020202020202020202032423330203B202020202020202020202020202020202064657070616D203B2020202020202020203137374431,
  0x414D4D4147204C4C414D5320444C4F422046495245532D534E4153204C41434954414D454854414D2020312E3320232020202020202020202033423330203B202020202020202020202020202020202064657070616D203B2020202020202020203237374431,
  0x41544C4544204C4C414D5320444C4F422046495245532D534E4153204C41434954414D454854414D2020312E3320232020202020202020202034423330203B202020202020202020202020202020202064657070616D203B2020202020202020203337374431,
  0x4E4F4C49535045204C4C414D5320444C4F422046495245532D534E4153204C41434954414D454854414D2020312E3320232020202020202020202035423330203B202020202020202020202020202020202064657070616D203B2020202020202020203437374431,
  0x4154455A204C4C414D5320444C4F422046495245532D534E4153204C41434954414D454854414D2020312E3320232020202020202020202036423330203B202020202020202020202020202020202064657070616D203B2020202020202020203537374431,
  0x415445204C4C414D5320444C4F422046495245532D534E4153204C41434954414D454854414D2020312E3320232020202020202020202037423330203B202020202020202020202020202020202064657070616D203B2020202020202020203637374431,
  0x4154454854204C4C414D5320444C4F422046495245532D534E4153204C41434954414D454854414D2020312E3320232020202020202020202038423330203B202020202020202020202020202020202064657070616D203B2020202020202020203737374431,
  0x41544F49204C4C414D5320444C4F422046495245532D534E4153204C41434954414D454854414D2020312E3320232020202020202020202039423330203B202020202020202020202020202020202064657070616D203B2020202020202020203837374431,
  0x415050414B204C4C414D5320444C4F422046495245532D534E4153204C41434954414D454854414D2020312E3320232020202020202020202041423330203B202020202020202020202020202020202064657070616D203B2020202020202020203937374431,
  0x41444D414C204C4C414D5320444C4F422046495245532D534E4153204C41434954414D454854414D2020312E3320232020202020202020202042423330203B202020202020202020202020202020202064657070616D203B2020202020202020204137374431,
  0x554D204C4C414D5320444C4F422046495245532D534E4153204C41434954414D454854414D2020312E3320232020202020202020202043423330203B202020202020202020202020202020202064657070616D203B2020202020202020204237374431,
  0x554E204C4C414D5320444C4F422046495245532D534E4153204C41434954414D454854414D2020312E3320232020202020202020202044423330203B202020202020202020202020202020202064657070616D203B2020202020202020204337374431,
  0x4958204C4C414D5320444C4F422046495245532D534E4153204C41434954414D454854414D2020312E3320232020202020202020202045423330203B202020202020202020202020202020202064657070616D203B2020202020202020204437374431,
  0x4E4F5243494D4F204C4C414D5320444C4F422046495245532D534E4153204C41434954414D454854414D2020312E3320232020202020202020202046423330203B202020202020202020202020202020202064657070616D203B2020202020202020204537374431,
  0x4950204C4C414D5320444C4F422046495245532D534E4153204C41434954414D454854414D2020312E3320232020202020202020202030433330203B202020202020202020202020202020202064657070616D203B2020202020202020204637374431,
  0x4F4852204C4C414D5320444C4F422046495245532D534E4153204C41434954414D454854414D2020312E3320232020202020202020202031433330203B202020202020202020202020202020202064657070616D203B2020202020202020203038374431,
  0x414D474953204C4C414D5320444C4F422046495245532D534E4153204C41434954414D454854414D2E2E414D474953204C414E4946204C4C414D5320444C4F422046495245532D534E4153204C41434954414D454854414D2020312E3320232020202020202020202033433330203B202020202020202020202020202020202064657070616D203B202032383744312E2E3138374431,
  0x554154204C4C414D5320444C4F422046495245532D534E4153204C41434954414D454854414D2020312E3320232020202020202020202034433330203B202020202020202020202020202020202064657070616D203B2020202020202020203338374431,
  0x4E4F4C49535055204C4C414D5320444C4F422046495245532D534E4153204C41434954414D454854414D2020312E3320232020202020202020202035433330203B202020202020202020202020202020202064657070616D203B2020202020202020203438374431,
  0x494850204C4C414D5320444C4F422046495245532D534E4153204C41434954414D454854414D2020312E3320232020202020202020202036433330203B202020202020202020202020202020202064657070616D203B2020202020202020203538374431,
  0x494843204C4C414D5320444C4F422046495245532D534E4153204C41434954414D454854414D2020312E3320232020202020202020202037433330203B202020202020202020202020202020202064657070616D203B2020202020202020203638374431,
  0x495350204C4C414D5320444C4F422046495245532D534E4153204C41434954414D454854414D2020312E3320232020202020202020202038433330203B202020202020202020202020202020202064657070616D203B2020202020202020203738374431,
  0x4147454D4F204C4C414D5320444C4F422046495245532D534E4153204C41434954414D454854414D2020312E3320232020202020202020202039433330203B202020202020202020202020202020202064657070616D203B2020202020202020203838374431,
  0x4C4149544E45524546464944204C41495452415020444C4F422046495245532D534E4153204C41434954414D454854414D2020312E3320232020202020202020202032303232203B202020202020202020202020202020202064657070616D203B2020202020202020203938374431,
  0x4C4F424D5953204E4F4C4953504520444C4F422046495245532D534E4153204C41434954414D454854414D2020312E3320232020202020202020202035423330203B202020202020202020202020202020202064657070616D203B2020202020202020204138374431,
  0x4C4F424D595320415445485420444C4F422046495245532D534E4153204C41434954414D454854414D2020312E3320232020202020202020202038423330203B202020202020202020202020202020202064657070616D203B2020202020202020204238374431,
  0x4C4F424D595320415050414B20444C4F422046495245532D534E4153204C41434954414D454854414D2020312E3320232020202020202020202041423330203B202020202020202020202020202020202064657070616D203B2020202020202020204338374431,
  0x4C4F424D59532049485020444C4F422046495245532D534E4153204C41434954414D454854414D2020312E3320232020202020202020202036433330203B202020202020202020202020202020202064657070616D203B2020202020202020204438374431,
  0x4C4F424D5953204F485220444C4F422046495245532D534E4153204C41434954414D454854414D2020312E3320232020202020202020202031433330203B202020202020202020202020202020202064657070616D203B2020202020202020204538374431,
  0x4C4F424D595320495020444C4F422046495245532D534E4153204C41434954414D454854414D2020312E3320232020202020202020202030433330203B202020202020202020202020202020202064657070616D203B2020202020202020204638374431,
  0x4148504C41204C4154495041432043494C41544920444C4F422046495245532D534E4153204C41434954414D454854414D2020312E3320232020202020202020202031423330203B202020202020202020202020202020202064657070616D203B2020202020202020203039374431,
  0x41544542204C4154495041432043494C41544920444C4F422046495245532D534E4153204C41434954414D454854414D2020312E3320232020202020202020202032423330203B202020202020202020202020202020202064657070616D203B2020202020202020203139374431,
  0x414D4D4147204C4154495041432043494C41544920444C4F422046495245532D534E4153204C41434954414D454854414D2020312E3320232020202020202020202033423330203B202020202020202020202020202020202064657070616D203B2020202020202020203239374431,
  0x41544C4544204C4154495041432043494C41544920444C4F422046495245532D534E4153204C41434954414D454854414D2020312E3320232020202020202020202034423330203B202020202020202020202020202020202064657070616D203B2020202020202020203339374431,
  0x4E4F4C49535045204C4154495041432043494C41544920444C4F422046495245532D534E4153204C41434954414D454854414D2020312E3320232020202020202020202035423330203B202020202020202020202020202020202064657070616D203B2020202020202020203439374431,
  0x4154455A204C4154495041432043494C41544920444C4F422046495245532D534E4153204C41434954414D454854414D2020312E3320232020202020202020202036423330203B202020202020202020202020202020202064657070616D203B2020202020202020203539374431,
  0x415445204C4154495041432043494C41544920444C4F422046495245532D534E4153204C41434954414D454854414D2020312E3320232020202020202020202037423330203B202020202020202020202020202020202064657070616D203B2020202020202020203639374431,
  0x4154454854204C4154495041432043494C41544920444C4F422046495245532D534E4153204C41434954414D454854414D2020312E3320232020202020202020202038423330203B202020202020202020202020202020202064657070616D203B2020202020202020203739374431,
  0x41544F49204C4154495041432043494C41544920444C4F422046495245532D534E4153204C41434954414D454854414D2020312E3320232020202020202020202039423330203B202020202020202020202020202020202064657070616D203B2020202020202020203839374431,
  0x415050414B204C4154495041432043494C41544920444C4F422046495245532D534E4153204C41434954414D454854414D2020312E3320232020202020202020202041423330203B202020202020202020202020202020202064657070616D203B2020202020202020203939374431,
  0x41444D414C204C4154495041432043494C41544920444C4F422046495245532D534E4153204C41434954414D454854414D2020312E3320232020202020202020202042423330203B202020202020202020202020202020202064657070616D203B2020202020202020204139374431,
  0x554D204C4154495041432043494C41544920444C4F422046495245532D534E4153204C41434954414D454854414D2020312E3320232020202020202020202043423330203B202020202020202020202020202020202064657070616D203B2020202020202020204239374431,
  0x554E204C4154495041432043494C41544920444C4F422046495245532D534E4153204C41434954414D454854414D2020312E3320232020202020202020202044423330203B202020202020202020202020202020202064657070616D203B2020202020202020204339374431,
  0x4958204C4154495041432043494C41544920444C4F422046495245532D534E4153204C41434954414D454854414D2020312E3320232020202020202020202045423330203B202020202020202020202020202020202064657070616D203B2020202020202020204439374431,
  0x4E4F5243494D4F204C4154495041432043494C41544920444C4F422046495245532D534E4153204C41434954414D454854414D2020312E3320232020202020202020202046423330203B202020202020202020202020202020202064657070616D203B2020202020202020204539374431,
  0x4950204C4154495041432043494C41544920444C4F422046495245532D534E4153204C41434954414D454854414D2020312E3320232020202020202020202030433330203B202020202020202020202020202020202064657070616D203B2020202020202020204639374431,
  0x4F4852204C4154495041432043494C41544920444C4F422046495245532D534E4153204C41434954414D454854414D2020312E3320232020202020202020202031433330203B202020202020202020202020202020202064657070616D203B2020202020202020203041374431,
  0x4C4F424D5953204154454854204C4154495041432043494C41544920444C4F422046495245532D534E4153204C41434954414D454854414D2020312E3320232020202020202020202038423330203B202020202020202020202020202020202064657070616D203B2020202020202020203141374431,
  0x414D474953204C4154495041432043494C41544920444C4F422046495245532D534E4153204C41434954414D454854414D2020312E3320232020202020202020202033433330203B202020202020202020202020202020202064657070616D203B2020202020202020203241374431,
  0x554154204C4154495041432043494C41544920444C4F422046495245532D534E4153204C41434954414D454854414D2020312E3320232020202020202020202034433330203B202020202020202020202020202020202064657070616D203B2020202020202020203341374431,
  0x4E4F4C49535055204C4154495041432043494C41544920444C4F422046495245532D534E4153204C41434954414D454854414D2020312E3320232020202020202020202035433330203B202020202020202020202020202020202064657070616D203B2020202020202020203441374431,
  0x494850204C4154495041432043494C41544920444C4F422046495245532D534E4153204C41434954414D454854414D2020312E3320232020202020202020202036433330203B202020202020202020202020202020202064657070616D203B2020202020202020203541374431,
  0x494843204C4154495041432043494C41544920444C4F422046495245532D534E4153204C41434954414D454854414D2020312E3320232020202020202020202037433330203B202020202020202020202020202020202064657070616D203B2020202020202020203641374431,
  0x495350204C4154495041432043494C41544920444C4F422046495245532D534E4153204C41434954414D454854414D2020312E3320232020202020202020202038433330203B202020202020202020202020202020202064657070616D203B2020202020202020203741374431,
  0x4147454D4F204C4154495041432043494C41544920444C4F422046495245532D534E4153204C41434954414D454854414D2020312E3320232020202020202020202039433330203B202020202020202020202020202020202064657070616D203B2020202020202020203841374431,
  0x414C42414E2043494C41544920444C4F422046495245532D534E4153204C41434954414D454854414D2020312E3320232020202020202020202037303232203B202020202020202020202020202020202064657070616D203B2020202020202020203941374431,
  0x4148504C41204C4C414D532043494C41544920444C4F422046495245532D534E4153204C41434954414D454854414D2020312E3320232020202020202020202031423330203B202020202020202020202020202020202064657070616D203B2020202020202020204141374431,
  0x41544542204C4C414D532043494C41544920444C4F422046495245532D534E4153204C41434954414D454854414D2020312E3320232020202020202020202032423330203B202020202020202020202020202020202064657070616D203B2020202020202020204241374431,
  0x414D4D4147204C4C414D532043494C41544920444C4F422046495245532D534E4153204C41434954414D454854414D2020312E3320232020202020202020202033423330203B202020202020202020202020202020202064657070616D203B2020202020202020204341374431,
  0x41544C4544204C4C414D532043494C41544920444C4F422046495245532D534E4153204C41434954414D454854414D2020312E3320232020202020202020202034423330203B202020202020202020202020202020202064657070616D203B2020202020202020204441374431,
  0x4E4F4C49535045204C4C414D532043494C41544920444C4F422046495245532D534E4153204C41434954414D454854414D2020312E3320232020202020202020202035423330203B202020202020202020202020202020202064657070616D203B2020202020202020204541374431,
  0x4154455A204C4C414D532043494C41544920444C4F422046495245532D534E4153204C41434954414D454854414D2020312E3320232020202020202020202036423330203B202020202020202020202020202020202064657070616D203B2020202020202020204641374431,
  0x415445204C4C414D532043494C41544920444C4F422046495245532D534E4153204C41434954414D454854414D2020312E3320232020202020202020202037423330203B202020202020202020202020202020202064657070616D203B2020202020202020203042374431,
  0x4154454854204C4C414D532043494C41544920444C4F422046495245532D534E4153204C41434954414D454854414D2020312E3320232020202020202020202038423330203B202020202020202020202020202020202064657070616D203B2020202020202020203142374431,
  0x41544F49204C4C414D532043494C41544920444C4F422046495245532D534E4153204C41434954414D454854414D2020312E3320232020202020202020202039423330203B202020202020202020202020202020202064657070616D203B2020202020202020203242374431,
  0x415050414B204C4C414D532043494C41544920444C4F422046495245532D534E4153204C41434954414D454854414D2020312E3320232020202020202020202041423330203B202020202020202020202020202020202064657070616D203B2020202020202020203342374431,
  0x41444D414C204C4C414D532043494C41544920444C4F422046495245532D534E4153204C41434954414D454854414D2020312E3320232020202020202020202042423330203B202020202020202020202020202020202064657070616D203B2020202020202020203442374431,
  0x554D204C4C414D532043494C41544920444C4F422046495245532D534E4153204C41434954414D454854414D2020312E3320232020202020202020202043423330203B202020202020202020202020202020202064657070616D203B2020202020202020203542374431,
  0x554E204C4C414D532043494C41544920444C4F422046495245532D534E4153204C41434954414D454854414D2020312E3320232020202020202020202044423330203B202020202020202020202020202020202064657070616D203B2020202020202020203642374431,
  0x4958204C4C414D532043494C41544920444C4F422046495245532D534E4153204C41434954414D454854414D2020312E3320232020202020202020202045423330203B202020202020202020202020202020202064657070616D203B2020202020202020203742374431,
  0x4E4F5243494D4F204C4C414D532043494C41544920444C4F422046495245532D534E4153204C41434954414D454854414D2020312E3320232020202020202020202046423330203B202020202020202020202020202020202064657070616D203B2020202020202020203842374431,
  0x4950204C4C414D532043494C41544920444C4F422046495245532D534E4153204C41434954414D454854414D2020312E3320232020202020202020202030433330203B202020202020202020202020202020202064657070616D203B2020202020202020203942374431,
  0x4F4852204C4C414D532043494C41544920444C4F422046495245532D534E4153204C41434954414D454854414D2020312E3320232020202020202020202031433330203B202020202020202020202020202020202064657070616D203B2020202020202020204142374431,
  0x414D474953204C4C414D532043494C41544920444C4F422046495245532D534E4153204C41434954414D454854414D2E2E414D474953204C414E4946204C4C414D532043494C41544920444C4F422046495245532D534E4153204C41434954414D454854414D2020312E3320232020202020202020202033433330203B202020202020202020202020202020202064657070616D203B202043423744312E2E4242374431,
  0x554154204C4C414D532043494C41544920444C4F422046495245532D534E4153204C41434954414D454854414D2020312E3320232020202020202020202034433330203B202020202020202020202020202020202064657070616D203B2020202020202020204442374431,
  0x4E4F4C49535055204C4C414D532043494C41544920444C4F422046495245532D534E4153204C41434954414D454854414D2020312E3320232020202020202020202035433330203B202020202020202020202020202020202064657070616D203B2020202020202020204542374431,
  0x494850204C4C414D532043494C41544920444C4F422046495245532D534E4153204C41434954414D454854414D2020312E3320232020202020202020202036433330203B202020202020202020202020202020202064657070616D203B2020202020202020204642374431,
  0x494843204C4C414D532043494C41544920444C4F422046495245532D534E4153204C41434954414D454854414D2020312E3320232020202020202020202037433330203B202020202020202020202020202020202064657070616D203B2020202020202020203043374431,
  0x495350204C4C414D532043494C41544920444C4F422046495245532D534E4153204C41434954414D454854414D2020312E3320232020202020202020202038433330203B202020202020202020202020202020202064657070616D203B2020202020202020203143374431,
  0x4147454D4F204C4C414D532043494C41544920444C4F422046495245532D534E4153204C41434954414D454854414D2020312E3320232020202020202020202039433330203B202020202020202020202020202020202064657070616D203B2020202020202020203243374431,
  0x4C4149544E45524546464944204C4149545241502043494C41544920444C4F422046495245532D534E4153204C41434954414D454854414D2020312E3320232020202020202020202032303232203B202020202020202020202020202020202064657070616D203B2020202020202020203343374431,
  0x4C4F424D5953204E4F4C495350452043494C41544920444C4F422046495245532D534E4153204C41434954414D454854414D2020312E3320232020202020202020202035423330203B202020202020202020202020202020202064657070616D203B2020202020202020203443374431,
  0x4C4F424D59532041544548542043494C41544920444C4F422046495245532D534E4153204C41434954414D454854414D2020312E3320232020202020202020202038423330203B202020202020202020202020202020202064657070616D203B2020202020202020203543374431,
  0x4C4F424D595320415050414B2043494C41544920444C4F422046495245532D534E4153204C41434954414D454854414D2020312E3320232020202020202020202041423330203B202020202020202020202020202020202064657070616D203B2020202020202020203643374431,
  0x4C4F424D5953204948502043494C41544920444C4F422046495245532D534E4153204C41434954414D454854414D2020312E3320232020202020202020202036433330203B202020202020202020202020202020202064657070616D203B2020202020202020203743374431,
  0x4C4F424D5953204F48522043494C41544920444C4F422046495245532D534E4153204C41434954414D454854414D2020312E3320232020202020202020202031433330203B202020202020202020202020202020202064657070616D203B2020202020202020203843374431,
  0x4C4F424D59532049502043494C41544920444C4F422046495245532D534E4153204C41434954414D454854414D2020312E3320232020202020202020202030433330203B202020202020202020202020202020202064657070616D203B2020202020202020203943374431,
  0x414D4D41474944204C4C414D5320444C4F42204C41434954414D454854414D2E2E414D4D41474944204C41544950414320444C4F42204C41434954414D454854414D2020302E3520232020202020202020202044443330203B202020202020202020202020202020202064657070616D203B202042433744312E2E4143374431,
  0x3E44433744312D64657672657365723C2E2E3E43433744312D64657672657365723C202020414E202320202020202020202020202020202020202020202020202020202020206465776F6C6C61736964203B202044433744312E2E4343374431,
  0x4F52455A20544947494420444C4F42204C41434954414D454854414D2020312E3320232020202020202020202030333030203B202020202020202020202020202020202064657070616D203B2020202020202020204543374431,
  0x454E4F20544947494420444C4F42204C41434954414D454854414D2020312E3320232020202020202020202031333030203B202020202020202020202020202020202064657070616D203B2020202020202020204643374431,
  0x4F575420544947494420444C4F42204C41434954414D454854414D2020312E3320232020202020202020202032333030203B202020202020202020202020202020202064657070616D203B2020202020202020203044374431,
  0x454552485420544947494420444C4F42204C41434954414D454854414D2020312E3320232020202020202020202033333030203B202020202020202020202020202020202064657070616D203B2020202020202020203144374431,
  0x52554F4620544947494420444C4F42204C41434954414D454854414D2020312E3320232020202020202020202034333030203B202020202020202020202020202020202064657070616D203B2020202020202020203244374431,
  0x4556494620544947494420444C4F42204C41434954414D454854414D2020312E3320232020202020202020202035333030203B202020202020202020202020202020202064657070616D203B2020202020202020203344374431,
  0x58495320544947494420444C4F42204C41434954414D454854414D2020312E3320232020202020202020202036333030203B202020202020202020202020202020202064657070616D203B2020202020202020203444374431,
  0x4E4556455320544947494420444C4F42204C41434954414D454854414D2020312E3320232020202020202020202037333030203B202020202020202020202020202020202064657070616D203B2020202020202020203544374431,
  0x544847494520544947494420444C4F42204C41434954414D454854414D2020312E3320232020202020202020202038333030203B202020202020202020202020202020202064657070616D203B2020202020202020203644374431,
  0x454E494E20544947494420444C4F42204C41434954414D454854414D2020312E3320232020202020202020202039333030203B202020202020202020202020202020202064657070616D203B2020202020202020203744374431,
  0x4F52455A205449474944204B43555254532D454C42554F44204C41434954414D454854414D2020312E3320232020202020202020202030333030203B202020202020202020202020202020202064657070616D203B2020202020202020203844374431,
  0x454E4F205449474944204B43555254532D454C42554F44204C41434954414D454854414D2020312E3320232020202020202020202031333030203B202020202020202020202020202020202064657070616D203B2020202020202020203944374431,
  0x4F5754205449474944204B43555254532D454C42554F44204C41434954414D454854414D2020312E3320232020202020202020202032333030203B202020202020202020202020202020202064657070616D203B2020202020202020204144374431,
  0x4545524854205449474944204B43555254532D454C42554F44204C41434954414D454854414D2020312E3320232020202020202020202033333030203B202020202020202020202020202020202064657070616D203B2020202020202020204244374431,
  0x52554F46205449474944204B43555254532D454C42554F44204C41434954414D454854414D2020312E3320232020202020202020202034333030203B202020202020202020202020202020202064657070616D203B2020202020202020204344374431,
  0x45564946205449474944204B43555254532D454C42554F44204C41434954414D454854414D2020312E3320232020202020202020202035333030203B202020202020202020202020202020202064657070616D203B2020202020202020204444374431,
  0x584953205449474944204B43555254532D454C42554F44204C41434954414D454854414D2020312E3320232020202020202020202036333030203B202020202020202020202020202020202064657070616D203B2020202020202020204544374431,
  0x4E45564553205449474944204B43555254532D454C42554F44204C41434954414D454854414D2020312E3320232020202020202020202037333030203B202020202020202020202020202020202064657070616D203B2020202020202020204644374431,
  0x5448474945205449474944204B43555254532D454C42554F44204C41434954414D454854414D2020312E3320232020202020202020202038333030203B202020202020202020202020202020202064657070616D203B2020202020202020203045374431,
  0x454E494E205449474944204B43555254532D454C42554F44204C41434954414D454854414D2020312E3320232020202020202020202039333030203B202020202020202020202020202020202064657070616D203B2020202020202020203145374431,
  0x4F52455A2054494749442046495245532D534E4153204C41434954414D454854414D2020312E3320232020202020202020202030333030203B202020202020202020202020202020202064657070616D203B2020202020202020203245374431,
  0x454E4F2054494749442046495245532D534E4153204C41434954414D454854414D2020312E3320232020202020202020202031333030203B202020202020202020202020202020202064657070616D203B2020202020202020203345374431,
  0x4F57542054494749442046495245532D534E4153204C41434954414D454854414D2020312E3320232020202020202020202032333030203B202020202020202020202020202020202064657070616D203B2020202020202020203445374431,
  0x45455248542054494749442046495245532D534E4153204C41434954414D454854414D2020312E3320232020202020202020202033333030203B202020202020202020202020202020202064657070616D203B2020202020202020203545374431,
  0x52554F462054494749442046495245532D534E4153204C41434954414D454854414D2020312E3320232020202020202020202034333030203B202020202020202020202020202020202064657070616D203B2020202020202020203645374431,
  0x455649462054494749442046495245532D534E4153204C41434954414D454854414D2020312E3320232020202020202020202035333030203B202020202020202020202020202020202064657070616D203B2020202020202020203745374431,
  0x5849532054494749442046495245532D534E4153204C41434954414D454854414D2020312E3320232020202020202020202036333030203B202020202020202020202020202020202064657070616D203B2020202020202020203845374431,
  0x4E455645532054494749442046495245532D534E4153204C41434954414D454854414D2020312E3320232020202020202020202037333030203B202020202020202020202020202020202064657070616D203B2020202020202020203945374431,
  0x54484749452054494749442046495245532D534E4153204C41434954414D454854414D2020312E3320232020202020202020202038333030203B202020202020202020202020202020202064657070616D203B2020202020202020204145374431,
  0x454E494E2054494749442046495245532D534E4153204C41434954414D454854414D2020312E3320232020202020202020202039333030203B202020202020202020202020202020202064657070616D203B2020202020202020204245374431,
  0x4F52455A20544947494420444C4F422046495245532D534E4153204C41434954414D454854414D2020312E3320232020202020202020202030333030203B202020202020202020202020202020202064657070616D203B2020202020202020204345374431]

def mapText30 : List Nat := [
  0x454E4F20544947494420444C4F422046495245532D534E4153204C41434954414D454854414D2020312E3320232020202020202020202031333030203B202020202020202020202020202020202064657070616D203B2020202020202020204445374431,
  0x4F575420544947494420444C4F422046495245532D534E4153204C41434954414D454854414D2020312E3320232020202020202020202032333030203B202020202020202020202020202020202064657070616D203B2020202020202020204545374431,
  0x454552485420544947494420444C4F422046495245532D534E4153204C41434954414D454854414D2020312E3320232020202020202020202033333030203B202020202020202020202020202020202064657070616D203B2020202020202020204645374431,
  0x52554F4620544947494420444C4F422046495245532D534E4153204C41434954414D454854414D2020312E3320232020202020202020202034333030203B202020202020202020202020202020202064657070616D203B2020202020202020203046374431,
  0x4556494620544947494420444C4F422046495245532D534E4153204C41434954414D454854414D2020312E3320232020202020202020202035333030203B202020202020202020202020202020202064657070616D203B2020202020202020203146374431,
  0x58495320544947494420444C4F422046495245532D534E4153204C41434954414D454854414D2020312E3320232020202020202020202036333030203B202020202020202020202020202020202064657070616D203B2020202020202020203246374431,
  0x4E4556455320544947494420444C4F422046495245532D534E4153204C41434954414D454854414D2020312E3320232020202020202020202037333030203B202020202020202020202020202020202064657070616D203B2020202020202020203346374431,
  0x544847494520544947494420444C4F422046495245532D534E4153204C41434954414D454854414D2020312E3320232020202020202020202038333030203B202020202020202020202020202020202064657070616D203B2020202020202020203446374431,
  0x454E494E20544947494420444C4F422046495245532D534E4153204C41434954414D454854414D2020312E3320232020202020202020202039333030203B202020202020202020202020202020202064657070616D203B2020202020202020203546374431,
  0x4F52455A2054494749442045434150534F4E4F4D204C41434954414D454854414D2020312E3320232020202020202020202030333030203B202020202020202020202020202020202064657070616D203B2020202020202020203646374431,
  0x454E4F2054494749442045434150534F4E4F4D204C41434954414D454854414D2020312E3320232020202020202020202031333030203B202020202020202020202020202020202064657070616D203B2020202020202020203746374431,
  0x4F57542054494749442045434150534F4E4F4D204C41434954414D454854414D2020312E3320232020202020202020202032333030203B202020202020202020202020202020202064657070616D203B2020202020202020203846374431,
  0x45455248542054494749442045434150534F4E4F4D204C41434954414D454854414D2020312E3320232020202020202020202033333030203B202020202020202020202020202020202064657070616D203B2020202020202020203946374431,
  0x52554F462054494749442045434150534F4E4F4D204C41434954414D454854414D2020312E3320232020202020202020202034333030203B202020202020202020202020202020202064657070616D203B2020202020202020204146374431,
  0x455649462054494749442045434150534F4E4F4D204C41434954414D454854414D2020312E3320232020202020202020202035333030203B202020202020202020202020202020202064657070616D203B2020202020202020204246374431,
  0x5849532054494749442045434150534F4E4F4D204C41434954414D454854414D2020312E3320232020202020202020202036333030203B202020202020202020202020202020202064657070616D203B2020202020202020204346374431,
  0x4E455645532054494749442045434150534F4E4F4D204C41434954414D454854414D2020312E3320232020202020202020202037333030203B202020202020202020202020202020202064657070616D203B2020202020202020204446374431,
  0x54484749452054494749442045434150534F4E4F4D204C41434954414D454854414D2020312E3320232020202020202020202038333030203B202020202020202020202020202020202064657070616D203B2020202020202020204546374431,
  0x454E494E2054494749442045434150534F4E4F4D204C41434954414D454854414D2020312E3320232020202020202020202039333030203B202020202020202020202020202020202064657070616D203B2020202020202020204646374431,
  0x4441454820474E49544952574E4749532E2E5845444E4920545349462D444E414820474E49544952574E4749532020302E3820232020202038564E203B2020202020203B20202020202020202020202020202020202064696C6176203B202046463944312E2E3030384431,
  0x4E4920474E494B4355532052494120474E49544952574E4749532E2E4D4952204441454820474E49544952574E4749532020302E3820232020202020202020202020202020202020202020202020202020202020202020202064696C6176203B202036334144312E2E3030414431,
  0x454C414858452048544145524220474E49544952574E4749532E2E534E4F495441544F52204C4C414D5320574F4C422052494120474E49544952574E4749532020302E3820232020202038564E203B2020202020203B20202020202020202020202020202020202064696C6176203B202041334144312E2E3733414431,
  0x544E454D45544943584520474E49544952574E4749532E2E4C41525455454E204445534F4C43204854554F4D20474E49544952574E4749532020302E3820232020202020202020202020202020202020202020202020202020202020202020202064696C6176203B202043364144312E2E4233414431,
  0x474E49545349575420454E414C50524F4F4C462D4F53524F5420474E49544952574E4749532E2E454E49505320504948205245444C554F485320474E49544952574E4749532020302E3820232020202038564E203B2020202020203B20202020202020202020202020202020202064696C6176203B202034374144312E2E4436414431,
  0x53544E494F4A20504948204D4F524620474E49544C49542059444F4220524550505520474E49544952574E4749532020302E3820232020202020202020202020202020202020202020202020202020202020202020202064696C6176203B2020202020202020203537414431,
  0x4854504544204E4F495441434F4C20474E49544952574E4749532E2E4E4F4954414E49424D4F4320424D494C20474E49544952574E4749532020302E3820232020202038564E203B2020202020203B20202020202020202020202020202020202064696C6176203B202033384144312E2E3637414431,
  0x4B43454E2044414548204E4F495441434F4C20474E49544952574E4749532020302E3820232020202020202020202020202020202020202020202020202020202020202020202064696C6176203B2020202020202020203438414431,
  0x5349534548544E4552415020474E49544952574E4749532E2E4F53524F54204E4F495441434F4C20474E49544952574E4749532020302E3820232020202038564E203B2020202020203B20202020202020202020202020202020202064696C6176203B202042384144312E2E3538414431,
  0x3E41394144312D64657672657365723C2E2E3E43384144312D64657672657365723C202020414E202320202020202020202020202020202020202020202020202020202020206465776F6C6C61736964203B202041394144312E2E4338414431,
  0x362D5245494649444F4D204C4C494620474E49544952574E4749532E2E322D5245494649444F4D204C4C494620474E49544952574E4749532020302E3820232020202020202020202020202020202020202020202020202020202020202020202064696C6176203B202046394144312E2E4239414431,
  0x3E30414144312D64657672657365723C202020414E202320202020202020202020202020202020202020202020202020202020206465776F6C6C61736964203B2020202020202020203041414431,
  0x36312D5245494649444F4D204E4F495441544F5220474E49544952574E4749532E2E322D5245494649444F4D204E4F495441544F5220474E49544952574E4749532020302E3820232020202020202020202020202020202020202020202020202020202020202020202064696C6176203B202046414144312E2E3141414431,
  0x3E46464644312D64657672657365723C2E2E3E30424144312D64657672657365723C202020414E202320202020202020202020202020202020202020202020202020202020206465776F6C6C61736964203B202046464644312E2E3042414431,
  0x4554455649485A2052455454454C20434954494C4F47414C4720474E494E49424D4F432E2E555A412052455454454C20434954494C4F47414C4720474E494E49424D4F432020302E3920232020202020202020202020202020202020202020202020202020202020202020202064696C6176203B202036303045312E2E3030304531,
  0x3E37303045312D64657672657365723C202020414E202320202020202020202020202020202020202020202020202020202020206465776F6C6C61736964203B2020202020202020203730304531,
  0x555245482052455454454C20434954494C4F47414C4720474E494E49424D4F432E2E414A4C4D455A2052455454454C20434954494C4F47414C4720474E494E49424D4F432020302E3920232020202020202020202020202020202020202020202020202020202020202020202064696C6176203B202038313045312E2E3830304531,
  0x3E41313045312D64657672657365723C2E2E3E39313045312D64657672657365723C202020414E202320202020202020202020202020202020202020202020202020202020206465776F6C6C61736964203B202041313045312E2E3931304531,
  0x495441592052455454454C20434954494C4F47414C4720474E494E49424D4F432E2E415448532052455454454C20434954494C4F47414C4720474E494E49424D4F432020302E3920232020202020202020202020202020202020202020202020202020202020202020202064696C6176203B202031323045312E2E4231304531,
  0x3E32323045312D64657672657365723C202020414E202320202020202020202020202020202020202020202020202020202020206465776F6C6C61736964203B2020202020202020203232304531,
  0x535559204C4C414D532052455454454C20434954494C4F47414C4720474E494E49424D4F432E2E55592052455454454C20434954494C4F47414C4720474E494E49424D4F432020302E3920232020202020202020202020202020202020202020202020202020202020202020202064696C6176203B202034323045312E2E3332304531,
  0x3E35323045312D64657672657365723C202020414E202320202020202020202020202020202020202020202020202020202020206465776F6C6C61736964203B2020202020202020203532304531,
  0x415449462052455454454C20434954494C4F47414C4720474E494E49424D4F432E2E4F592052455454454C20434954494C4F47414C4720474E494E49424D4F432020302E3920232020202020202020202020202020202020202020202020202020202020202020202064696C6176203B202041323045312E2E3632304531,
  0x3E46463045312D64657672657365723C2E2E3E42323045312D64657672657365723C202020414E202320202020202020202020202020202020202020202020202020202020206465776F6C6C61736964203B202046463045312E2E4232304531,
  0x572052455454454C20474E4F4D48204555484341555020474E454B4149594E2E2E414D2052455454454C20474E4F4D48204555484341555020474E454B4149594E20302E323120232020202020202020202020202020202020202020202020202020202020202020202064696C6176203B202043323145312E2E3030314531,
  0x3E46323145312D64657672657365723C2E2E3E44323145312D64657672657365723C202020414E202320202020202020202020202020202020202020202020202020202020206465776F6C6C61736964203B202046323145312E2E4432314531,
  0x52454E454854474E454C20454C42414C4C595320474E4F4D48204555484341555020474E454B4149594E2E2E422D454E4F5420474E4F4D48204555484341555020474E454B4149594E20302E323120232020202020202020202020202020202020202020202020202020202020202020202064696C6176203B202044333145312E2E3033314531,
  0x3E46333145312D64657672657365723C2E2E3E45333145312D64657672657365723C202020414E202320202020202020202020202020202020202020202020202020202020206465776F6C6C61736964203B202046333145312E2E4533314531,
  0x454E494E20544947494420474E4F4D48204555484341555020474E454B4149594E2E2E4F52455A20544947494420474E4F4D48204555484341555020474E454B4149594E20302E323120232020202020202020202020202020202020202020202020202020202020202020202064696C6176203B202039343145312E2E3034314531,
  0x3E44343145312D64657672657365723C2E2E3E41343145312D64657672657365723C202020414E202320202020202020202020202020202020202020202020202020202020206465776F6C6C61736964203B202044343145312E2E4134314531,
  0x4A41594E204D4152474F474F4C20474E4F4D48204555484341555020474E454B4149594E20302E323120232020202020202020202020202020202020202020202020202020202020202020202064696C6176203B2020202020202020204534314531,
  0x41432044454C4352494320474E4F4D48204555484341555020474E454B4149594E20302E323120232020202038564E203B2020202020203B20202020202020202020202020202020202064696C6176203B2020202020202020204634314531,
  0x3E46423245312D64657672657365723C2E2E3E30353145312D64657672657365723C202020414E202320202020202020202020202020202020202020202020202020202020206465776F6C6C61736964203B202046423245312E2E3035314531,
  0x454E494E205449474944204F48434E41572E2E41412052455454454C204F48434E415720302E323120232020202020202020202020202020202020202020202020202020202020202020202064696C6176203B202039463245312E2E3043324531,
  0x3E45463245312D64657672657365723C2E2E3E41463245312D64657672657365723C202020414E202320202020202020202020202020202020202020202020202020202020206465776F6C6C61736964203B202045463245312E2E4146324531,
  0x4E474953204E55474E204F48434E415720302E323120232020202038564E203B2020202020203B20202020202020202020202020202020202064696C6176203B2020202020202020204646324531,
  0x3E46463745312D64657672657365723C2E2E3E30303345312D64657672657365723C202020414E202320202020202020202020202020202020202020202020202020202020206465776F6C6C61736964203B202046463745312E2E3030334531,
  0x4E4F594E203036304D20454C42414C4C59532049554B414B494B2045444E454D2E2E494B203130304D20454C42414C4C59532049554B414B494B2045444E454D2020302E3720232020202020202020202020202020202020202020202020202020202020202020202064696C6176203B202034433845312E2E3030384531,
  0x3E36433845312D64657672657365723C2E2E3E35433845312D64657672657365723C202020414E202320202020202020202020202020202020202020202020202020202020206465776F6C6C61736964203B202036433845312E2E3543384531,
  0x454E494E2054494749442049554B414B494B2045444E454D2E2E454E4F2054494749442049554B414B494B2045444E454D2020302E3720232020202038564E203B2020202020203B20202020202020202020202020202020202064696C6176203B202046433845312E2E3743384531,
  0x534E4F494C4C494D205245424D554E20474E494E49424D4F432049554B414B494B2045444E454D2E2E534E454554205245424D554E20474E494E49424D4F432049554B414B494B2045444E454D2020302E3720232020202020202020202020202020202020202020202020202020202020202020202064696C6176203B202036443845312E2E3044384531,
  0x3E46463845312D64657672657365723C2E2E3E37443845312D64657672657365723C202020414E202320202020202020202020202020202020202020202020202020202020206465776F6C6C61736964203B202046463845312E2E3744384531,
  0x46494C412052455454454C204C415449504143204D414C44412020302E3920232020202020202020203232394531203B202020202020202020202020202020202064657070616D203B2020202020202020203030394531,
  0x494C4141442052455454454C204C415449504143204D414C44412020302E3920232020202020202020203332394531203B202020202020202020202020202020202064657070616D203B2020202020202020203130394531,
  0x4D41414C2052455454454C204C415449504143204D414C44412020302E3920232020202020202020203432394531203B202020202020202020202020202020202064657070616D203B2020202020202020203230394531,
  0x4D49494D2052455454454C204C415449504143204D414C44412020302E3920232020202020202020203532394531203B202020202020202020202020202020202064657070616D203B2020202020202020203330394531,
  0x41422052455454454C204C415449504143204D414C44412020302E3920232020202020202020203632394531203B202020202020202020202020202020202064657070616D203B2020202020202020203430394531,
  0x4548594949594E4E49532052455454454C204C415449504143204D414C44412020302E3920232020202020202020203732394531203B202020202020202020202020202020202064657070616D203B2020202020202020203530394531,
  0x45502052455454454C204C415449504143204D414C44412020302E3920232020202020202020203832394531203B202020202020202020202020202020202064657070616D203B2020202020202020203630394531,
  0x4548422052455454454C204C415449504143204D414C44412020302E3920232020202020202020203932394531203B202020202020202020202020202020202064657070616D203B2020202020202020203730394531,
  0x41522052455454454C204C415449504143204D414C44412020302E3920232020202020202020204132394531203B202020202020202020202020202020202064657070616D203B2020202020202020203830394531,
  0x452052455454454C204C415449504143204D414C44412020302E3920232020202020202020204232394531203B202020202020202020202020202020202064657070616D203B2020202020202020203930394531,
  0x41462052455454454C204C415449504143204D414C44412020302E3920232020202020202020204332394531203B202020202020202020202020202020202064657070616D203B2020202020202020204130394531,
  0x492052455454454C204C415449504143204D414C44412020302E3920232020202020202020204432394531203B202020202020202020202020202020202064657070616D203B2020202020202020204230394531,
  0x4F2052455454454C204C415449504143204D414C44412020302E3920232020202020202020204532394531203B202020202020202020202020202020202064657070616D203B2020202020202020204330394531,
  0x4148442052455454454C204C415449504143204D414C44412020302E3920232020202020202020204632394531203B202020202020202020202020202020202064657070616D203B2020202020202020204430394531,
  0x4548592052455454454C204C415449504143204D414C44412020302E3920232020202020202020203033394531203B202020202020202020202020202020202064657070616D203B2020202020202020204530394531,
  0x5741572052455454454C204C415449504143204D414C44412020302E3920232020202020202020203133394531203B202020202020202020202020202020202064657070616D203B2020202020202020204630394531,
  0x4E554E2052455454454C204C415449504143204D414C44412020302E3920232020202020202020203233394531203B202020202020202020202020202020202064657070616D203B2020202020202020203031394531,
  0x46414B2052455454454C204C415449504143204D414C44412020302E3920232020202020202020203333394531203B202020202020202020202020202020202064657070616D203B2020202020202020203131394531,
  0x41592052455454454C204C415449504143204D414C44412020302E3920232020202020202020203433394531203B202020202020202020202020202020202064657070616D203B2020202020202020203231394531,
  0x552052455454454C204C415449504143204D414C44412020302E3920232020202020202020203533394531203B202020202020202020202020202020202064657070616D203B2020202020202020203331394531,
  0x4D49494A2052455454454C204C415449504143204D414C44412020302E3920232020202020202020203633394531203B202020202020202020202020202020202064657070616D203B2020202020202020203431394531,
  0x4948432052455454454C204C415449504143204D414C44412020302E3920232020202020202020203733394531203B202020202020202020202020202020202064657070616D203B2020202020202020203531394531,
  0x41482052455454454C204C415449504143204D414C44412020302E3920232020202020202020203833394531203B202020202020202020202020202020202064657070616D203B2020202020202020203631394531,
  0x464141512052455454454C204C415449504143204D414C44412020302E3920232020202020202020203933394531203B202020202020202020202020202020202064657070616D203B2020202020202020203731394531,
  0x41472052455454454C204C415449504143204D414C44412020302E3920232020202020202020204133394531203B202020202020202020202020202020202064657070616D203B2020202020202020203831394531,
  0x41594E2052455454454C204C415449504143204D414C44412020302E3920232020202020202020204233394531203B202020202020202020202020202020202064657070616D203B2020202020202020203931394531,
  0x55542052455454454C204C415449504143204D414C44412020302E3920232020202020202020204333394531203B202020202020202020202020202020202064657070616D203B2020202020202020204131394531,
  0x41484E2052455454454C204C415449504143204D414C44412020302E3920232020202020202020204433394531203B202020202020202020202020202020202064657070616D203B2020202020202020204231394531,
  0x41562052455454454C204C415449504143204D414C44412020302E3920232020202020202020204533394531203B202020202020202020202020202020202064657070616D203B2020202020202020204331394531,
  0x41484B2052455454454C204C415449504143204D414C44412020302E3920232020202020202020204633394531203B202020202020202020202020202020202064657070616D203B2020202020202020204431394531,
  0x4542472052455454454C204C415449504143204D414C44412020302E3920232020202020202020203034394531203B202020202020202020202020202020202064657070616D203B2020202020202020204531394531,
  0x4C415A2052455454454C204C415449504143204D414C44412020302E3920232020202020202020203134394531203B202020202020202020202020202020202064657070616D203B2020202020202020204631394531,
  0x4F504B2052455454454C204C415449504143204D414C44412020302E3920232020202020202020203234394531203B202020202020202020202020202020202064657070616D203B2020202020202020203032394531,
  0x4148532052455454454C204C415449504143204D414C44412020302E3920232020202020202020203334394531203B202020202020202020202020202020202064657070616D203B2020202020202020203132394531,
  0x41544B554E204D414C44412E2E46494C412052455454454C204C4C414D53204D414C44412020302E3920232020202020202020202020202020202020202020202020202020202020202020202064696C6176203B202041343945312E2E3232394531,
  0x4B52414D204E4F4954415A494C4153414E204D414C444120302E323120232020202020202020202020202020202020202020202020202020202020202020202064696C6176203B2020202020202020204234394531,
  0x3E46343945312D64657672657365723C2E2E3E43343945312D64657672657365723C202020414E202320202020202020202020202020202020202020202020202020202020206465776F6C6C61736964203B202046343945312E2E4334394531,
  0x454E494E205449474944204D414C44412E2E4F52455A205449474944204D414C44412020302E3920232020202020202020202020202020202020202020202020202020202020202020202064696C6176203B202039353945312E2E3035394531,
  0x3E44353945312D64657672657365723C2E2E3E41353945312D64657672657365723C202020414E202320202020202020202020202020202020202020202020202020202020206465776F6C6C61736964203B202044353945312E2E4135394531,
  0x4B52414D204E4F495453455551204C414954494E49204D414C44412E2E4B52414D204E4F4954414D414C435845204C414954494E49204D414C44412020302E3920232020202038564E203B2020202020203B20202020202020202020202020202020202064696C6176203B202046353945312E2E4535394531,
  0x3E30374345312D64657672657365723C2E2E3E30363945312D64657672657365723C202020414E202320202020202020202020202020202020202020202020202020202020206465776F6C6C61736964203B202030374345312E2E3036394531,
  0x4B52414D20484B414C204554414E5245544C41205141594953204349444E492E2E454E4F205245424D554E205141594953204349444E4920302E313120232020202038564E203B2020202020203B20202020202020202020202020202020202064696C6176203B202034424345312E2E3137434531,
  0x3E30304445312D64657672657365723C2E2E3E35424345312D64657672657365723C202020414E202320202020202020202020202020202020202020202020202020202020206465776F6C6C61736964203B202030304445312E2E3542434531,
  0x485458495320454E4F204E4F495443415246205141594953204E414D4F54544F2E2E454E4F205245424D554E205141594953204E414D4F54544F20302E323120232020202038564E203B2020202020203B20202020202020202020202020202020202064696C6176203B202044334445312E2E3130444531,
  0x3E46464445312D64657672657365723C2E2E3E45334445312D64657672657365723C202020414E202320202020202020202020202020202020202020202020202020202020206465776F6C6C61736964203B202046464445312E2E4533444531,
  0x46454C41204C41434954414D454854414D204349424152412020312E3620232020202020202020202037323630203B202020202020202020202020202020202064657070616D203B2020202020202020203030454531,
  0x484542204C41434954414D454854414D204349424152412020312E3620232020202020202020202038323630203B202020202020202020202020202020202064657070616D203B2020202020202020203130454531,
  0x4D45454A204C41434954414D454854414D204349424152412020312E3620232020202020202020202043323630203B202020202020202020202020202020202064657070616D203B2020202020202020203230454531,
  0x4C4144204C41434954414D454854414D204349424152412020312E3620232020202020202020202046323630203B202020202020202020202020202020202064657070616D203B2020202020202020203330454531,
  0x3E34304545312D64657672657365723C202020414E202320202020202020202020202020202020202020202020202020202020206465776F6C6C61736964203B2020202020202020203430454531,
  0x574157204C41434954414D454854414D204349424152412020312E3620232020202020202020202038343630203B202020202020202020202020202020202064657070616D203B2020202020202020203530454531,
  0x4E49415A204C41434954414D454854414D204349424152412020312E3620232020202020202020202032333630203B202020202020202020202020202020202064657070616D203B2020202020202020203630454531,
  0x484148204C41434954414D454854414D204349424152412020312E3620232020202020202020202044323630203B202020202020202020202020202020202064657070616D203B2020202020202020203730454531,
  0x484154204C41434954414D454854414D204349424152412020312E3620232020202020202020202037333630203B202020202020202020202020202020202064657070616D203B2020202020202020203830454531,
  0x484559204C41434954414D454854414D204349424152412020312E3620232020202020202020202041343630203B202020202020202020202020202020202064657070616D203B2020202020202020203930454531,
  0x46414B204C41434954414D454854414D204349424152412020312E3620232020202020202020202033343630203B202020202020202020202020202020202064657070616D203B2020202020202020204130454531,
  0x4D414C204C41434954414D454854414D204349424152412020312E3620232020202020202020202034343630203B202020202020202020202020202020202064657070616D203B2020202020202020204230454531,
  0x4D45454D204C41434954414D454854414D204349424152412020312E3620232020202020202020202035343630203B202020202020202020202020202020202064657070616D203B2020202020202020204330454531,
  0x4E4F4F4E204C41434954414D454854414D204349424152412020312E3620232020202020202020202036343630203B202020202020202020202020202020202064657070616D203B2020202020202020204430454531,
  0x4E454553204C41434954414D454854414D204349424152412020312E3620232020202020202020202033333630203B202020202020202020202020202020202064657070616D203B2020202020202020204530454531,
  0x4E4941204C41434954414D454854414D204349424152412020312E3620232020202020202020202039333630203B202020202020202020202020202020202064657070616D203B2020202020202020204630454531,
  0x484546204C41434954414D454854414D204349424152412020312E3620232020202020202020202031343630203B202020202020202020202020202020202064657070616D203B2020202020202020203031454531,
  0x444153204C41434954414D454854414D204349424152412020312E3620232020202020202020202035333630203B202020202020202020202020202020202064657070616D203B2020202020202020203131454531,
  0x464151204C41434954414D454854414D204349424152412020312E3620232020202020202020202032343630203B202020202020202020202020202020202064657070616D203B2020202020202020203231454531,
  0x484552204C41434954414D454854414D204349424152412020312E3620232020202020202020202031333630203B202020202020202020202020202020202064657070616D203B2020202020202020203331454531,
  0x4E45454853204C41434954414D454854414D204349424152412020312E3620232020202020202020202034333630203B202020202020202020202020202020202064657070616D203B2020202020202020203431454531,
  0x484554204C41434954414D454854414D204349424152412020312E3620232020202020202020202041323630203B202020202020202020202020202020202064657070616D203B2020202020202020203531454531,
  0x48454854204C41434954414D454854414D204349424152412020312E3620232020202020202020202042323630203B202020202020202020202020202020202064657070616D203B2020202020202020203631454531,
  0x4841484B204C41434954414D454854414D204349424152412020312E3620232020202020202020202045323630203B202020202020202020202020202020202064657070616D203B2020202020202020203731454531,
  0x4C414854204C41434954414D454854414D204349424152412020312E3620232020202020202020202030333630203B202020202020202020202020202020202064657070616D203B2020202020202020203831454531,
  0x444144204C41434954414D454854414D204349424152412020312E3620232020202020202020202036333630203B202020202020202020202020202020202064657070616D203B2020202020202020203931454531,
  0x48415A204C41434954414D454854414D204349424152412020312E3620232020202020202020202038333630203B202020202020202020202020202020202064657070616D203B2020202020202020204131454531,
  0x4E49414847204C41434954414D454854414D204349424152412020312E3620232020202020202020202041333630203B202020202020202020202020202020202064657070616D203B2020202020202020204231454531,
  0x484542205353454C544F44204C41434954414D454854414D204349424152412020312E3620232020202020202020202045363630203B202020202020202020202020202020202064657070616D203B2020202020202020204331454531,
  0x4E4F4F4E205353454C544F44204C41434954414D454854414D204349424152412020312E3620232020202020202020202041423630203B202020202020202020202020202020202064657070616D203B2020202020202020204431454531,
  0x484546205353454C544F44204C41434954414D454854414D204349424152412020312E3620232020202020202020202031413630203B202020202020202020202020202020202064657070616D203B2020202020202020204531454531,
  0x464151205353454C544F44204C41434954414D454854414D204349424152412020312E3620232020202020202020202046363630203B202020202020202020202020202020202064657070616D203B2020202020202020204631454531,
  0x3E30324545312D64657672657365723C202020414E202320202020202020202020202020202020202020202020202020202020206465776F6C6C61736964203B2020202020202020203032454531,
  0x484542204C414954494E49204C41434954414D454854414D204349424152412020312E3620232020202020202020202038323630203B202020202020202020202020202020202064657070616D203B2020202020202020203132454531,
  0x4D45454A204C414954494E49204C41434954414D454854414D204349424152412020312E3620232020202020202020202043323630203B202020202020202020202020202020202064657070616D203B2020202020202020203232454531,
  0x3E33324545312D64657672657365723C202020414E202320202020202020202020202020202020202020202020202020202020206465776F6C6C61736964203B2020202020202020203332454531,
  0x484548204C414954494E49204C41434954414D454854414D204349424152412020312E3620232020202020202020202037343630203B202020202020202020202020202020202064657070616D203B2020202020202020203432454531,
  0x3E36324545312D64657672657365723C2E2E3E35324545312D64657672657365723C202020414E202320202020202020202020202020202020202020202020202020202020206465776F6C6C61736964203B202036324545312E2E3532454531,
  0x484148204C414954494E49204C41434954414D454854414D204349424152412020312E3620232020202020202020202044323630203B202020202020202020202020202020202064657070616D203B2020202020202020203732454531,
  0x3E38324545312D64657672657365723C202020414E202320202020202020202020202020202020202020202020202020202020206465776F6C6C61736964203B2020202020202020203832454531,
  0x484559204C414954494E49204C41434954414D454854414D204349424152412020312E3620232020202020202020202041343630203B202020202020202020202020202020202064657070616D203B2020202020202020203932454531,
  0x46414B204C414954494E49204C41434954414D454854414D204349424152412020312E3620232020202020202020202033343630203B202020202020202020202020202020202064657070616D203B2020202020202020204132454531,
  0x4D414C204C414954494E49204C41434954414D454854414D204349424152412020312E3620232020202020202020202034343630203B202020202020202020202020202020202064657070616D203B2020202020202020204232454531,
  0x4D45454D204C414954494E49204C41434954414D454854414D204349424152412020312E3620232020202020202020202035343630203B202020202020202020202020202020202064657070616D203B2020202020202020204332454531,
  0x4E4F4F4E204C414954494E49204C41434954414D454854414D204349424152412020312E3620232020202020202020202036343630203B202020202020202020202020202020202064657070616D203B2020202020202020204432454531,
  0x4E454553204C414954494E49204C41434954414D454854414D204349424152412020312E3620232020202020202020202033333630203B202020202020202020202020202020202064657070616D203B2020202020202020204532454531,
  0x4E4941204C414954494E49204C41434954414D454854414D204349424152412020312E3620232020202020202020202039333630203B202020202020202020202020202020202064657070616D203B2020202020202020204632454531,
  0x484546204C414954494E49204C41434954414D454854414D204349424152412020312E3620232020202020202020202031343630203B202020202020202020202020202020202064657070616D203B2020202020202020203033454531,
  0x444153204C414954494E49204C41434954414D454854414D204349424152412020312E3620232020202020202020202035333630203B202020202020202020202020202020202064657070616D203B2020202020202020203133454531,
  0x464151204C414954494E49204C41434954414D454854414D204349424152412020312E3620232020202020202020202032343630203B202020202020202020202020202020202064657070616D203B2020202020202020203233454531,
  0x3E33334545312D64657672657365723C202020414E202320202020202020202020202020202020202020202020202020202020206465776F6C6C61736964203B2020202020202020203333454531,
  0x4E45454853204C414954494E49204C41434954414D454854414D204349424152412020312E3620232020202020202020202034333630203B202020202020202020202020202020202064657070616D203B2020202020202020203433454531,
  0x484554204C414954494E49204C41434954414D454854414D204349424152412020312E3620232020202020202020202041323630203B202020202020202020202020202020202064657070616D203B2020202020202020203533454531,
  0x48454854204C414954494E49204C41434954414D454854414D204349424152412020312E3620232020202020202020202042323630203B202020202020202020202020202020202064657070616D203B2020202020202020203633454531,
  0x4841484B204C414954494E49204C41434954414D454854414D204349424152412020312E3620232020202020202020202045323630203B202020202020202020202020202020202064657070616D203B2020202020202020203733454531,
  0x3E38334545312D64657672657365723C202020414E202320202020202020202020202020202020202020202020202020202020206465776F6C6C61736964203B2020202020202020203833454531,
  0x444144204C414954494E49204C41434954414D454854414D204349424152412020312E3620232020202020202020202036333630203B202020202020202020202020202020202064657070616D203B2020202020202020203933454531,
  0x3E41334545312D64657672657365723C202020414E202320202020202020202020202020202020202020202020202020202020206465776F6C6C61736964203B2020202020202020204133454531,
  0x4E49414847204C414954494E49204C41434954414D454854414D204349424152412020312E3620232020202020202020202041333630203B202020202020202020202020202020202064657070616D203B2020202020202020204233454531,
  0x3E31344545312D64657672657365723C2E2E3E43334545312D64657672657365723C202020414E202320202020202020202020202020202020202020202020202020202020206465776F6C6C61736964203B202031344545312E2E4333454531,
  0x4D45454A2044454C494154204C41434954414D454854414D204349424152412020312E3620232020202020202020202043323630203B202020202020202020202020202020202064657070616D203B2020202020202020203234454531,
  0x3E36344545312D64657672657365723C2E2E3E33344545312D64657672657365723C202020414E202320202020202020202020202020202020202020202020202020202020206465776F6C6C61736964203B202036344545312E2E3334454531,
  0x4841482044454C494154204C41434954414D454854414D204349424152412020312E3620232020202020202020202044323630203B202020202020202020202020202020202064657070616D203B2020202020202020203734454531,
  0x3E38344545312D64657672657365723C202020414E202320202020202020202020202020202020202020202020202020202020206465776F6C6C61736964203B2020202020202020203834454531,
  0x4845592044454C494154204C41434954414D454854414D204349424152412020312E3620232020202020202020202041343630203B202020202020202020202020202020202064657070616D203B2020202020202020203934454531,
  0x3E41344545312D64657672657365723C202020414E202320202020202020202020202020202020202020202020202020202020206465776F6C6C61736964203B2020202020202020204134454531,
  0x4D414C2044454C494154204C41434954414D454854414D204349424152412020312E3620232020202020202020202034343630203B202020202020202020202020202020202064657070616D203B2020202020202020204234454531,
  0x3E43344545312D64657672657365723C202020414E202320202020202020202020202020202020202020202020202020202020206465776F6C6C61736964203B2020202020202020204334454531,
  0x4E4F4F4E2044454C494154204C41434954414D454854414D204349424152412020312E3620232020202020202020202036343630203B202020202020202020202020202020202064657070616D203B2020202020202020204434454531,
  0x4E4545532044454C494154204C41434954414D454854414D204349424152412020312E3620232020202020202020202033333630203B202020202020202020202020202020202064657070616D203B2020202020202020204534454531,
  0x4E49412044454C494154204C41434954414D454854414D204349424152412020312E3620232020202020202020202039333630203B202020202020202020202020202020202064657070616D203B2020202020202020204634454531,
  0x3E30354545312D64657672657365723C202020414E202320202020202020202020202020202020202020202020202020202020206465776F6C6C61736964203B2020202020202020203035454531,
  0x4441532044454C494154204C41434954414D454854414D204349424152412020312E3620232020202020202020202035333630203B202020202020202020202020202020202064657070616D203B2020202020202020203135454531,
  0x4641512044454C494154204C41434954414D454854414D204349424152412020312E3620232020202020202020202032343630203B202020202020202020202020202020202064657070616D203B2020202020202020203235454531,
  0x3E33354545312D64657672657365723C202020414E202320202020202020202020202020202020202020202020202020202020206465776F6C6C61736964203B2020202020202020203335454531,
  0x4E454548532044454C494154204C41434954414D454854414D204349424152412020312E3620232020202020202020202034333630203B202020202020202020202020202020202064657070616D203B2020202020202020203435454531,
  0x3E36354545312D64657672657365723C2E2E3E35354545312D64657672657365723C202020414E202320202020202020202020202020202020202020202020202020202020206465776F6C6C61736964203B202036354545312E2E3535454531,
  0x4841484B2044454C494154204C41434954414D454854414D204349424152412020312E3620232020202020202020202045323630203B202020202020202020202020202020202064657070616D203B2020202020202020203735454531,
  0x3E38354545312D64657672657365723C202020414E202320202020202020202020202020202020202020202020202020202020206465776F6C6C61736964203B2020202020202020203835454531,
  0x4441442044454C494154204C41434954414D454854414D204349424152412020312E3620232020202020202020202036333630203B202020202020202020202020202020202064657070616D203B2020202020202020203935454531,
  0x3E41354545312D64657672657365723C202020414E202320202020202020202020202020202020202020202020202020202020206465776F6C6C61736964203B2020202020202020204135454531,
  0x4E494148472044454C494154204C41434954414D454854414D204349424152412020312E3620232020202020202020202041333630203B202020202020202020202020202020202064657070616D203B2020202020202020204235454531,
  0x3E43354545312D64657672657365723C202020414E202320202020202020202020202020202020202020202020202020202020206465776F6C6C61736964203B2020202020202020204335454531,
  0x4E4F4F4E205353454C544F442044454C494154204C41434954414D454854414D204349424152412020312E3620232020202020202020202041423630203B202020202020202020202020202020202064657070616D203B2020202020202020204435454531,
  0x3E45354545312D64657672657365723C202020414E202320202020202020202020202020202020202020202020202020202020206465776F6C6C61736964203B2020202020202020204535454531,
  0x464151205353454C544F442044454C494154204C41434954414D454854414D204349424152412020312E3620232020202020202020202046363630203B202020202020202020202020202020202064657070616D203B2020202020202020204635454531,
  0x3E30364545312D64657672657365723C202020414E202320202020202020202020202020202020202020202020202020202020206465776F6C6C61736964203B2020202020202020203036454531,
  0x48454220444548435445525453204C41434954414D454854414D204349424152412020312E3620232020202020202020202038323630203B202020202020202020202020202020202064657070616D203B2020202020202020203136454531,
  0x4D45454A20444548435445525453204C41434954414D454854414D204349424152412020312E3620232020202020202020202043323630203B202020202020202020202020202020202064657070616D203B2020202020202020203236454531,
  0x3E33364545312D64657672657365723C202020414E202320202020202020202020202020202020202020202020202020202020206465776F6C6C61736964203B2020202020202020203336454531,
  0x48454820444548435445525453204C41434954414D454854414D204349424152412020312E3620232020202020202020202037343630203B202020202020202020202020202020202064657070616D203B2020202020202020203436454531,
  0x3E36364545312D64657672657365723C2E2E3E35364545312D64657672657365723C202020414E202320202020202020202020202020202020202020202020202020202020206465776F6C6C61736964203B202036364545312E2E3536454531,
  0x48414820444548435445525453204C41434954414D454854414D204349424152412020312E3620232020202020202020202044323630203B202020202020202020202020202020202064657070616D203B2020202020202020203736454531,
  0x48415420444548435445525453204C41434954414D454854414D204349424152412020312E3620232020202020202020202037333630203B202020202020202020202020202020202064657070616D203B2020202020202020203836454531,
  0x48455920444548435445525453204C41434954414D454854414D204349424152412020312E3620232020202020202020202041343630203B202020202020202020202020202020202064657070616D203B2020202020202020203936454531,
  0x46414B20444548435445525453204C41434954414D454854414D204349424152412020312E3620232020202020202020202033343630203B202020202020202020202020202020202064657070616D203B2020202020202020204136454531,
  0x3E42364545312D64657672657365723C202020414E202320202020202020202020202020202020202020202020202020202020206465776F6C6C61736964203B2020202020202020204236454531,
  0x4D45454D20444548435445525453204C41434954414D454854414D204349424152412020312E3620232020202020202020202035343630203B202020202020202020202020202020202064657070616D203B2020202020202020204336454531,
  0x4E4F4F4E20444548435445525453204C41434954414D454854414D204349424152412020312E3620232020202020202020202036343630203B202020202020202020202020202020202064657070616D203B2020202020202020204436454531,
  0x4E45455320444548435445525453204C41434954414D454854414D204349424152412020312E3620232020202020202020202033333630203B202020202020202020202020202020202064657070616D203B2020202020202020204536454531,
  0x4E494120444548435445525453204C41434954414D454854414D204349424152412020312E3620232020202020202020202039333630203B202020202020202020202020202020202064657070616D203B2020202020202020204636454531,
  0x48454620444548435445525453204C41434954414D454854414D204349424152412020312E3620232020202020202020202031343630203B202020202020202020202020202020202064657070616D203B2020202020202020203037454531,
  0x44415320444548435445525453204C41434954414D454854414D204349424152412020312E3620232020202020202020202035333630203B202020202020202020202020202020202064657070616D203B2020202020202020203137454531,
  0x46415120444548435445525453204C41434954414D454854414D204349424152412020312E3620232020202020202020202032343630203B202020202020202020202020202020202064657070616D203B2020202020202020203237454531,
  0x3E33374545312D64657672657365723C202020414E202320202020202020202020202020202020202020202020202020202020206465776F6C6C61736964203B2020202020202020203337454531,
  0x4E4545485320444548435445525453204C41434954414D454854414D204349424152412020312E3620232020202020202020202034333630203B202020202020202020202020202020202064657070616D203B2020202020202020203437454531,
  0x48455420444548435445525453204C41434954414D454854414D204349424152412020312E3620232020202020202020202041323630203B202020202020202020202020202020202064657070616D203B2020202020202020203537454531,
  0x4845485420444548435445525453204C41434954414D454854414D204349424152412020312E3620232020202020202020202042323630203B202020202020202020202020202020202064657070616D203B2020202020202020203637454531,
  0x4841484B20444548435445525453204C41434954414D454854414D204349424152412020312E3620232020202020202020202045323630203B202020202020202020202020202020202064657070616D203B2020202020202020203737454531,
  0x3E38374545312D64657672657365723C202020414E202320202020202020202020202020202020202020202020202020202020206465776F6C6C61736964203B2020202020202020203837454531,
  0x44414420444548435445525453204C41434954414D454854414D204349424152412020312E3620232020202020202020202036333630203B202020202020202020202020202020202064657070616D203B2020202020202020203937454531,
  0x48415A20444548435445525453204C41434954414D454854414D204349424152412020312E3620232020202020202020202038333630203B202020202020202020202020202020202064657070616D203B2020202020202020204137454531,
  0x4E4941484720444548435445525453204C41434954414D454854414D204349424152412020312E3620232020202020202020202041333630203B202020202020202020202020202020202064657070616D203B2020202020202020204237454531,
  0x484542205353454C544F4420444548435445525453204C41434954414D454854414D204349424152412020312E3620232020202020202020202045363630203B202020202020202020202020202020202064657070616D203B2020202020202020204337454531,
  0x3E44374545312D64657672657365723C202020414E202320202020202020202020202020202020202020202020202020202020206465776F6C6C61736964203B2020202020202020204437454531,
  0x484546205353454C544F4420444548435445525453204C41434954414D454854414D204349424152412020312E3620232020202020202020202031413630203B202020202020202020202020202020202064657070616D203B2020202020202020204537454531,
  0x3E46374545312D64657672657365723C202020414E202320202020202020202020202020202020202020202020202020202020206465776F6C6C61736964203B2020202020202020204637454531,
  0x46454C41204445504F4F4C204C41434954414D454854414D204349424152412020312E3620232020202020202020202037323630203B202020202020202020202020202020202064657070616D203B2020202020202020203038454531,
  0x484542204445504F4F4C204C41434954414D454854414D204349424152412020312E3620232020202020202020202038323630203B202020202020202020202020202020202064657070616D203B2020202020202020203138454531,
  0x4D45454A204445504F4F4C204C41434954414D454854414D204349424152412020312E3620232020202020202020202043323630203B202020202020202020202020202020202064657070616D203B2020202020202020203238454531,
  0x4C4144204445504F4F4C204C41434954414D454854414D204349424152412020312E3620232020202020202020202046323630203B202020202020202020202020202020202064657070616D203B2020202020202020203338454531,
  0x484548204445504F4F4C204C41434954414D454854414D204349424152412020312E3620232020202020202020202037343630203B202020202020202020202020202020202064657070616D203B2020202020202020203438454531,
  0x574157204445504F4F4C204C41434954414D454854414D204349424152412020312E3620232020202020202020202038343630203B202020202020202020202020202020202064657070616D203B2020202020202020203538454531,
  0x4E49415A204445504F4F4C204C41434954414D454854414D204349424152412020312E3620232020202020202020202032333630203B202020202020202020202020202020202064657070616D203B2020202020202020203638454531,
  0x484148204445504F4F4C204C41434954414D454854414D204349424152412020312E3620232020202020202020202044323630203B202020202020202020202020202020202064657070616D203B2020202020202020203738454531,
  0x484154204445504F4F4C204C41434954414D454854414D204349424152412020312E3620232020202020202020202037333630203B202020202020202020202020202020202064657070616D203B2020202020202020203838454531,
  0x484559204445504F4F4C204C41434954414D454854414D204349424152412020312E3620232020202020202020202041343630203B202020202020202020202020202020202064657070616D203B2020202020202020203938454531,
  0x3E41384545312D64657672657365723C202020414E202320202020202020202020202020202020202020202020202020202020206465776F6C6C61736964203B2020202020202020204138454531,
  0x4D414C204445504F4F4C204C41434954414D454854414D204349424152412020312E3620232020202020202020202034343630203B202020202020202020202020202020202064657070616D203B2020202020202020204238454531,
  0x4D45454D204445504F4F4C204C41434954414D454854414D204349424152412020312E3620232020202020202020202035343630203B202020202020202020202020202020202064657070616D203B2020202020202020204338454531,
  0x4E4F4F4E204445504F4F4C204C41434954414D454854414D204349424152412020312E3620232020202020202020202036343630203B202020202020202020202020202020202064657070616D203B2020202020202020204438454531,
  0x4E454553204445504F4F4C204C41434954414D454854414D204349424152412020312E3620232020202020202020202033333630203B202020202020202020202020202020202064657070616D203B2020202020202020204538454531,
  0x4E4941204445504F4F4C204C41434954414D454854414D204349424152412020312E3620232020202020202020202039333630203B202020202020202020202020202020202064657070616D203B2020202020202020204638454531,
  0x484546204445504F4F4C204C41434954414D454854414D204349424152412020312E3620232020202020202020202031343630203B202020202020202020202020202020202064657070616D203B2020202020202020203039454531,
  0x444153204445504F4F4C204C41434954414D454854414D204349424152412020312E3620232020202020202020202035333630203B202020202020202020202020202020202064657070616D203B2020202020202020203139454531,
  0x464151204445504F4F4C204C41434954414D454854414D204349424152412020312E3620232020202020202020202032343630203B202020202020202020202020202020202064657070616D203B2020202020202020203239454531,
  0x484552204445504F4F4C204C41434954414D454854414D204349424152412020312E3620232020202020202020202031333630203B202020202020202020202020202020202064657070616D203B2020202020202020203339454531,
  0x4E45454853204445504F4F4C204C41434954414D454854414D204349424152412020312E3620232020202020202020202034333630203B202020202020202020202020202020202064657070616D203B2020202020202020203439454531,
  0x484554204445504F4F4C204C41434954414D454854414D204349424152412020312E3620232020202020202020202041323630203B202020202020202020202020202020202064657070616D203B2020202020202020203539454531,
  0x48454854204445504F4F4C204C41434954414D454854414D204349424152412020312E3620232020202020202020202042323630203B202020202020202020202020202020202064657070616D203B2020202020202020203639454531,
  0x4841484B204445504F4F4C204C41434954414D454854414D204349424152412020312E3620232020202020202020202045323630203B202020202020202020202020202020202064657070616D203B2020202020202020203739454531,
  0x4C414854204445504F4F4C204C41434954414D454854414D204349424152412020312E3620232020202020202020202030333630203B202020202020202020202020202020202064657070616D203B2020202020202020203839454531,
  0x444144204445504F4F4C204C41434954414D454854414D204349424152412020312E3620232020202020202020202036333630203B202020202020202020202020202020202064657070616D203B2020202020202020203939454531,
  0x48415A204445504F4F4C204C41434954414D454854414D204349424152412020312E3620232020202020202020202038333630203B202020202020202020202020202020202064657070616D203B2020202020202020204139454531]

def mapText31 : List Nat := [
  0x4E49414847204445504F4F4C204C41434954414D454854414D204349424152412020312E3620232020202020202020202041333630203B202020202020202020202020202020202064657070616D203B2020202020202020204239454531,
  0x3E30414545312D64657672657365723C2E2E3E43394545312D64657672657365723C202020414E202320202020202020202020202020202020202020202020202020202020206465776F6C6C61736964203B202030414545312E2E4339454531,
  0x484542204B43555254532D454C42554F44204C41434954414D454854414D204349424152412020312E3620232020202020202020202038323630203B202020202020202020202020202020202064657070616D203B2020202020202020203141454531,
  0x4D45454A204B43555254532D454C42554F44204C41434954414D454854414D204349424152412020312E3620232020202020202020202043323630203B202020202020202020202020202020202064657070616D203B2020202020202020203241454531,
  0x4C4144204B43555254532D454C42554F44204C41434954414D454854414D204349424152412020312E3620232020202020202020202046323630203B202020202020202020202020202020202064657070616D203B2020202020202020203341454531,
  0x3E34414545312D64657672657365723C202020414E202320202020202020202020202020202020202020202020202020202020206465776F6C6C61736964203B2020202020202020203441454531,
  0x574157204B43555254532D454C42554F44204C41434954414D454854414D204349424152412020312E3620232020202020202020202038343630203B202020202020202020202020202020202064657070616D203B2020202020202020203541454531,
  0x4E49415A204B43555254532D454C42554F44204C41434954414D454854414D204349424152412020312E3620232020202020202020202032333630203B202020202020202020202020202020202064657070616D203B2020202020202020203641454531,
  0x484148204B43555254532D454C42554F44204C41434954414D454854414D204349424152412020312E3620232020202020202020202044323630203B202020202020202020202020202020202064657070616D203B2020202020202020203741454531,
  0x484154204B43555254532D454C42554F44204C41434954414D454854414D204349424152412020312E3620232020202020202020202037333630203B202020202020202020202020202020202064657070616D203B2020202020202020203841454531,
  0x484559204B43555254532D454C42554F44204C41434954414D454854414D204349424152412020312E3620232020202020202020202041343630203B202020202020202020202020202020202064657070616D203B2020202020202020203941454531,
  0x3E41414545312D64657672657365723C202020414E202320202020202020202020202020202020202020202020202020202020206465776F6C6C61736964203B2020202020202020204141454531,
  0x4D414C204B43555254532D454C42554F44204C41434954414D454854414D204349424152412020312E3620232020202020202020202034343630203B202020202020202020202020202020202064657070616D203B2020202020202020204241454531,
  0x4D45454D204B43555254532D454C42554F44204C41434954414D454854414D204349424152412020312E3620232020202020202020202035343630203B202020202020202020202020202020202064657070616D203B2020202020202020204341454531,
  0x4E4F4F4E204B43555254532D454C42554F44204C41434954414D454854414D204349424152412020312E3620232020202020202020202036343630203B202020202020202020202020202020202064657070616D203B2020202020202020204441454531,
  0x4E454553204B43555254532D454C42554F44204C41434954414D454854414D204349424152412020312E3620232020202020202020202033333630203B202020202020202020202020202020202064657070616D203B2020202020202020204541454531,
  0x4E4941204B43555254532D454C42554F44204C41434954414D454854414D204349424152412020312E3620232020202020202020202039333630203B202020202020202020202020202020202064657070616D203B2020202020202020204641454531,
  0x484546204B43555254532D454C42554F44204C41434954414D454854414D204349424152412020312E3620232020202020202020202031343630203B202020202020202020202020202020202064657070616D203B2020202020202020203042454531,
  0x444153204B43555254532D454C42554F44204C41434954414D454854414D204349424152412020312E3620232020202020202020202035333630203B202020202020202020202020202020202064657070616D203B2020202020202020203142454531,
  0x464151204B43555254532D454C42554F44204C41434954414D454854414D204349424152412020312E3620232020202020202020202032343630203B202020202020202020202020202020202064657070616D203B2020202020202020203242454531,
  0x484552204B43555254532D454C42554F44204C41434954414D454854414D204349424152412020312E3620232020202020202020202031333630203B202020202020202020202020202020202064657070616D203B2020202020202020203342454531,
  0x4E45454853204B43555254532D454C42554F44204C41434954414D454854414D204349424152412020312E3620232020202020202020202034333630203B202020202020202020202020202020202064657070616D203B2020202020202020203442454531,
  0x484554204B43555254532D454C42554F44204C41434954414D454854414D204349424152412020312E3620232020202020202020202041323630203B202020202020202020202020202020202064657070616D203B2020202020202020203542454531,
  0x48454854204B43555254532D454C42554F44204C41434954414D454854414D204349424152412020312E3620232020202020202020202042323630203B202020202020202020202020202020202064657070616D203B2020202020202020203642454531,
  0x4841484B204B43555254532D454C42554F44204C41434954414D454854414D204349424152412020312E3620232020202020202020202045323630203B202020202020202020202020202020202064657070616D203B2020202020202020203742454531,
  0x4C414854204B43555254532D454C42554F44204C41434954414D454854414D204349424152412020312E3620232020202020202020202030333630203B202020202020202020202020202020202064657070616D203B2020202020202020203842454531,
  0x444144204B43555254532D454C42554F44204C41434954414D454854414D204349424152412020312E3620232020202020202020202036333630203B202020202020202020202020202020202064657070616D203B2020202020202020203942454531,
  0x48415A204B43555254532D454C42554F44204C41434954414D454854414D204349424152412020312E3620232020202020202020202038333630203B202020202020202020202020202020202064657070616D203B2020202020202020204142454531,
  0x4E49414847204B43555254532D454C42554F44204C41434954414D454854414D204349424152412020312E3620232020202020202020202041333630203B202020202020202020202020202020202064657070616D203B2020202020202020204242454531,
  0x3E46454545312D64657672657365723C2E2E3E43424545312D64657672657365723C202020414E202320202020202020202020202020202020202020202020202020202020206465776F6C6C61736964203B202046454545312E2E4342454531,
  0x4C414420485449572048414820524F54415245504F204C41434954414D454854414D204349424152412E2E4C4545575441542048544957204841482048544957204D45454D20524F54415245504F204C41434954414D454854414D204349424152412020312E3620232020202038564E203B2020202020203B20202020202020202020202020202020202064696C6176203B202031464545312E2E3046454531,
  0x3E46464645312D64657672657365723C2E2E3E32464545312D64657672657365723C202020414E202320202020202020202020202020202020202020202020202020202020206465776F6C6C61736964203B202046464645312E2E3246454531,
  0x4B43414220454C495420474E4F4A48414D2E2E444E4957205453414520454C495420474E4F4A48414D2020312E3520232020202038564E203B2020202020203B20202020202020202020202020202020202064696C6176203B202042323046312E2E3030304631,
  0x3E46323046312D64657672657365723C2E2E3E43323046312D64657672657365723C202020414E202320202020202020202020202020202020202020202020202020202020206465776F6C6C61736964203B202046323046312E2E4332304631,
  0x36302D36302D4C4143495452455620454C4954204F4E494D4F442E2E4B434142204C41544E4F5A49524F4820454C4954204F4E494D4F442020312E3520232020202038564E203B2020202020203B20202020202020202020202020202020202064696C6176203B202033393046312E2E3033304631,
  0x3E46393046312D64657672657365723C2E2E3E34393046312D64657672657365723C202020414E202320202020202020202020202020202020202020202020202020202020206465776F6C6C61736964203B202046393046312E2E3439304631,
  0x53454441505320464F20474E494B204452414320474E4959414C502E2E4B434142204452414320474E4959414C502020302E3620232020202038564E203B2020202020203B20202020202020202020202020202020202064696C6176203B202045413046312E2E3041304631,
  0x3E30423046312D64657672657365723C2E2E3E46413046312D64657672657365723C202020414E202320202020202020202020202020202020202020202020202020202020206465776F6C6C61736964203B202030423046312E2E4641304631,
  0x53545241454820464F20474E494B204452414320474E4959414C502E2E53545241454820464F20454341204452414320474E4959414C502020302E3620232020202038564E203B2020202020203B20202020202020202020202020202020202064696C6176203B202045423046312E2E3142304631,
  0x52454B4F4A20444552204452414320474E4959414C502020302E3720232020202038564E203B2020202020203B20202020202020202020202020202020202064696C6176203B2020202020202020204642304631,
  0x3E30433046312D64657672657365723C202020414E202320202020202020202020202020202020202020202020202020202020206465776F6C6C61736964203B2020202020202020203043304631,
  0x52454B4F4A204B43414C42204452414320474E4959414C502E2E53444E4F4D41494420464F20454341204452414320474E4959414C502020302E3620232020202038564E203B2020202020203B20202020202020202020202020202020202064696C6176203B202046433046312E2E3143304631,
  0x3E30443046312D64657672657365723C202020414E202320202020202020202020202020202020202020202020202020202020206465776F6C6C61736964203B2020202020202020203044304631,
  0x52454B4F4A204554494857204452414320474E4959414C502E2E5342554C4320464F20454341204452414320474E4959414C502020302E3620232020202038564E203B2020202020203B20202020202020202020202020202020202064696C6176203B202046443046312E2E3144304631,
  0x31322D504D555254204452414320474E4959414C502E2E4C4F4F46204452414320474E4959414C502020302E3720232020202038564E203B2020202020203B20202020202020202020202020202020202064696C6176203B202035463046312E2E3045304631,
  0x3E46463046312D64657672657365723C2E2E3E36463046312D64657672657365723C202020414E202320202020202020202020202020202020202020202020202020202020206465776F6C6C61736964203B202046463046312E2E3646304631,
  0x504F5453204C4C5546204F52455A2054494749442020322E35202320202020202020202020202020202020202020202020202020202020206465776F6C6C61736964203B2020202020202020203030314631,
  0x414D4D4F43204F52455A2054494749442020322E3520232020202020433230302030333030203B2064657070616D5F334454535F6465776F6C6C61736964203B2020202020202020203130314631,
  0x414D4D4F4320454E4F2054494749442020322E3520232020202020433230302031333030203B2064657070616D5F334454535F6465776F6C6C61736964203B2020202020202020203230314631,
  0x414D4D4F43204F57542054494749442020322E3520232020202020433230302032333030203B2064657070616D5F334454535F6465776F6C6C61736964203B2020202020202020203330314631,
  0x414D4D4F432045455248542054494749442020322E3520232020202020433230302033333030203B2064657070616D5F334454535F6465776F6C6C61736964203B2020202020202020203430314631,
  0x414D4D4F432052554F462054494749442020322E3520232020202020433230302034333030203B2064657070616D5F334454535F6465776F6C6C61736964203B2020202020202020203530314631,
  0x414D4D4F4320455649462054494749442020322E3520232020202020433230302035333030203B2064657070616D5F334454535F6465776F6C6C61736964203B2020202020202020203630314631,
  0x414D4D4F43205849532054494749442020322E3520232020202020433230302036333030203B2064657070616D5F334454535F6465776F6C6C61736964203B2020202020202020203730314631,
  0x414D4D4F43204E455645532054494749442020322E3520232020202020433230302037333030203B2064657070616D5F334454535F6465776F6C6C61736964203B2020202020202020203830314631,
  0x414D4D4F432054484749452054494749442020322E3520232020202020433230302038333030203B2064657070616D5F334454535F6465776F6C6C61736964203B2020202020202020203930314631,
  0x414D4D4F4320454E494E2054494749442020322E3520232020202020433230302039333030203B2064657070616D5F334454535F6465776F6C6C61736964203B2020202020202020204130314631,
  0x4F52455A2054494749442046495245532D534E41532044454C4352494320455649544147454E20544142474E49442E2E4F52455A2054494749442046495245532D534E41532044454C4352494320544142474E49442020302E3720232020202038564E203B2020202020203B20202020202020202020202020202020202064696C6176203B202043303146312E2E4230314631,
  0x4853414C534B434142204449414C5245564F2048544957204E4749532052414C4C4F442044454C435249432E2E4853414C532048544957204F52455A2044454C4352494320302E333120232020202038564E203B2020202020203B20202020202020202020202020202020202064696C6176203B202046303146312E2E4430314631,
  0x412052455454454C204C415449504143204E4954414C2044455A49534548544E455241502020322E3523203932303020313630302038323030203B2064657070616D5F334454535F6465776F6C6C61736964203B2020202020202020203031314631,
  0x422052455454454C204C415449504143204E4954414C2044455A49534548544E455241502020322E3523203932303020323630302038323030203B2064657070616D5F334454535F6465776F6C6C61736964203B2020202020202020203131314631,
  0x432052455454454C204C415449504143204E4954414C2044455A49534548544E455241502020322E3523203932303020333630302038323030203B2064657070616D5F334454535F6465776F6C6C61736964203B2020202020202020203231314631,
  0x442052455454454C204C415449504143204E4954414C2044455A49534548544E455241502020322E3523203932303020343630302038323030203B2064657070616D5F334454535F6465776F6C6C61736964203B2020202020202020203331314631,
  0x452052455454454C204C415449504143204E4954414C2044455A49534548544E455241502020322E3523203932303020353630302038323030203B2064657070616D5F334454535F6465776F6C6C61736964203B2020202020202020203431314631,
  0x462052455454454C204C415449504143204E4954414C2044455A49534548544E455241502020322E3523203932303020363630302038323030203B2064657070616D5F334454535F6465776F6C6C61736964203B2020202020202020203531314631,
  0x472052455454454C204C415449504143204E4954414C2044455A49534548544E455241502020322E3523203932303020373630302038323030203B2064657070616D5F334454535F6465776F6C6C61736964203B2020202020202020203631314631,
  0x482052455454454C204C415449504143204E4954414C2044455A49534548544E455241502020322E3523203932303020383630302038323030203B2064657070616D5F334454535F6465776F6C6C61736964203B2020202020202020203731314631,
  0x492052455454454C204C415449504143204E4954414C2044455A49534548544E455241502020322E3523203932303020393630302038323030203B2064657070616D5F334454535F6465776F6C6C61736964203B2020202020202020203831314631,
  0x4A2052455454454C204C415449504143204E4954414C2044455A49534548544E455241502020322E3523203932303020413630302038323030203B2064657070616D5F334454535F6465776F6C6C61736964203B2020202020202020203931314631,
  0x4B2052455454454C204C415449504143204E4954414C2044455A49534548544E455241502020322E3523203932303020423630302038323030203B2064657070616D5F334454535F6465776F6C6C61736964203B2020202020202020204131314631,
  0x4C2052455454454C204C415449504143204E4954414C2044455A49534548544E455241502020322E3523203932303020433630302038323030203B2064657070616D5F334454535F6465776F6C6C61736964203B2020202020202020204231314631,
  0x4D2052455454454C204C415449504143204E4954414C2044455A49534548544E455241502020322E3523203932303020443630302038323030203B2064657070616D5F334454535F6465776F6C6C61736964203B2020202020202020204331314631,
  0x4E2052455454454C204C415449504143204E4954414C2044455A49534548544E455241502020322E3523203932303020453630302038323030203B2064657070616D5F334454535F6465776F6C6C61736964203B2020202020202020204431314631,
  0x4F2052455454454C204C415449504143204E4954414C2044455A49534548544E455241502020322E3523203932303020463630302038323030203B2064657070616D5F334454535F6465776F6C6C61736964203B2020202020202020204531314631,
  0x502052455454454C204C415449504143204E4954414C2044455A49534548544E455241502020322E3523203932303020303730302038323030203B2064657070616D5F334454535F6465776F6C6C61736964203B2020202020202020204631314631,
  0x512052455454454C204C415449504143204E4954414C2044455A49534548544E455241502020322E3523203932303020313730302038323030203B2064657070616D5F334454535F6465776F6C6C61736964203B2020202020202020203032314631,
  0x522052455454454C204C415449504143204E4954414C2044455A49534548544E455241502020322E3523203932303020323730302038323030203B2064657070616D5F334454535F6465776F6C6C61736964203B2020202020202020203132314631,
  0x532052455454454C204C415449504143204E4954414C2044455A49534548544E455241502020322E3523203932303020333730302038323030203B2064657070616D5F334454535F6465776F6C6C61736964203B2020202020202020203232314631,
  0x542052455454454C204C415449504143204E4954414C2044455A49534548544E455241502020322E3523203932303020343730302038323030203B2064657070616D5F334454535F6465776F6C6C61736964203B2020202020202020203332314631,
  0x552052455454454C204C415449504143204E4954414C2044455A49534548544E455241502020322E3523203932303020353730302038323030203B2064657070616D5F334454535F6465776F6C6C61736964203B2020202020202020203432314631,
  0x562052455454454C204C415449504143204E4954414C2044455A49534548544E455241502020322E3523203932303020363730302038323030203B2064657070616D5F334454535F6465776F6C6C61736964203B2020202020202020203532314631,
  0x572052455454454C204C415449504143204E4954414C2044455A49534548544E455241502020322E3523203932303020373730302038323030203B2064657070616D5F334454535F6465776F6C6C61736964203B2020202020202020203632314631,
  0x582052455454454C204C415449504143204E4954414C2044455A49534548544E455241502020322E3523203932303020383730302038323030203B2064657070616D5F334454535F6465776F6C6C61736964203B2020202020202020203732314631,
  0x592052455454454C204C415449504143204E4954414C2044455A49534548544E455241502020322E3523203932303020393730302038323030203B2064657070616D5F334454535F6465776F6C6C61736964203B2020202020202020203832314631,
  0x5A2052455454454C204C415449504143204E4954414C2044455A49534548544E455241502020322E3523203932303020413730302038323030203B2064657070616D5F334454535F6465776F6C6C61736964203B2020202020202020203932314631,
  0x532052455454454C204C415449504143204E4954414C20444554454B43415242204C4C454853204553494F54524F542020322E3523203531303320333730302034313033203B202020202020202020202020202020202064657070616D203B2020202020202020204132314631,
  0x432052455454454C204C415449504143204E4954414C2043494C4154492044454C435249432020322E3520232020202020202020202033363030203B202020202020202020202020202020202064657070616D203B2020202020202020204232314631,
  0x522052455454454C204C415449504143204E4954414C2043494C4154492044454C435249432020322E3520232020202020202020202032373030203B202020202020202020202020202020202064657070616D203B2020202020202020204332314631,
  0x44432044454C435249432020322E3520232020202020343630302033363030203B202020202020202020202020202020202064657070616D203B2020202020202020204432314631,
  0x5A572044454C435249432020322E3520232020202020413730302037373030203B202020202020202020202020202020202064657070616D203B2020202020202020204532314631,
  0x4C4F424D5953205446454C59504F4320302E313120232020202038564E203B2020202020203B20202020202020202020202020202020202064696C6176203B2020202020202020204632314631,
  0x412052455454454C204C415449504143204E4954414C20444552415551532020302E3620232020202020202020202031363030203B202020202020202020202020202020202064657070616D203B2020202020202020203033314631,
  0x422052455454454C204C415449504143204E4954414C20444552415551532020322E3520232020202020202020202032363030203B202020202020202020202020202020202064657070616D203B2020202020202020203133314631,
  0x432052455454454C204C415449504143204E4954414C20444552415551532020302E3620232020202020202020202033363030203B202020202020202020202020202020202064657070616D203B2020202020202020203233314631,
  0x442052455454454C204C415449504143204E4954414C20444552415551532020302E3620232020202020202020202034363030203B202020202020202020202020202020202064657070616D203B2020202020202020203333314631,
  0x452052455454454C204C415449504143204E4954414C20444552415551532020302E3620232020202020202020202035363030203B202020202020202020202020202020202064657070616D203B2020202020202020203433314631,
  0x462052455454454C204C415449504143204E4954414C20444552415551532020302E3620232020202020202020202036363030203B202020202020202020202020202020202064657070616D203B2020202020202020203533314631,
  0x472052455454454C204C415449504143204E4954414C20444552415551532020302E3620232020202020202020202037363030203B202020202020202020202020202020202064657070616D203B2020202020202020203633314631,
  0x482052455454454C204C415449504143204E4954414C20444552415551532020302E3620232020202020202020202038363030203B202020202020202020202020202020202064657070616D203B2020202020202020203733314631,
  0x492052455454454C204C415449504143204E4954414C20444552415551532020302E3620232020202020202020202039363030203B202020202020202020202020202020202064657070616D203B2020202020202020203833314631,
  0x4A2052455454454C204C415449504143204E4954414C20444552415551532020302E3620232020202020202020202041363030203B202020202020202020202020202020202064657070616D203B2020202020202020203933314631,
  0x4B2052455454454C204C415449504143204E4954414C20444552415551532020302E3620232020202020202020202042363030203B202020202020202020202020202020202064657070616D203B2020202020202020204133314631,
  0x4C2052455454454C204C415449504143204E4954414C20444552415551532020302E3620232020202020202020202043363030203B202020202020202020202020202020202064657070616D203B2020202020202020204233314631,
  0x4D2052455454454C204C415449504143204E4954414C20444552415551532020302E3620232020202020202020202044363030203B202020202020202020202020202020202064657070616D203B2020202020202020204333314631,
  0x4E2052455454454C204C415449504143204E4954414C20444552415551532020322E3520232020202020202020202045363030203B202020202020202020202020202020202064657070616D203B2020202020202020204433314631,
  0x4F2052455454454C204C415449504143204E4954414C20444552415551532020302E3620232020202020202020202046363030203B202020202020202020202020202020202064657070616D203B2020202020202020204533314631,
  0x502052455454454C204C415449504143204E4954414C20444552415551532020322E3520232020202020202020202030373030203B202020202020202020202020202020202064657070616D203B2020202020202020204633314631,
  0x512052455454454C204C415449504143204E4954414C20444552415551532020302E3620232020202020202020202031373030203B202020202020202020202020202020202064657070616D203B2020202020202020203034314631,
  0x522052455454454C204C415449504143204E4954414C20444552415551532020302E3620232020202020202020202032373030203B202020202020202020202020202020202064657070616D203B2020202020202020203134314631,
  0x532052455454454C204C415449504143204E4954414C20444552415551532020322E3520232020202020202020202033373030203B202020202020202020202020202020202064657070616D203B2020202020202020203234314631,
  0x542052455454454C204C415449504143204E4954414C20444552415551532020302E3620232020202020202020202034373030203B202020202020202020202020202020202064657070616D203B2020202020202020203334314631,
  0x552052455454454C204C415449504143204E4954414C20444552415551532020302E3620232020202020202020202035373030203B202020202020202020202020202020202064657070616D203B2020202020202020203434314631,
  0x562052455454454C204C415449504143204E4954414C20444552415551532020302E3620232020202020202020202036373030203B202020202020202020202020202020202064657070616D203B2020202020202020203534314631,
  0x572052455454454C204C415449504143204E4954414C20444552415551532020322E3520232020202020202020202037373030203B202020202020202020202020202020202064657070616D203B2020202020202020203634314631,
  0x582052455454454C204C415449504143204E4954414C20444552415551532020302E3620232020202020202020202038373030203B202020202020202020202020202020202064657070616D203B2020202020202020203734314631,
  0x592052455454454C204C415449504143204E4954414C20444552415551532020302E3620232020202020202020202039373030203B202020202020202020202020202020202064657070616D203B2020202020202020203834314631,
  0x5A2052455454454C204C415449504143204E4954414C20444552415551532020302E3620232020202020202020202041373030203B202020202020202020202020202020202064657070616D203B2020202020202020203934314631,
  0x564820444552415551532020322E3520232020202020363730302038363030203B202020202020202020202020202020202064657070616D203B2020202020202020204134314631,
  0x564D20444552415551532020322E3520232020202020363730302044363030203B202020202020202020202020202020202064657070616D203B2020202020202020204234314631,
  0x445320444552415551532020322E3520232020202020343630302033373030203B202020202020202020202020202020202064657070616D203B2020202020202020204334314631,
  0x535320444552415551532020322E3520232020202020333730302033373030203B202020202020202020202020202020202064657070616D203B2020202020202020204434314631,
  0x56505020444552415551532020322E3523203637303020303730302030373030203B202020202020202020202020202020202064657070616D203B2020202020202020204534314631,
  0x435720444552415551532020302E3620232020202020333630302037373030203B202020202020202020202020202020202064657070616D203B2020202020202020204634314631,
  0x472052455454454C204C415449504143204E4954414C2044454C4352494320455649544147454E2E2E412052455454454C204C415449504143204E4954414C2044454C4352494320455649544147454E2020302E3620232020202038564E203B2020202020203B20202020202020202020202020202020202064696C6176203B202036353146312E2E3035314631,
  0x482052455454454C204C415449504143204E4954414C2044454C4352494320455649544147454E2020322E3520232020202038564E203B2020202020203B20202020202020202020202020202020202064696C6176203B2020202020202020203735314631,
  0x4F2052455454454C204C415449504143204E4954414C2044454C4352494320455649544147454E2E2E492052455454454C204C415449504143204E4954414C2044454C4352494320455649544147454E2020302E3620232020202038564E203B2020202020203B20202020202020202020202020202020202064696C6176203B202045353146312E2E3835314631,
  0x502052455454454C204C415449504143204E4954414C2044454C4352494320455649544147454E2020322E3520232020202038564E203B2020202020203B20202020202020202020202020202020202064696C6176203B2020202020202020204635314631,
  0x5A2052455454454C204C415449504143204E4954414C2044454C4352494320455649544147454E2E2E512052455454454C204C415449504143204E4954414C2044454C4352494320455649544147454E2020302E3620232020202038564E203B2020202020203B20202020202020202020202020202020202064696C6176203B202039363146312E2E3036314631,
  0x4E47495320434D204445534941522020312E3620232020202020333630302044363030203B202020202020202020202020202020202064657070616D203B2020202020202020204136314631,
  0x4E47495320444D204445534941522020312E3620232020202020343630302044363030203B202020202020202020202020202020202064657070616D203B2020202020202020204236314631,
  0x4E47495320524D2044455349415220302E323120232020202020323730302044363030203B202020202020202020202020202020202064657070616D203B2020202020202020204336314631,
  0x455255474946204E414D55482044454C435249432E2E43432044454C4352494320302E333120232020202038564E203B2020202020203B20202020202020202020202020202020202064696C6176203B202046363146312E2E4436314631,
  0x492052455454454C204C415449504143204E4954414C204445524155515320455649544147454E2E2E412052455454454C204C415449504143204E4954414C204445524155515320455649544147454E2020302E3620232020202038564E203B2020202020203B20202020202020202020202020202020202064696C6176203B202038373146312E2E3037314631,
  0x4A2052455454454C204C415449504143204E4954414C204445524155515320455649544147454E2020322E3520232020202038564E203B2020202020203B20202020202020202020202020202020202064696C6176203B2020202020202020203937314631,
  0x4B2052455454454C204C415449504143204E4954414C204445524155515320455649544147454E2020302E3620232020202038564E203B2020202020203B20202020202020202020202020202020202064696C6176203B2020202020202020204137314631,
  0x4D2052455454454C204C415449504143204E4954414C204445524155515320455649544147454E2E2E4C2052455454454C204C415449504143204E4954414C204445524155515320455649544147454E2020322E3520232020202038564E203B2020202020203B20202020202020202020202020202020202064696C6176203B202043373146312E2E4237314631,
  0x4F2052455454454C204C415449504143204E4954414C204445524155515320455649544147454E2E2E4E2052455454454C204C415449504143204E4954414C204445524155515320455649544147454E2020302E3620232020202038564E203B2020202020203B20202020202020202020202020202020202064696C6176203B202045373146312E2E4437314631,
  0x502052455454454C204C415449504143204E4954414C204445524155515320455649544147454E2020322E3520232020202038564E203B2020202020203B20202020202020202020202020202020202064696C6176203B2020202020202020204637314631,
  0x5A2052455454454C204C415449504143204E4954414C204445524155515320455649544147454E2E2E512052455454454C204C415449504143204E4954414C204445524155515320455649544147454E2020302E3620232020202038564E203B2020202020203B20202020202020202020202020202020202064696C6176203B202039383146312E2E3038314631,
  0x4153204445524155515320455649544147454E2E2E502052455454454C204C415449504143204E4954414C204445524155515320455649544147454E20444553534F52432020322E3520232020202038564E203B2020202020203B20202020202020202020202020202020202064696C6176203B202044383146312E2E4138314631,
  0x4357204445524155515320455649544147454E2E2E4241204445524155515320455649544147454E2020302E3620232020202038564E203B2020202020203B20202020202020202020202020202020202064696C6176203B202046383146312E2E4538314631,
  0x4A44204552415551532020322E3520232020202020413630302034363030203B202020202020202020202020202020202064657070616D203B2020202020202020203039314631,
  0x535620444552415551532E2E4C4320444552415551532020302E3620232020202038564E203B2020202020203B20202020202020202020202020202020202064696C6176203B202041393146312E2E3139314631,
  0x444F5620444552415551532E2E4420454552485420444552415551532020302E3920232020202038564E203B2020202020203B20202020202020202020202020202020202064696C6176203B202043413146312E2E4239314631,
  0x4C4F424D5953204B524F57204B53414D20302E333120232020202038564E203B2020202020203B20202020202020202020202020202020202064696C6176203B2020202020202020204441314631,
  0x3E35453146312D64657672657365723C2E2E3E45413146312D64657672657365723C202020414E202320202020202020202020202020202020202020202020202020202020206465776F6C6C61736964203B202035453146312E2E4541314631,
  0x5A2052455454454C204C4F424D595320524F54414349444E49204C414E4F494745522E2E412052455454454C204C4F424D595320524F54414349444E49204C414E4F494745522020302E3620232020202038564E203B2020202020203B20202020202020202020202020202020202064696C6176203B202046463146312E2E3645314631,
  0x414B4F4820414E414741524948204552415551532020322E3520232020202020423430332042373033203B202020202020202020202020202020202064657070616D203B2020202020202020203030324631,
  0x4F4B4F4B20414E414B4154414B20444552415551532020302E3620232020202020334230332033423033203B202020202020202020202020202020202064657070616D203B2020202020202020203130324631,
  0x415320414E414B4154414B20444552415551532020302E3620232020202020202020202035423033203B202020202020202020202020202020202064657070616D203B2020202020202020203230324631,
  0x3E46303246312D64657672657365723C2E2E3E33303246312D64657672657365723C202020414E202320202020202020202020202020202020202020202020202020202020206465776F6C6C61736964203B202046303246312E2E3330324631,
  0x423432362D48504152474F4544492044454946494E55204B4A4320444552415551532020322E3520232020202020202020202042343236203B202020202020202020202020202020202064657070616D203B2020202020202020203031324631,
  0x373542352D48504152474F4544492044454946494E55204B4A4320444552415551532020322E3520232020202020202020202037354235203B202020202020202020202020202020202064657070616D203B2020202020202020203131324631,
  0x434333352D48504152474F4544492044454946494E55204B4A4320444552415551532020322E3520232020202020202020202043433335203B202020202020202020202020202020202064657070616D203B2020202020202020203231324631,
  0x454420414E414B4154414B20444552415551532020322E3520232020202020202020202037433033203B202020202020202020202020202020202064657070616D203B2020202020202020203331324631,
  0x433845342D48504152474F4544492044454946494E55204B4A4320444552415551532020322E3520232020202020202020202043384534203B202020202020202020202020202020202064657070616D203B2020202020202020203431324631,
  0x413139352D48504152474F4544492044454946494E55204B4A4320444552415551532020322E3520232020202020202020202041313935203B202020202020202020202020202020202064657070616D203B2020202020202020203531324631,
  0x334539382D48504152474F4544492044454946494E55204B4A4320444552415551532020322E3520232020202020202020202033453938203B202020202020202020202020202020202064657070616D203B2020202020202020203631324631,
  0x393239352D48504152474F4544492044454946494E55204B4A4320444552415551532020322E3520232020202020202020202039323935203B202020202020202020202020202020202064657070616D203B2020202020202020203731324631,
  0x344145342D48504152474F4544492044454946494E55204B4A4320444552415551532020322E3520232020202020202020202034414534203B202020202020202020202020202020202064657070616D203B2020202020202020203831324631,
  0x303236362D48504152474F4544492044454946494E55204B4A4320444552415551532020322E3520232020202020202020202030323636203B202020202020202020202020202020202064657070616D203B2020202020202020203931324631,
  0x313231372D48504152474F4544492044454946494E55204B4A4320444552415551532020322E3520232020202020202020202031323137203B202020202020202020202020202020202064657070616D203B2020202020202020204131324631,
  0x393935362D48504152474F4544492044454946494E55204B4A4320444552415551532020322E3520232020202020202020202039393536203B202020202020202020202020202020202064657070616D203B2020202020202020204231324631,
  0x443432352D48504152474F4544492044454946494E55204B4A4320444552415551532020322E3520232020202020202020202044343235203B202020202020202020202020202020202064657070616D203B2020202020202020204331324631,
  0x433846352D48504152474F4544492044454946494E55204B4A4320444552415551532020322E3520232020202020202020202043384635203B202020202020202020202020202020202064657070616D203B2020202020202020204431324631,
  0x443831352D48504152474F4544492044454946494E55204B4A4320444552415551532020322E3520232020202020202020202044383135203B202020202020202020202020202020202064657070616D203B2020202020202020204531324631,
  0x304235362D48504152474F4544492044454946494E55204B4A4320444552415551532020322E3520232020202020202020202030423536203B202020202020202020202020202020202064657070616D203B2020202020202020204631324631,
  0x443132352D48504152474F4544492044454946494E55204B4A4320444552415551532020322E3520232020202020202020202044313235203B202020202020202020202020202020202064657070616D203B2020202020202020203032324631,
  0x323444372D48504152474F4544492044454946494E55204B4A4320444552415551532020322E3520232020202020202020202032344437203B202020202020202020202020202020202064657070616D203B2020202020202020203132324631,
  0x463135372D48504152474F4544492044454946494E55204B4A4320444552415551532020322E3520232020202020202020202046313537203B202020202020202020202020202020202064657070616D203B2020202020202020203232324631,
  0x394143382D48504152474F4544492044454946494E55204B4A4320444552415551532020322E3520232020202020202020202039414338203B202020202020202020202020202020202064657070616D203B2020202020202020203332324631,
  0x304638352D48504152474F4544492044454946494E55204B4A4320444552415551532020322E3520232020202020202020202030463835203B202020202020202020202020202020202064657070616D203B2020202020202020203432324631,
  0x393334352D48504152474F4544492044454946494E55204B4A4320444552415551532020322E3520232020202020202020202039333435203B202020202020202020202020202020202064657070616D203B2020202020202020203532324631,
  0x343146362D48504152474F4544492044454946494E55204B4A4320444552415551532020322E3520232020202020202020202034314636203B202020202020202020202020202020202064657070616D203B2020202020202020203632324631,
  0x353932362D48504152474F4544492044454946494E55204B4A4320444552415551532020322E3520232020202020202020202035393236203B202020202020202020202020202020202064657070616D203B2020202020202020203732324631,
  0x353533362D48504152474F4544492044454946494E55204B4A4320444552415551532020322E3520232020202020202020202035353336203B202020202020202020202020202020202064657070616D203B2020202020202020203832324631,
  0x303045342D48504152474F4544492044454946494E55204B4A4320444552415551532020322E3520232020202020202020202030304534203B202020202020202020202020202020202064657070616D203B2020202020202020203932324631,
  0x393045342D48504152474F4544492044454946494E55204B4A4320444552415551532020322E3520232020202020202020202039304534203B202020202020202020202020202020202064657070616D203B2020202020202020204132324631,
  0x413430392D48504152474F4544492044454946494E55204B4A4320444552415551532020322E3520232020202020202020202041343039203B202020202020202020202020202020202064657070616D203B2020202020202020204232324631,
  0x364544352D48504152474F4544492044454946494E55204B4A4320444552415551532020322E3520232020202020202020202036454435203B202020202020202020202020202020202064657070616D203B2020202020202020204332324631,
  0x443245342D48504152474F4544492044454946494E55204B4A4320444552415551532020322E3520232020202020202020202044324534203B202020202020202020202020202020202064657070616D203B2020202020202020204432324631,
  0x334633352D48504152474F4544492044454946494E55204B4A4320444552415551532020322E3520232020202020202020202033463335203B202020202020202020202020202020202064657070616D203B2020202020202020204532324631,
  0x373033362D48504152474F4544492044454946494E55204B4A4320444552415551532020322E3520232020202020202020202037303336203B202020202020202020202020202020202064657070616D203B2020202020202020204632324631,
  0x303744382D48504152474F4544492044454946494E55204B4A4320444552415551532020322E3520232020202020202020202030374438203B202020202020202020202020202020202064657070616D203B2020202020202020203033324631,
  0x333532362D48504152474F4544492044454946494E55204B4A4320444552415551532020322E3520232020202020202020202033353236203B202020202020202020202020202020202064657070616D203B2020202020202020203133324631,
  0x313839372D48504152474F4544492044454946494E55204B4A4320444552415551532020302E3620232020202020202020202031383937203B202020202020202020202020202020202064657070616D203B2020202020202020203233324631,
  0x413741372D48504152474F4544492044454946494E55204B4A4320444552415551532020302E3620232020202020202020202041374137203B202020202020202020202020202020202064657070616D203B2020202020202020203333324631,
  0x383034352D48504152474F4544492044454946494E55204B4A4320444552415551532020302E3620232020202020202020202038303435203B202020202020202020202020202020202064657070616D203B2020202020202020203433324631,
  0x303845362D48504152474F4544492044454946494E55204B4A4320444552415551532020302E3620232020202020202020202030384536203B202020202020202020202020202020202064657070616D203B2020202020202020203533324631,
  0x393037362D48504152474F4544492044454946494E55204B4A4320444552415551532020302E3620232020202020202020202039303736203B202020202020202020202020202020202064657070616D203B2020202020202020203633324631,
  0x383037362D48504152474F4544492044454946494E55204B4A4320444552415551532020302E3620232020202020202020202038303736203B202020202020202020202020202020202064657070616D203B2020202020202020203733324631,
  0x333335372D48504152474F4544492044454946494E55204B4A4320444552415551532020302E3620232020202020202020202033333537203B202020202020202020202020202020202064657070616D203B2020202020202020203833324631,
  0x323732352D48504152474F4544492044454946494E55204B4A4320444552415551532020302E3620232020202020202020202032373235203B202020202020202020202020202020202064657070616D203B2020202020202020203933324631,
  0x364235352D48504152474F4544492044454946494E55204B4A4320444552415551532020302E3620232020202020202020202036423535203B202020202020202020202020202020202064657070616D203B2020202020202020204133324631,
  0x443431392D48504152474F4544492044454946494E55204B4A4320444552415551532020302E3920232020202020202020202044343139203B202020202020202020202020202020202064657070616D203B2020202020202020204233324631,
  0x3E46333246312D64657672657365723C2E2E3E43333246312D64657672657365723C202020414E202320202020202020202020202020202020202020202020202020202020206465776F6C6C61736964203B202046333246312E2E4333324631,
  0x433237362D48504152474F4544492044454946494E55204B4A4320444554454B43415242204C4C454853204553494F54524F542020322E3523203531303320433237362034313033203B202020202020202020202020202020202064657070616D203B2020202020202020203034324631,
  0x393045342D48504152474F4544492044454946494E55204B4A4320444554454B43415242204C4C454853204553494F54524F542020322E3523203531303320393045342034313033203B202020202020202020202020202020202064657070616D203B2020202020202020203134324631,
  0x433845342D48504152474F4544492044454946494E55204B4A4320444554454B43415242204C4C454853204553494F54524F542020322E3523203531303320433845342034313033203B202020202020202020202020202020202064657070616D203B2020202020202020203234324631,
  0x393842352D48504152474F4544492044454946494E55204B4A4320444554454B43415242204C4C454853204553494F54524F542020322E3523203531303320393842352034313033203B202020202020202020202020202020202064657070616D203B2020202020202020203334324631,
  0x394230372D48504152474F4544492044454946494E55204B4A4320444554454B43415242204C4C454853204553494F54524F542020322E3523203531303320394230372034313033203B202020202020202020202020202020202064657070616D203B2020202020202020203434324631,
  0x333532362D48504152474F4544492044454946494E55204B4A4320444554454B43415242204C4C454853204553494F54524F542020322E3523203531303320333532362034313033203B202020202020202020202020202020202064657070616D203B2020202020202020203534324631,
  0x374436372D48504152474F4544492044454946494E55204B4A4320444554454B43415242204C4C454853204553494F54524F542020322E3523203531303320374436372034313033203B202020202020202020202020202020202064657070616D203B2020202020202020203634324631,
  0x444432352D48504152474F4544492044454946494E55204B4A4320444554454B43415242204C4C454853204553494F54524F542020322E3523203531303320444432352034313033203B202020202020202020202020202020202064657070616D203B2020202020202020203734324631,
  0x373535362D48504152474F4544492044454946494E55204B4A4320444554454B43415242204C4C454853204553494F54524F542020322E3523203531303320373535362034313033203B202020202020202020202020202020202064657070616D203B2020202020202020203834324631,
  0x3E46343246312D64657672657365723C2E2E3E39343246312D64657672657365723C202020414E202320202020202020202020202020202020202020202020202020202020206465776F6C6C61736964203B202046343246312E2E3934324631,
  0x454741544E415644412048504152474F4544492044454C435249432020302E3620232020202020202020202037394635203B202020202020202020202020202020202064657070616D203B2020202020202020203035324631,
  0x5450454343412048504152474F4544492044454C435249432020302E3620232020202020202020202046453335203B202020202020202020202020202020202064657070616D203B2020202020202020203135324631,
  0x3E46353246312D64657672657365723C2E2E3E32353246312D64657672657365723C202020414E202320202020202020202020202020202020202020202020202020202020206465776F6C6C61736964203B202046353246312E2E3235324631,
  0x49414320524F46204C4F424D5953204445444E554F522E2E554620524F46204C4F424D5953204445444E554F5220302E303120232020202038564E203B2020202020203B20202020202020202020202020202020202064696C6176203B202035363246312E2E3036324631,
  0x3E46463246312D64657672657365723C2E2E3E36363246312D64657672657365723C202020414E202320202020202020202020202020202020202020202020202020202020206465776F6C6C61736964203B202046463246312E2E3636324631,
  0x5241545320474E49544F4F48532E2E454E4F4C4359432020302E3620232020202038564E203B2020202020203B20202020202020202020202020202020202064696C6176203B202030323346312E2E3030334631,
  0x4543414620474E49574F4C4220444E49572E2E524554454D4F4D524548542020302E3720232020202038564E203B2020202020203B20202020202020202020202020202020202064696C6176203B202043323346312E2E3132334631,
  0x4F5449525255422E2E474F4420544F482020302E3820232020202038564E203B2020202020203B20202020202020202020202020202020202064696C6176203B202046323346312E2E4432334631,
  0x5355544341432E2E54554E54534548432020302E3620232020202038564E203B2020202020203B20202020202020202020202020202020202064696C6176203B202035333346312E2E3033334631,
  0x52455050455020544F482020302E3720232020202038564E203B2020202020203B20202020202020202020202020202020202064696C6176203B2020202020202020203633334631,
  0x454C54544F4220594241422E2E50494C55542020302E3620232020202038564E203B2020202020203B20202020202020202020202020202020202064696C6176203B202043373346312E2E3733334631,
  0x4554414C502048544957204546494E4B20444E41204B524F462020302E3720232020202038564E203B2020202020203B20202020202020202020202020202020202064696C6176203B2020202020202020204437334631,
  0x4E524F43504F502E2E4B524F4320474E4950504F50204854495720454C54544F422020302E3820232020202038564E203B2020202020203B20202020202020202020202020202020202064696C6176203B202046373346312E2E4537334631,
  0x504143204E4F49544155444152472E2E4E4F424249522020302E3620232020202038564E203B2020202020203B20202020202020202020202020202020202064696C6176203B202033393346312E2E3038334631,
  0x5354454B434954204E4F495353494D44412E2E5446454C20454854204E4F2050495420485449572054524145482020302E3720232020202038564E203B2020202020203B20202020202020202020202020202020202064696C6176203B202046393346312E2E3439334631,
  0x5245465255532E2E4553524F48204C4553554F5241432020302E3620232020202038564E203B2020202020203B20202020202020202020202020202020202064696C6176203B202034433346312E2E3041334631,
  0x4C4144454D205354524F50532020302E3720232020202038564E203B2020202020203B20202020202020202020202020202020202064696C6176203B2020202020202020203543334631,
  0x52454D4D4957532E2E5948504F52542020302E3620232020202038564E203B2020202020203B20202020202020202020202020202020202064696C6176203B202041433346312E2E3643334631,
  0x52414320474E494341522E2E52455446494C205448474945572020302E3720232020202038564E203B2020202020203B20202020202020202020202020202020202064696C6176203B202045433346312E2E4243334631,
  0x4C4C414220444E4120454C444441502053494E4E455420454C4241542E2E4C4C414220444E41205441422054454B434952432020302E3820232020202038564E203B2020202020203B20202020202020202020202020202020202064696C6176203B202033443346312E2E4643334631,
  0x4D5549444154532E2E4E4941544E554F4D2044455050414320574F4E532020302E3720232020202038564E203B2020202020203B20202020202020202020202020202020202064696C6176203B202046443346312E2E3444334631,
  0x454C54534143204E4145504F5255452E2E474E49444C495542204553554F482020302E3620232020202038564E203B2020202020203B20202020202020202020202020202020202064696C6176203B202030463346312E2E3045334631,
  0x4C4542414C2E2E544E414E4E45502045544948572020302E3720232020202038564E203B2020202020203B20202020202020202020202020202020202064696C6176203B202037463346312E2E3146334631,
  0x362D45505954204B4349525441505A544946205245494649444F4D20494A4F4D452E2E4B434F43454C545455485320444E412054455551434152204E4F544E494D4441422020302E3820232020202038564E203B2020202020203B20202020202020202020202020202020202064696C6176203B202046463346312E2E3846334631,
  0x53544E495250205741502E2E5441522020302E3620232020202038564E203B2020202020203B20202020202020202020202020202020202064696C6176203B202045333446312E2E3030344631,
  0x4B4E554D504948432020302E3720232020202038564E203B2020202020203B20202020202020202020202020202020202064696C6176203B2020202020202020204633344631,
  0x534559452020302E3620232020202038564E203B2020202020203B20202020202020202020202020202020202064696C6176203B2020202020202020203034344631,
  0x4559452020302E3720232020202038564E203B2020202020203B20202020202020202020202020202020202064696C6176203B2020202020202020203134344631,
  0x4152454D41432E2E5241452020302E3620232020202038564E203B2020202020203B20202020202020202020202020202020202064696C6176203B202037463446312E2E3234344631,
  0x4853414C462048544957204152454D41432020302E3720232020202038564E203B2020202020203B20202020202020202020202020202020202064696C6176203B2020202020202020203846344631,
  0x45545445535341434F454449562E2E4152454D4143204F454449562020302E3620232020202038564E203B2020202020203B20202020202020202020202020202020202064696C6176203B202043463446312E2E3946344631,
  0x4F455245545320454C424154524F502E2E524F5443454A4F5250204D4C49462020302E3720232020202038564E203B2020202020203B20202020202020202020202020202020202064696C6176203B202045463446312E2E4446344631,
  0x5344414542205245594152502020302E3820232020202038564E203B2020202020203B20202020202020202020202020202020202064696C6176203B2020202020202020204646344631,
  0x454C474E4149525420444552204C4C414D5320474E49544E494F502D4E574F442E2E53574F525241205344524157544847495220444554534957542020302E3620232020202038564E203B2020202020203B20202020202020202020202020202020202064696C6176203B202044333546312E2E3030354631,
  0x454C43524943204554494857204445574F444148532054484749522052455050552E2E454C43524943204554494857204445574F44414853205448474952205245574F4C2020302E3720232020202038564E203B2020202020203B20202020202020202020202020202020202064696C6176203B202046333546312E2E4533354631,
  0x53544F44204545524854204854495720454C43524943494D4553205446454C2044454843544F4E2E2E45454D4D4F502053534F52432044454C435249432020312E3620232020202038564E203B2020202020203B20202020202020202020202020202020202064696C6176203B202033343546312E2E3034354631,
  0x454341455020464F2045564F442E2E53544F44204545524854204854495720454C43524943494D45532054484749522044454843544F4E2020302E3720232020202038564E203B2020202020203B20202020202020202020202020202020202064696C6176203B202041343546312E2E3434354631,
  0x4149454947594820464F204C574F422E2E414241414B2020302E3820232020202038564E203B2020202020203B20202020202020202020202020202020202064696C6176203B202046343546312E2E4234354631,
  0x5954524948542D45564C4557542045434146204B434F4C432E2E4B434F4C434F20454E4F2045434146204B434F4C432020302E3620232020202038564E203B2020202020203B20202020202020202020202020202020202064696C6176203B202037363546312E2E3035354631,
  0x4B43495453594F4A2E2E52454B414550532054484749522020302E3720232020202038564E203B2020202020203B20202020202020202020202020202020202064696C6176203B202039373546312E2E3836354631,
  0x474E49434E4144204E414D2020302E3920232020202038564E203B2020202020203B20202020202020202020202020202020202064696C6176203B2020202020202020204137354631,
  0x5845444E4920444E41484B43414220474E49544E494F50204E574F44204B43414C422E2E524556494543455220454E4F4850454C455420444E4148205446454C2020302E3720232020202038564E203B2020202020203B20202020202020202020202020202020202064696C6176203B202033413546312E2E4237354631,
  0x5452414548204B43414C422020302E3920232020202038564E203B2020202020203B20202020202020202020202020202020202064696C6176203B2020202020202020203441354631,
  0x50414D20444C524F572E2E52455455504D4F4320504F544B5345442020302E3720232020202038564E203B2020202020203B20202020202020202020202020202020202064696C6176203B202041463546312E2E3541354631]

def mapText32 : List Nat := [
  0x4941594F4D2E2E494A554620544E554F4D2020302E3620232020202038564E203B2020202020203B20202020202020202020202020202020202064696C6176203B202046463546312E2E4246354631,
  0x4543414620474E494E4E4952472020312E3620232020202038564E203B2020202020203B20202020202020202020202020202020202064696C6176203B2020202020202020203030364631,
  0x45434146204C41525455454E2E2E5345594520474E494C494D532048544957204543414620474E494E4E4952472020302E3620232020202038564E203B2020202020203B20202020202020202020202020202020202064696C6176203B202030313646312E2E3130364631,
  0x45434146205353454C4E4F49535345525058452020312E3620232020202038564E203B2020202020203B20202020202020202020202020202020202064696C6176203B2020202020202020203131364631,
  0x4543414620455649534E45502E2E4543414620444553554D414E552020302E3620232020202038564E203B2020202020203B20202020202020202020202020202020202064696C6176203B202034313646312E2E3231364631,
  0x454341462044455355464E4F432020312E3620232020202038564E203B2020202020203B20202020202020202020202020202020202064696C6176203B2020202020202020203531364631,
  0x45434146204445444E554F464E4F432020302E3620232020202038564E203B2020202020203B20202020202020202020202020202020202064696C6176203B2020202020202020203631364631,
  0x4543414620474E495353494B2020312E3620232020202038564E203B2020202020203B20202020202020202020202020202020202064696C6176203B2020202020202020203731364631,
  0x5353494B204120474E49574F52485420454341462020302E3620232020202038564E203B2020202020203B20202020202020202020202020202020202064696C6176203B2020202020202020203831364631,
  0x5345594520474E494C494D532048544957204543414620474E495353494B2020312E3620232020202038564E203B2020202020203B20202020202020202020202020202020202064696C6176203B2020202020202020203931364631,
  0x53455945204445534F4C432048544957204543414620474E495353494B2020302E3620232020202038564E203B2020202020203B20202020202020202020202020202020202064696C6176203B2020202020202020204131364631,
  0x4555474E4F542054554F2D4B43555453204854495720454341462020312E3620232020202038564E203B2020202020203B20202020202020202020202020202020202064696C6176203B2020202020202020204231364631,
  0x45434146204445544E494F5050415349442E2E45594520474E494B4E495720444E41204555474E4F542054554F2D4B43555453204854495720454341462020302E3620232020202038564E203B2020202020203B20202020202020202020202020202020202064696C6176203B202045313646312E2E4331364631,
  0x454341462044454952524F572020312E3620232020202038564E203B2020202020203B20202020202020202020202020202020202064696C6176203B2020202020202020204631364631,
  0x454341462044455645494C455220545542204445544E494F5050415349442E2E45434146205952474E412020302E3620232020202038564E203B2020202020203B20202020202020202020202020202020202064696C6176203B202035323646312E2E3032364631,
  0x4543414620444548534955474E412E2E4854554F4D204E45504F2048544957204543414620474E494E574F52462020312E3620232020202038564E203B2020202020203B20202020202020202020202020202020202064696C6176203B202037323646312E2E3632364631,
  0x454341462044455249542E2E45434146204C5546524145462020302E3620232020202038564E203B2020202020203B20202020202020202020202020202020202064696C6176203B202042323646312E2E3832364631,
  0x4543414620474E4943414D4952472020312E3620232020202038564E203B2020202020203B20202020202020202020202020202020202064696C6176203B2020202020202020204332364631,
  0x4543414620474E4959524320594C44554F4C2020302E3620232020202038564E203B2020202020203B20202020202020202020202020202020202064696C6176203B2020202020202020204432364631,
  0x45434146204445485355482E2E4854554F4D204E45504F204854495720454341462020312E3620232020202038564E203B2020202020203B20202020202020202020202020202020202064696C6176203B202046323646312E2E4532364631,
  0x454341462044454853554C462E2E544145575320444C4F4320444E41204854554F4D204E45504F204854495720454341462020302E3620232020202038564E203B2020202020203B20202020202020202020202020202020202064696C6176203B202033333646312E2E3033364631,
  0x4543414620474E495045454C532020312E3620232020202038564E203B2020202020203B20202020202020202020202020202020202064696C6176203B2020202020202020203433364631,
  0x45434146205441432059524145572E2E4543414620595A5A49442020302E3620232020202038564E203B2020202020203B20202020202020202020202020202020202064696C6176203B202030343646312E2E3533364631,
  0x4543414620474E494C494D5320594C544847494C532E2E4543414620474E494E574F524620594C544847494C532020302E3720232020202038564E203B2020202020203B20202020202020202020202020202020202064696C6176203B202032343646312E2E3134364631,
  0x5345594520474E494C4C4F52204854495720454341462E2E45434146204E574F442D4544495350552020302E3820232020202038564E203B2020202020203B20202020202020202020202020202020202064696C6176203B202034343646312E2E3334364631,
  0x53444E4148204445444C4F462048544957204E4F535245502E2E4552555453454720444F4F47204F4E204854495720454341462020302E3620232020202038564E203B2020202020203B20202020202020202020202020202020202064696C6176203B202046343646312E2E3534364631,
  0x4452414F422052454B4345484320455352455645522E2E4641454C20474E49544E494F502054534557204854524F4E2020302E3720232020202038564E203B2020202020203B20202020202020202020202020202020202064696C6176203B202046373646312E2E3035364631,
  0x4547414747554C205446454C2E2E54454B434F522020302E3620232020202038564E203B2020202020203B20202020202020202020202020202020202064696C6176203B202035433646312E2E3038364631,
  0x4445422E2E5352454E524F43204445444E554F52204854495720454C474E414952542020302E3720232020202038564E203B2020202020203B20202020202020202020202020202020202064696C6176203B202046433646312E2E3643364631,
  0x50494853524F5720464F204543414C502020302E3820232020202038564E203B2020202020203B20202020202020202020202020202020202064696C6176203B2020202020202020203044364631,
  0x59454C4C4F525420474E4950504F48532E2E4E474953204C414E4F474154434F2020302E3920232020202038564E203B2020202020203B20202020202020202020202020202020202064696C6176203B202032443646312E2E3144364631,
  0x41444F4741502E2E415055545320302E303120232020202038564E203B2020202020203B20202020202020202020202020202020202064696C6176203B202034443646312E2E3344364631,
  0x454C504D45542055444E494820302E323120232020202038564E203B2020202020203B20202020202020202020202020202020202064696C6176203B2020202020202020203544364631,
  0x524F544156454C452E2E54554820302E333120232020202038564E203B2020202020203B20202020202020202020202020202020202064696C6176203B202037443646312E2E3644364631,
  0x3E46443646312D64657672657365723C2E2E3E38443646312D64657672657365723C202020414E202320202020202020202020202020202020202020202020202020202020206465776F6C6C61736964203B202046443646312E2E3844364631,
  0x474E49564952524120454E414C505249412E2E48434E45525720444E412052454D4D41482020302E3720232020202038564E203B2020202020203B20202020202020202020202020202020202064696C6176203B202043453646312E2E3045364631,
  0x3E46453646312D64657672657365723C2E2E3E44453646312D64657672657365723C202020414E202320202020202020202020202020202020202020202020202020202020206465776F6C6C61736964203B202046453646312E2E4445364631,
  0x50494853205245474E45535341502E2E4554494C4C455441532020302E3720232020202038564E203B2020202020203B20202020202020202020202020202020202064696C6176203B202033463646312E2E3046364631,
  0x454F4E41432E2E5245544F4F43532020302E3920232020202038564E203B2020202020203B20202020202020202020202020202020202064696C6176203B202036463646312E2E3446364631,
  0x52454355415320474E49594C462E2E44454C5320302E303120232020202038564E203B2020202020203B20202020202020202020202020202020202064696C6176203B202038463646312E2E3746364631,
  0x4452414F424554414B5320302E313120232020202038564E203B2020202020203B20202020202020202020202020202020202064696C6176203B2020202020202020203946364631,
  0x574148534B434952204F54554120302E323120232020202038564E203B2020202020203B20202020202020202020202020202020202064696C6176203B2020202020202020204146364631,
  0x4554414B532052454C4C4F522E2E4B435552542050554B43495020302E333120232020202038564E203B2020202020203B20202020202020202020202020202020202064696C6176203B202043463646312E2E4246364631,
  0x3E46463646312D64657672657365723C2E2E3E44463646312D64657672657365723C202020414E202320202020202020202020202020202020202020202020202020202020206465776F6C6C61736964203B202046463646312E2E4446364631,
  0x45434E554F20464C414820524F46204C4F424D5953204C4143494D4548434C412E2E45434E45535345544E49555120524F46204C4F424D5953204C4143494D4548434C412020302E3620232020202038564E203B2020202020203B20202020202020202020202020202020202064696C6176203B202033373746312E2E3030374631,
  0x3E46373746312D64657672657365723C2E2E3E34373746312D64657672657365723C202020414E202320202020202020202020202020202020202020202020202020202020206465776F6C6C61736964203B202046373746312E2E3437374631,
  0x52415453204C454548574E4950204445544E494F502045564C4557542059564145482E2E454C474E414952542054484749522053454C4543534F534920474E49544E494F502D5446454C204B43414C422020302E3720232020202038564E203B2020202020203B20202020202020202020202020202020202064696C6176203B202034443746312E2E3038374631,
  0x4552415551532044454C4352494320455649544147454E2E2E454C474E414952542044454C4352494320302E313120232020202038564E203B2020202020203B20202020202020202020202020202020202064696C6176203B202038443746312E2E3544374631,
  0x3E46443746312D64657672657365723C2E2E3E39443746312D64657672657365723C202020414E202320202020202020202020202020202020202020202020202020202020206465776F6C6C61736964203B202046443746312E2E3944374631,
  0x455241555153204E574F524220454752414C2E2E454C435249432045474E41524F20454752414C20302E323120232020202038564E203B2020202020203B20202020202020202020202020202020202064696C6176203B202042453746312E2E3045374631,
  0x3E46463746312D64657672657365723C2E2E3E43453746312D64657672657365723C202020414E202320202020202020202020202020202020202020202020202020202020206465776F6C6C61736964203B202046463746312E2E4345374631,
  0x44414548574F52524120454C474E4149525420454752414C204854495720574F5252412053445241574E574F442E2E44414548574F52524120454C474E41495254204C4C414D53204854495720574F5252412053445241575446454C2020302E3720232020202038564E203B2020202020203B20202020202020202020202020202020202064696C6176203B202042303846312E2E3030384631,
  0x3E46303846312D64657672657365723C2E2E3E43303846312D64657672657365723C202020414E202320202020202020202020202020202020202020202020202020202020206465776F6C6C61736964203B202046303846312E2E4330384631,
  0x574F5252412059564145482053445241574E574F442E2E44414548574F525241204C41524554414C49555145204C4C414D53204854495720574F5252412053445241575446454C2020302E3720232020202038564E203B2020202020203B20202020202020202020202020202020202064696C6176203B202037343846312E2E3031384631,
  0x3E46343846312D64657672657365723C2E2E3E38343846312D64657672657365723C202020414E202320202020202020202020202020202020202020202020202020202020206465776F6C6C61736964203B202046343846312E2E3834384631,
  0x574F5252412046495245532D534E4153204E574F442050552E2E574F5252412046495245532D534E41532053445241575446454C2020302E3720232020202038564E203B2020202020203B20202020202020202020202020202020202064696C6176203B202039353846312E2E3035384631,
  0x3E46353846312D64657672657365723C2E2E3E41353846312D64657672657365723C202020414E202320202020202020202020202020202020202020202020202020202020206465776F6C6C61736964203B202046353846312E2E4135384631,
  0x574F525241204252414220595641454820595245562054534557204854554F53204445444145482D454449572E2E574F525241204252414220544847494C2053445241575446454C204445444145482D454449572020302E3720232020202038564E203B2020202020203B20202020202020202020202020202020202064696C6176203B202037383846312E2E3036384631,
  0x3E46383846312D64657672657365723C2E2E3E38383846312D64657672657365723C202020414E202320202020202020202020202020202020202020202020202020202020206465776F6C6C61736964203B202046383846312E2E3838384631,
  0x534452494854204F575420485444495720544641485320574F5252412045544948572E2E44414548574F52524120454C474E414952542053445241575446454C2020302E3720232020202038564E203B2020202020203B20202020202020202020202020202020202064696C6176203B202044413846312E2E3039384631,
  0x3E46413846312D64657672657365723C2E2E3E45413846312D64657672657365723C202020414E202320202020202020202020202020202020202020202020202020202020206465776F6C6C61736964203B202046413846312E2E4541384631,
  0x54534557204854554F5320474E4956525543204E454854205344524157544847495220474E49544E494F5020574F5252412E2E54534557204854524F4E204E454854205344524157505520474E49544E494F5020574F52524120302E333120232020202038564E203B2020202020203B20202020202020202020202020202020202064696C6176203B202031423846312E2E3042384631,
  0x3E46463846312D64657672657365723C2E2E3E32423846312D64657672657365723C202020414E202320202020202020202020202020202020202020202020202020202020206465776F6C6C61736964203B202046463846312E2E3242384631,
  0x544F442048544957204B4F4F482044454843544F4E20474E4943414620445241574E574F442E2E53544F442052554F4620485449572045454D524F462053534F52432044454C4352494320302E303120232020202038564E203B2020202020203B20202020202020202020202020202020202064696C6176203B202042303946312E2E3030394631,
  0x535245474E494620444548434E495020302E333120232020202038564E203B2020202020203B20202020202020202020202020202020202064696C6176203B2020202020202020204330394631,
  0x444E414820474E4948434E49502E2E545241454820455449485720302E323120232020202038564E203B2020202020203B20202020202020202020202020202020202064696C6176203B202046303946312E2E4430394631,
  0x534E524F482045485420464F204E4749532E2E45434146204854554F4D2D52455050495A2020302E3820232020202038564E203B2020202020203B20202020202020202020202020202020202064696C6176203B202038313946312E2E3031394631,
  0x444553534F524320535245474E494620454C4444494D20444E41205845444E49204854495720444E41482E2E444E414820454D204C4C41432020302E3920232020202038564E203B2020202020203B20202020202020202020202020202020202064696C6176203B202045313946312E2E3931394631,
  0x4E47495320444E414820554F592045564F4C204920302E303120232020202038564E203B2020202020203B20202020202020202020202020202020202064696C6176203B2020202020202020204631394631,
  0x4543414620474E495A45454E532E2E54414820594F42574F43204854495720454341462020302E3920232020202038564E203B2020202020203B20202020202020202020202020202020202064696C6176203B202037323946312E2E3032394631,
  0x4441454820474E49444F4C505845204854495720454341462044454B434F48532E2E44455349415220574F524245594520454E4F2048544957204543414620302E303120232020202038564E203B2020202020203B20202020202020202020202020202020202064696C6176203B202046323946312E2E3832394631,
  0x4E414D4F5720544E414E474552502020302E3920232020202038564E203B2020202020203B20202020202020202020202020202020202064696C6176203B2020202020202020203033394631,
  0x5245485445474F5420505520534D4C41502E2E474E49444545462D54534145524220302E303120232020202038564E203B2020202020203B20202020202020202020202020202020202064696C6176203B202032333946312E2E3133394631,
  0x4C4C4142444E41482E2E4549464C45532020302E3920232020202038564E203B2020202020203B20202020202020202020202020202020202064696C6176203B202045333946312E2E3333394631,
  0x4B53414D20474E4956494420302E323120232020202038564E203B2020202020203B20202020202020202020202020202020202064696C6176203B2020202020202020204633394631,
  0x4D524F46494E552053545241204C41495452414D2E2E5245574F4C46204445544C49572020302E3920232020202038564E203B2020202020203B20202020202020202020202020202020202064696C6176203B202042343946312E2E3034394631,
  0x454E4F545320474E494C52554320302E303120232020202038564E203B2020202020203B20202020202020202020202020202020202064696C6176203B2020202020202020204334394631,
  0x4353494420474E49594C462E2E4C4C414220444E41204B43495453204553534F5243414C20302E313120232020202038564E203B2020202020203B20202020202020202020202020202020202064696C6176203B202046343946312E2E4434394631,
  0x53454B41434E41502E2E544E415353494F52432020302E3920232020202038564E203B2020202020203B20202020202020202020202020202020202064696C6176203B202045353946312E2E3035394631,
  0x444F4F462044454E4E41432E2E474E494C504D554420302E303120232020202038564E203B2020202020203B20202020202020202020202020202020202064696C6176203B202042363946312E2E4635394631,
  0x53545241454820454552485420444E41205345594520474E494C494D532048544957204543414620474E494C494D532E2E4E4545524720594641454C20302E313120232020202038564E203B2020202020203B20202020202020202020202020202020202064696C6176203B202030373946312E2E4336394631,
  0x4543414620474E494E57415920302E323120232020202038564E203B2020202020203B20202020202020202020202020202020202064696C6176203B2020202020202020203137394631,
  0x524145542048544957204543414620474E494C494D5320302E333120232020202038564E203B2020202020203B20202020202020202020202020202020202064696C6176203B2020202020202020203237394631,
  0x4543414620474E495A454552462E2E54414820595452415020444E41204E524F482059545241502048544957204543414620302E313120232020202038564E203B2020202020203B20202020202020202020202020202020202064696C6176203B202036373946312E2E3337394631,
  0x45434146204445534955475349442E2E414A4E494E20302E333120232020202038564E203B2020202020203B20202020202020202020202020202020202064696C6176203B202038373946312E2E3737394631,
  0x3E39373946312D64657672657365723C202020414E202320202020202020202020202020202020202020202020202020202020206465776F6C6C61736964203B2020202020202020203937394631,
  0x5345594520474E494441454C502048544957204543414620302E313120232020202038564E203B2020202020203B20202020202020202020202020202020202064696C6176203B2020202020202020204137394631,
  0x4952415320302E323120232020202038564E203B2020202020203B20202020202020202020202020202020202064696C6176203B2020202020202020204237394631,
  0x454F48532054414C462E2E54414F432042414C20302E313120232020202038564E203B2020202020203B20202020202020202020202020202020202064696C6176203B202046373946312E2E4337394631,
  0x45434146204E524F43494E552E2E424152432020302E3820232020202038564E203B2020202020203B20202020202020202020202020202020202064696C6176203B202034383946312E2E3038394631,
  0x44495551532E2E454C4741452020302E3920232020202038564E203B2020202020203B20202020202020202020202020202020202064696C6176203B202031393946312E2E3538394631,
  0x54454B434952432E2E45434146204546464152494720302E303120232020202038564E203B2020202020203B20202020202020202020202020202020202064696C6176203B202037393946312E2E3239394631,
  0x4E4157532E2E4F4F5241474E414B20302E313120232020202038564E203B2020202020203B20202020202020202020202020202020202064696C6176203B202032413946312E2E3839394631,
  0x4F444F442E2E48544F4D4D414D20302E333120232020202038564E203B2020202020203B20202020202020202020202020202020202064696C6176203B202034413946312E2E3341394631,
  0x52455453594F2E2E48544F4C5320302E323120232020202038564E203B2020202020203B20202020202020202020202020202020202064696C6176203B202041413946312E2E3541394631,
  0x4C4145532E2E52455641454220302E333120232020202038564E203B2020202020203B20202020202020202020202020202020202064696C6176203B202044413946312E2E4241394631,
  0x454E414320474E49424F52502E2E474F4420454449554720302E323120232020202038564E203B2020202020203B20202020202020202020202020202020202064696C6176203B202046413946312E2E4541394631,
  0x4E49414C4C495652455055532E2E524941482044455220544E454E4F504D4F4320494A4F4D4520302E313120232020202038564E203B2020202020203B20202020202020202020202020202020202064696C6176203B202039423946312E2E3042394631,
  0x47454C204C4143494E414843454D2E2E545345562059544546415320302E323120232020202038564E203B2020202020203B20202020202020202020202020202020202064696C6176203B202046423946312E2E4142394631,
  0x4547444557204553454548432020302E3820232020202038564E203B2020202020203B20202020202020202020202020202020202064696C6176203B2020202020202020203043394631,
  0x52454B41485320544C41532E2E454B414350554320302E313120232020202038564E203B2020202020203B20202020202020202020202020202020202064696C6176203B202032433946312E2E3143394631,
  0x45425543204543492E2E584F4220454741524556454220302E323120232020202038564E203B2020202020203B20202020202020202020202020202020202064696C6176203B202041433946312E2E3343394631,
  0x41455420454C4242554220302E333120232020202038564E203B2020202020203B20202020202020202020202020202020202064696C6176203B2020202020202020204243394631,
  0x3E43433946312D64657672657365723C202020414E202320202020202020202020202020202020202020202020202020202020206465776F6C6C61736964203B2020202020202020204343394631,
  0x4E4F5352455020464145442E2E4E4F5352455020474E49444E41545320302E323120232020202038564E203B2020202020203B20202020202020202020202020202020202064696C6176203B202046433946312E2E4443394631,
  0x534B434F532E2E454C434F4E4F4D2048544957204543414620302E303120232020202038564E203B2020202020203B20202020202020202020202020202020202064696C6176203B202036453946312E2E3044394631,
  0x54454C554D412052415A414E2E2E45504F4C45564E4520544649472044455220302E313120232020202038564E203B2020202020203B20202020202020202020202020202020202064696C6176203B202046463946312E2E3745394631,
  0x504F485349422D544847494E4B205353454843204B43414C422E2E474E494B205353454843204C41525455454E20302E323120232020202038564E203B2020202020203B20202020202020202020202020202020202064696C6176203B202033354146312E2E3030414631,
  0x3E46354146312D64657672657365723C2E2E3E34354146312D64657672657365723C202020414E202320202020202020202020202020202020202020202020202020202020206465776F6C6C61736964203B202046354146312E2E3435414631,
  0x524549444C4F53204B43414C42204951474E4149582E2E4C4152454E454720444552204951474E41495820302E313120232020202038564E203B2020202020203B20202020202020202020202020202020202064696C6176203B202044364146312E2E3036414631,
  0x3E46364146312D64657672657365723C2E2E3E45364146312D64657672657365723C202020414E202320202020202020202020202020202020202020202020202020202020206465776F6C6C61736964203B202046364146312E2E4536414631,
  0x5354524F48532E2E53454F48532054454C4C414220302E323120232020202038564E203B2020202020203B20202020202020202020202020202020202064696C6176203B202033374146312E2E3037414631,
  0x4C41444E415320474E4F485420302E333120232020202038564E203B2020202020203B20202020202020202020202020202020202064696C6176203B2020202020202020203437414631,
  0x3E37374146312D64657672657365723C2E2E3E35374146312D64657672657365723C202020414E202320202020202020202020202020202020202020202020202020202020206465776F6C6C61736964203B202037374146312E2E3537414631,
  0x45504F43534F48544554532E2E444F4F4C4220464F20504F524420302E323120232020202038564E203B2020202020203B20202020202020202020202020202020202064696C6176203B202041374146312E2E3837414631,
  0x3E46374146312D64657672657365723C2E2E3E42374146312D64657672657365723C202020414E202320202020202020202020202020202020202020202020202020202020206465776F6C6C61736964203B202046374146312E2E4237414631,
  0x4554554843415241502E2E4F592D4F5920302E323120232020202038564E203B2020202020203B20202020202020202020202020202020202064696C6176203B202032384146312E2E3038414631,
  0x534C4C4F4420474E495453454E2E2E474E4152454D4F4F4220302E333120232020202038564E203B2020202020203B20202020202020202020202020202020202064696C6176203B202036384146312E2E3338414631,
  0x3E46384146312D64657672657365723C2E2E3E37384146312D64657672657365723C202020414E202320202020202020202020202020202020202020202020202020202020206465776F6C6C61736964203B202046384146312E2E3738414631,
  0x4F4A4E41422E2E54454E414C50204445474E495220302E323120232020202038564E203B2020202020203B20202020202020202020202020202020202064696C6176203B202035394146312E2E3039414631,
  0x4B434F522E2E54454D4C45482059524154494C494D20302E333120232020202038564E203B2020202020203B20202020202020202020202020202020202064696C6176203B202038414146312E2E3639414631,
  0x3E46414146312D64657672657365723C2E2E3E39414146312D64657672657365723C202020414E202320202020202020202020202020202020202020202020202020202020206465776F6C6C61736964203B202046414146312E2E3941414631,
  0x524548544145462E2E594C4620302E333120232020202038564E203B2020202020203B20202020202020202020202020202020202064696C6176203B202036424146312E2E3042414631,
  0x3E46424146312D64657672657365723C2E2E3E37424146312D64657672657365723C202020414E202320202020202020202020202020202020202020202020202020202020206465776F6C6C61736964203B202046424146312E2E3742414631,
  0x474E494747554820454C504F45502E2E5452414548204C4143494D4F54414E4120302E333120232020202038564E203B2020202020203B20202020202020202020202020202020202064696C6176203B202032434146312E2E3043414631,
  0x3E46434146312D64657672657365723C2E2E3E33434146312D64657672657365723C202020414E202320202020202020202020202020202020202020202020202020202020206465776F6C6C61736964203B202046434146312E2E3343414631,
  0x544F504145542E2E5345495252454245554C4220302E333120232020202038564E203B2020202020203B20202020202020202020202020202020202064696C6176203B202036444146312E2E3044414631,
  0x3E46464146312D64657672657365723C2E2E3E37444146312D64657672657365723C202020414E202320202020202020202020202020202020202020202020202020202020206465776F6C6C61736964203B202046464146312E2E3744414631,
  0x4B434F4C4220464C4148205245574F4C20444E41204544414853204D554944454D2045535245564E4920464C41482052455050552E2E312D544E4154584553204B434F4C4220302E333120232020202038564E203B2020202020203B20202020202020202020202020202020202064696C6176203B202032394246312E2E3030424631,
  0x3E33394246312D64657672657365723C202020414E202320202020202020202020202020202020202020202020202020202020206465776F6C6C61736964203B2020202020202020203339424631,
  0x4E4F525645484320474E49544E494F502D50552045544948572E2E4B434F4C4220464C414820544847495220444E41204544414853204D554944454D2045535245564E4920464C4148205446454C20302E333120232020202038564E203B2020202020203B20202020202020202020202020202020202064696C6176203B202041434246312E2E3439424631,
  0x3E46454246312D64657672657365723C2E2E3E42434246312D64657672657365723C202020414E202320202020202020202020202020202020202020202020202020202020206465776F6C6C61736964203B202046454246312E2E4243424631,
  0x4F52455A205449474944204445544E454D47455320302E333120232020202020202020202030333030203B202020202020202020202020202020202064657070616D203B2020202020202020203046424631,
  0x454E4F205449474944204445544E454D47455320302E333120232020202020202020202031333030203B202020202020202020202020202020202064657070616D203B2020202020202020203146424631,
  0x4F5754205449474944204445544E454D47455320302E333120232020202020202020202032333030203B202020202020202020202020202020202064657070616D203B2020202020202020203246424631,
  0x4545524854205449474944204445544E454D47455320302E333120232020202020202020202033333030203B202020202020202020202020202020202064657070616D203B2020202020202020203346424631,
  0x52554F46205449474944204445544E454D47455320302E333120232020202020202020202034333030203B202020202020202020202020202020202064657070616D203B2020202020202020203446424631,
  0x45564946205449474944204445544E454D47455320302E333120232020202020202020202035333030203B202020202020202020202020202020202064657070616D203B2020202020202020203546424631,
  0x584953205449474944204445544E454D47455320302E333120232020202020202020202036333030203B202020202020202020202020202020202064657070616D203B2020202020202020203646424631,
  0x4E45564553205449474944204445544E454D47455320302E333120232020202020202020202037333030203B202020202020202020202020202020202064657070616D203B2020202020202020203746424631,
  0x5448474945205449474944204445544E454D47455320302E333120232020202020202020202038333030203B202020202020202020202020202020202064657070616D203B2020202020202020203846424631,
  0x454E494E205449474944204445544E454D47455320302E333120232020202020202020202039333030203B202020202020202020202020202020202064657070616D203B2020202020202020203946424631,
  0x3E44464646312D64657672657365723C2E2E3E41464246312D64657672657365723C202020414E202320202020202020202020202020202020202020202020202020202020206465776F6C6C61736964203B202044464646312E2E4146424631,
  0x3E46464646312D7265746361726168636E6F6E3C2E2E3E45464646312D7265746361726168636E6F6E3C2020302E32202320202020202020202020202020202020202020202020202020202020206465776F6C6C61736964203B202046464646312E2E4546464631,
  0x36443641322D48504152474F4544492044454946494E55204B4A432E2E30303030322D48504152474F4544492044454946494E55204B4A432020312E3320232020202020202020202020202020202020202020202020202020202020202020202064696C6176203B202036443641322E2E3030303032,
  0x44443641322D48504152474F4544492044454946494E55204B4A432E2E37443641322D48504152474F4544492044454946494E55204B4A4320302E333120232020202020202020202020202020202020202020202020202020202020202020202064696C6176203B202044443641322E2E3744364132,
  0x3E46463641322D64657672657365723C2E2E3E45443641322D64657672657365723C202020414E202320202020202020202020202020202020202020202020202020202020206465776F6C6C61736964203B202046463641322E2E4544364132,
  0x34333742322D48504152474F4544492044454946494E55204B4A432E2E30303741322D48504152474F4544492044454946494E55204B4A432020322E3520232020202020202020202020202020202020202020202020202020202020202020202064696C6176203B202034333742322E2E3030374132,
  0x3E46333742322D64657672657365723C2E2E3E35333742322D64657672657365723C202020414E202320202020202020202020202020202020202020202020202020202020206465776F6C6C61736964203B202046333742322E2E3533374232,
  0x44313842322D48504152474F4544492044454946494E55204B4A432E2E30343742322D48504152474F4544492044454946494E55204B4A432020302E3620232020202020202020202020202020202020202020202020202020202020202020202064696C6176203B202044313842322E2E3034374232,
  0x3E46313842322D64657672657365723C2E2E3E45313842322D64657672657365723C202020414E202320202020202020202020202020202020202020202020202020202020206465776F6C6C61736964203B202046313842322E2E4531384232,
  0x31414543322D48504152474F4544492044454946494E55204B4A432E2E30323842322D48504152474F4544492044454946494E55204B4A432020302E3820232020202020202020202020202020202020202020202020202020202020202020202064696C6176203B202031414543322E2E3032384232,
  0x3E46414543322D64657672657365723C2E2E3E32414543322D64657672657365723C202020414E202320202020202020202020202020202020202020202020202020202020206465776F6C6C61736964203B202046414543322E2E3241454332,
  0x30454245322D48504152474F4544492044454946494E55204B4A432E2E30424543322D48504152474F4544492044454946494E55204B4A4320302E303120232020202020202020202020202020202020202020202020202020202020202020202064696C6176203B202030454245322E2E3042454332,
  0x3E46463746322D64657672657365723C2E2E3E31454245322D64657672657365723C202020414E202320202020202020202020202020202020202020202020202020202020206465776F6C6C61736964203B202046463746322E2E3145424532,
  0x30303846322D48504152474F454449205954494C4942495441504D4F43204B4A432020312E3320232020202020202020202044334534203B202020202020202020202020202020202064657070616D203B2020202020202020203030384632,
  0x31303846322D48504152474F454449205954494C4942495441504D4F43204B4A432020312E3320232020202020202020202038334534203B202020202020202020202020202020202064657070616D203B2020202020202020203130384632,
  0x32303846322D48504152474F454449205954494C4942495441504D4F43204B4A432020312E3320232020202020202020202031344534203B202020202020202020202020202020202064657070616D203B2020202020202020203230384632,
  0x33303846322D48504152474F454449205954494C4942495441504D4F43204B4A432020312E3320232020202020202020203232313032203B202020202020202020202020202020202064657070616D203B2020202020202020203330384632,
  0x34303846322D48504152474F454449205954494C4942495441504D4F43204B4A432020312E3320232020202020202020202030364634203B202020202020202020202020202020202064657070616D203B2020202020202020203430384632,
  0x35303846322D48504152474F454449205954494C4942495441504D4F43204B4A432020312E3320232020202020202020202045414634203B202020202020202020202020202020202064657070616D203B2020202020202020203530384632,
  0x36303846322D48504152474F454449205954494C4942495441504D4F43204B4A432020312E3320232020202020202020202042424634203B202020202020202020202020202020202064657070616D203B2020202020202020203630384632,
  0x37303846322D48504152474F454449205954494C4942495441504D4F43204B4A432020312E3320232020202020202020202032303035203B202020202020202020202020202020202064657070616D203B2020202020202020203730384632,
  0x38303846322D48504152474F454449205954494C4942495441504D4F43204B4A432020312E3320232020202020202020202041373035203B202020202020202020202020202020202064657070616D203B2020202020202020203830384632,
  0x39303846322D48504152474F454449205954494C4942495441504D4F43204B4A432020312E3320232020202020202020202039393035203B202020202020202020202020202020202064657070616D203B2020202020202020203930384632,
  0x41303846322D48504152474F454449205954494C4942495441504D4F43204B4A432020312E3320232020202020202020202037453035203B202020202020202020202020202020202064657070616D203B2020202020202020204130384632,
  0x42303846322D48504152474F454449205954494C4942495441504D4F43204B4A432020312E3320232020202020202020202046433035203B202020202020202020202020202020202064657070616D203B2020202020202020204230384632,
  0x43303846322D48504152474F454449205954494C4942495441504D4F43204B4A432020312E3320232020202020202020202045393433203B202020202020202020202020202020202064657070616D203B2020202020202020204330384632,
  0x44303846322D48504152474F454449205954494C4942495441504D4F43204B4A432020312E3320232020202020202020204133363032203B202020202020202020202020202020202064657070616D203B2020202020202020204430384632,
  0x45303846322D48504152474F454449205954494C4942495441504D4F43204B4A432020312E3320232020202020202020202044343135203B202020202020202020202020202020202064657070616D203B2020202020202020204530384632,
  0x46303846322D48504152474F454449205954494C4942495441504D4F43204B4A432020312E3320232020202020202020202034353135203B202020202020202020202020202020202064657070616D203B2020202020202020204630384632,
  0x30313846322D48504152474F454449205954494C4942495441504D4F43204B4A432020312E3320232020202020202020202034363135203B202020202020202020202020202020202064657070616D203B2020202020202020203031384632,
  0x31313846322D48504152474F454449205954494C4942495441504D4F43204B4A432020312E3320232020202020202020202037373135203B202020202020202020202020202020202064657070616D203B2020202020202020203131384632,
  0x32313846322D48504152474F454449205954494C4942495441504D4F43204B4A432020312E3320232020202020202020204331353032203B202020202020202020202020202020202064657070616D203B2020202020202020203231384632,
  0x33313846322D48504152474F454449205954494C4942495441504D4F43204B4A432020312E3320232020202020202020202039423433203B202020202020202020202020202020202064657070616D203B2020202020202020203331384632,
  0x34313846322D48504152474F454449205954494C4942495441504D4F43204B4A432020312E3320232020202020202020202037363135203B202020202020202020202020202020202064657070616D203B2020202020202020203431384632,
  0x35313846322D48504152474F454449205954494C4942495441504D4F43204B4A432020312E3320232020202020202020202044383135203B202020202020202020202020202020202064657070616D203B2020202020202020203531384632,
  0x36313846322D48504152474F454449205954494C4942495441504D4F43204B4A432020312E3320232020202020202020204234353032203B202020202020202020202020202020202064657070616D203B2020202020202020203631384632,
  0x37313846322D48504152474F454449205954494C4942495441504D4F43204B4A432020312E3320232020202020202020202037393135203B202020202020202020202020202020202064657070616D203B2020202020202020203731384632,
  0x38313846322D48504152474F454449205954494C4942495441504D4F43204B4A432020312E3320232020202020202020202034413135203B202020202020202020202020202020202064657070616D203B2020202020202020203831384632,
  0x39313846322D48504152474F454449205954494C4942495441504D4F43204B4A432020312E3320232020202020202020202043434534203B202020202020202020202020202020202064657070616D203B2020202020202020203931384632,
  0x41313846322D48504152474F454449205954494C4942495441504D4F43204B4A432020312E3320232020202020202020202043413135203B202020202020202020202020202020202064657070616D203B2020202020202020204131384632,
  0x42313846322D48504152474F454449205954494C4942495441504D4F43204B4A432020312E3320232020202020202020202035423135203B202020202020202020202020202020202064657070616D203B2020202020202020204231384632,
  0x43313846322D48504152474F454449205954494C4942495441504D4F43204B4A432020312E3320232020202020202020204644313932203B202020202020202020202020202020202064657070616D203B2020202020202020204331384632,
  0x44313846322D48504152474F454449205954494C4942495441504D4F43204B4A432020312E3320232020202020202020202035463135203B202020202020202020202020202020202064657070616D203B2020202020202020204431384632,
  0x45313846322D48504152474F454449205954494C4942495441504D4F43204B4A432020312E3320232020202020202020202033303235203B202020202020202020202020202020202064657070616D203B2020202020202020204531384632,
  0x46313846322D48504152474F454449205954494C4942495441504D4F43204B4A432020312E3320232020202020202020202046443433203B202020202020202020202020202020202064657070616D203B2020202020202020204631384632,
  0x30323846322D48504152474F454449205954494C4942495441504D4F43204B4A432020312E3320232020202020202020202042333235203B202020202020202020202020202020202064657070616D203B2020202020202020203032384632,
  0x31323846322D48504152474F454449205954494C4942495441504D4F43204B4A432020312E3320232020202020202020202036343235203B202020202020202020202020202020202064657070616D203B2020202020202020203132384632,
  0x32323846322D48504152474F454449205954494C4942495441504D4F43204B4A432020312E3320232020202020202020202032373235203B202020202020202020202020202020202064657070616D203B2020202020202020203232384632,
  0x33323846322D48504152474F454449205954494C4942495441504D4F43204B4A432020312E3320232020202020202020202037373235203B202020202020202020202020202020202064657070616D203B2020202020202020203332384632,
  0x34323846322D48504152474F454449205954494C4942495441504D4F43204B4A432020312E3320232020202020202020202035313533203B202020202020202020202020202020202064657070616D203B2020202020202020203432384632,
  0x35323846322D48504152474F454449205954494C4942495441504D4F43204B4A432020312E3320232020202020202020202037433235203B202020202020202020202020202020202064657070616D203B2020202020202020203532384632,
  0x36323846322D48504152474F454449205954494C4942495441504D4F43204B4A432020312E3320232020202020202020202039433235203B202020202020202020202020202020202064657070616D203B2020202020202020203632384632,
  0x37323846322D48504152474F454449205954494C4942495441504D4F43204B4A432020312E3320232020202020202020202034453235203B202020202020202020202020202020202064657070616D203B2020202020202020203732384632,
  0x38323846322D48504152474F454449205954494C4942495441504D4F43204B4A432020312E3320232020202020202020202041463235203B202020202020202020202020202020202064657070616D203B2020202020202020203832384632,
  0x39323846322D48504152474F454449205954494C4942495441504D4F43204B4A432020312E3320232020202020202020202035303335203B202020202020202020202020202020202064657070616D203B2020202020202020203932384632,
  0x41323846322D48504152474F454449205954494C4942495441504D4F43204B4A432020312E3320232020202020202020202036303335203B202020202020202020202020202020202064657070616D203B2020202020202020204132384632,
  0x42323846322D48504152474F454449205954494C4942495441504D4F43204B4A432020312E3320232020202020202020202037313335203B202020202020202020202020202020202064657070616D203B2020202020202020204232384632,
  0x43323846322D48504152474F454449205954494C4942495441504D4F43204B4A432020312E3320232020202020202020202039343335203B202020202020202020202020202020202064657070616D203B2020202020202020204332384632,
  0x44323846322D48504152474F454449205954494C4942495441504D4F43204B4A432020312E3320232020202020202020202031353335203B202020202020202020202020202020202064657070616D203B2020202020202020204432384632,
  0x45323846322D48504152474F454449205954494C4942495441504D4F43204B4A432020312E3320232020202020202020202041353335203B202020202020202020202020202020202064657070616D203B2020202020202020204532384632,
  0x46323846322D48504152474F454449205954494C4942495441504D4F43204B4A432020312E3320232020202020202020202033373335203B202020202020202020202020202020202064657070616D203B2020202020202020204632384632,
  0x30333846322D48504152474F454449205954494C4942495441504D4F43204B4A432020312E3320232020202020202020202044373335203B202020202020202020202020202020202064657070616D203B2020202020202020203033384632,
  0x33333846322D48504152474F454449205954494C4942495441504D4F43204B4A432E2E31333846322D48504152474F454449205954494C4942495441504D4F43204B4A432020312E3320232020202020202020202046373335203B202020202020202020202020202020202064657070616D203B202033333846322E2E3133384632,
  0x34333846322D48504152474F454449205954494C4942495441504D4F43204B4A432020312E3320232020202020202020204332413032203B202020202020202020202020202020202064657070616D203B2020202020202020203433384632,
  0x35333846322D48504152474F454449205954494C4942495441504D4F43204B4A432020312E3320232020202020202020202030373037203B202020202020202020202020202020202064657070616D203B2020202020202020203533384632,
  0x36333846322D48504152474F454449205954494C4942495441504D4F43204B4A432020312E3320232020202020202020202041433335203B202020202020202020202020202020202064657070616D203B2020202020202020203633384632,
  0x37333846322D48504152474F454449205954494C4942495441504D4F43204B4A432020312E3320232020202020202020202046443335203B202020202020202020202020202020202064657070616D203B2020202020202020203733384632,
  0x38333846322D48504152474F454449205954494C4942495441504D4F43204B4A432020312E3320232020202020202020203336423032203B202020202020202020202020202020202064657070616D203B2020202020202020203833384632,
  0x39333846322D48504152474F454449205954494C4942495441504D4F43204B4A432020312E3320232020202020202020202042453335203B202020202020202020202020202020202064657070616D203B2020202020202020203933384632,
  0x41333846322D48504152474F454449205954494C4942495441504D4F43204B4A432020312E3320232020202020202020202031463335203B202020202020202020202020202020202064657070616D203B2020202020202020204133384632,
  0x42333846322D48504152474F454449205954494C4942495441504D4F43204B4A432020312E3320232020202020202020202036303435203B202020202020202020202020202020202064657070616D203B2020202020202020204233384632,
  0x43333846322D48504152474F454449205954494C4942495441504D4F43204B4A432020312E3320232020202020202020202045393435203B202020202020202020202020202020202064657070616D203B2020202020202020204333384632,
  0x44333846322D48504152474F454449205954494C4942495441504D4F43204B4A432020312E3320232020202020202020202038333435203B202020202020202020202020202020202064657070616D203B2020202020202020204433384632,
  0x45333846322D48504152474F454449205954494C4942495441504D4F43204B4A432020312E3320232020202020202020202038343435203B202020202020202020202020202020202064657070616D203B2020202020202020204533384632,
  0x46333846322D48504152474F454449205954494C4942495441504D4F43204B4A432020312E3320232020202020202020202038363435203B202020202020202020202020202020202064657070616D203B2020202020202020204633384632,
  0x30343846322D48504152474F454449205954494C4942495441504D4F43204B4A432020312E3320232020202020202020202032413435203B202020202020202020202020202020202064657070616D203B2020202020202020203034384632,
  0x31343846322D48504152474F454449205954494C4942495441504D4F43204B4A432020312E3320232020202020202020202036463435203B202020202020202020202020202020202064657070616D203B2020202020202020203134384632,
  0x32343846322D48504152474F454449205954494C4942495441504D4F43204B4A432020312E3320232020202020202020202030313535203B202020202020202020202020202020202064657070616D203B2020202020202020203234384632,
  0x33343846322D48504152474F454449205954494C4942495441504D4F43204B4A432020312E3320232020202020202020202033353535203B202020202020202020202020202020202064657070616D203B2020202020202020203334384632,
  0x34343846322D48504152474F454449205954494C4942495441504D4F43204B4A432020312E3320232020202020202020202033363535203B202020202020202020202020202020202064657070616D203B2020202020202020203434384632,
  0x36343846322D48504152474F454449205954494C4942495441504D4F43204B4A432E2E35343846322D48504152474F454449205954494C4942495441504D4F43204B4A432020312E3320232020202020202020202034383535203B202020202020202020202020202020202064657070616D203B202036343846322E2E3534384632,
  0x37343846322D48504152474F454449205954494C4942495441504D4F43204B4A432020312E3320232020202020202020202039393535203B202020202020202020202020202020202064657070616D203B2020202020202020203734384632,
  0x38343846322D48504152474F454449205954494C4942495441504D4F43204B4A432020312E3320232020202020202020202042413535203B202020202020202020202020202020202064657070616D203B2020202020202020203834384632,
  0x39343846322D48504152474F454449205954494C4942495441504D4F43204B4A432020312E3320232020202020202020202033423535203B202020202020202020202020202020202064657070616D203B2020202020202020203934384632,
  0x41343846322D48504152474F454449205954494C4942495441504D4F43204B4A432020312E3320232020202020202020202032433535203B202020202020202020202020202020202064657070616D203B2020202020202020204134384632,
  0x42343846322D48504152474F454449205954494C4942495441504D4F43204B4A432020312E3320232020202020202020202036313735203B202020202020202020202020202020202064657070616D203B2020202020202020204234384632,
  0x43343846322D48504152474F454449205954494C4942495441504D4F43204B4A432020312E3320232020202020202020202036303635203B202020202020202020202020202020202064657070616D203B2020202020202020204334384632,
  0x44343846322D48504152474F454449205954494C4942495441504D4F43204B4A432020312E3320232020202020202020202037313735203B202020202020202020202020202020202064657070616D203B2020202020202020204434384632,
  0x45343846322D48504152474F454449205954494C4942495441504D4F43204B4A432020312E3320232020202020202020202031353635203B202020202020202020202020202020202064657070616D203B2020202020202020204534384632,
  0x46343846322D48504152474F454449205954494C4942495441504D4F43204B4A432020312E3320232020202020202020202034373635203B202020202020202020202020202020202064657070616D203B2020202020202020204634384632,
  0x30353846322D48504152474F454449205954494C4942495441504D4F43204B4A432020312E3320232020202020202020202037303235203B202020202020202020202020202020202064657070616D203B2020202020202020203035384632,
  0x31353846322D48504152474F454449205954494C4942495441504D4F43204B4A432020312E3320232020202020202020202045453835203B202020202020202020202020202020202064657070616D203B2020202020202020203135384632,
  0x32353846322D48504152474F454449205954494C4942495441504D4F43204B4A432020312E3320232020202020202020202045433735203B202020202020202020202020202020202064657070616D203B2020202020202020203235384632,
  0x33353846322D48504152474F454449205954494C4942495441504D4F43204B4A432020312E3320232020202020202020202034463735203B202020202020202020202020202020202064657070616D203B2020202020202020203335384632,
  0x34353846322D48504152474F454449205954494C4942495441504D4F43204B4A432020312E3320232020202020202020202044303835203B202020202020202020202020202020202064657070616D203B2020202020202020203435384632,
  0x35353846322D48504152474F454449205954494C4942495441504D4F43204B4A432020312E3320232020202020202020202042383735203B202020202020202020202020202020202064657070616D203B2020202020202020203535384632,
  0x36353846322D48504152474F454449205954494C4942495441504D4F43204B4A432020312E3320232020202020202020202032333835203B202020202020202020202020202020202064657070616D203B2020202020202020203635384632,
  0x37353846322D48504152474F454449205954494C4942495441504D4F43204B4A432020312E3320232020202020202020202031333835203B202020202020202020202020202020202064657070616D203B2020202020202020203735384632,
  0x38353846322D48504152474F454449205954494C4942495441504D4F43204B4A432020312E3320232020202020202020202043413835203B202020202020202020202020202020202064657070616D203B2020202020202020203835384632,
  0x39353846322D48504152474F454449205954494C4942495441504D4F43204B4A432020312E3320232020202020202020203445343132203B202020202020202020202020202020202064657070616D203B2020202020202020203935384632,
  0x41353846322D48504152474F454449205954494C4942495441504D4F43204B4A432020312E3320232020202020202020202032463835203B202020202020202020202020202020202064657070616D203B2020202020202020204135384632,
  0x42353846322D48504152474F454449205954494C4942495441504D4F43204B4A432020312E3320232020202020202020202037463835203B202020202020202020202020202020202064657070616D203B2020202020202020204235384632,
  0x43353846322D48504152474F454449205954494C4942495441504D4F43204B4A432020312E3320232020202020202020202036303935203B202020202020202020202020202020202064657070616D203B2020202020202020204335384632,
  0x44353846322D48504152474F454449205954494C4942495441504D4F43204B4A432020312E3320232020202020202020202041313935203B202020202020202020202020202020202064657070616D203B2020202020202020204435384632,
  0x45353846322D48504152474F454449205954494C4942495441504D4F43204B4A432020312E3320232020202020202020202032323935203B202020202020202020202020202020202064657070616D203B2020202020202020204535384632,
  0x46353846322D48504152474F454449205954494C4942495441504D4F43204B4A432020312E3320232020202020202020202032363935203B202020202020202020202020202020202064657070616D203B2020202020202020204635384632,
  0x30363846322D48504152474F454449205954494C4942495441504D4F43204B4A432020312E3320232020202020202020203841363132203B202020202020202020202020202020202064657070616D203B2020202020202020203036384632,
  0x31363846322D48504152474F454449205954494C4942495441504D4F43204B4A432020312E3320232020202020202020204145363132203B202020202020202020202020202020202064657070616D203B2020202020202020203136384632]

def mapText33 : List Nat := [
  0x32363846322D48504152474F454449205954494C4942495441504D4F43204B4A432020312E3320232020202020202020202043453935203B202020202020202020202020202020202064657070616D203B2020202020202020203236384632,
  0x33363846322D48504152474F454449205954494C4942495441504D4F43204B4A432020312E3320232020202020202020202042314135203B202020202020202020202020202020202064657070616D203B2020202020202020203336384632,
  0x34363846322D48504152474F454449205954494C4942495441504D4F43204B4A432020312E3320232020202020202020202037324135203B202020202020202020202020202020202064657070616D203B2020202020202020203436384632,
  0x35363846322D48504152474F454449205954494C4942495441504D4F43204B4A432020312E3320232020202020202020202038443935203B202020202020202020202020202020202064657070616D203B2020202020202020203536384632,
  0x36363846322D48504152474F454449205954494C4942495441504D4F43204B4A432020312E3320232020202020202020202036364135203B202020202020202020202020202020202064657070616D203B2020202020202020203636384632,
  0x37363846322D48504152474F454449205954494C4942495441504D4F43204B4A432020312E3320232020202020202020202045453633203B202020202020202020202020202020202064657070616D203B2020202020202020203736384632,
  0x38363846322D48504152474F454449205954494C4942495441504D4F43204B4A432020312E33202320202020202020202020202020202020202020202020202020202020206465776F6C6C61736964203B2020202020202020203836384632,
  0x39363846322D48504152474F454449205954494C4942495441504D4F43204B4A432020312E3320232020202020202020202038304235203B202020202020202020202020202020202064657070616D203B2020202020202020203936384632,
  0x42363846322D48504152474F454449205954494C4942495441504D4F43204B4A432E2E41363846322D48504152474F454449205954494C4942495441504D4F43204B4A432020312E3320232020202020202020202045334235203B202020202020202020202020202020202064657070616D203B202042363846322E2E4136384632,
  0x43363846322D48504152474F454449205954494C4942495441504D4F43204B4A432020312E3320232020202020202020203843393132203B202020202020202020202020202020202064657070616D203B2020202020202020204336384632,
  0x44363846322D48504152474F454449205954494C4942495441504D4F43204B4A432020312E3320232020202020202020202033434235203B202020202020202020202020202020202064657070616D203B2020202020202020204436384632,
  0x45363846322D48504152474F454449205954494C4942495441504D4F43204B4A432020312E3320232020202020202020202038444235203B202020202020202020202020202020202064657070616D203B2020202020202020204536384632,
  0x46363846322D48504152474F454449205954494C4942495441504D4F43204B4A432020312E3320232020202020202020202037454235203B202020202020202020202020202020202064657070616D203B2020202020202020204636384632,
  0x30373846322D48504152474F454449205954494C4942495441504D4F43204B4A432020312E3320232020202020202020202033464235203B202020202020202020202020202020202064657070616D203B2020202020202020203037384632,
  0x31373846322D48504152474F454449205954494C4942495441504D4F43204B4A432020312E3320232020202020202020203831423132203B202020202020202020202020202020202064657070616D203B2020202020202020203137384632,
  0x32373846322D48504152474F454449205954494C4942495441504D4F43204B4A432020312E3320232020202020202020202046464235203B202020202020202020202020202020202064657070616D203B2020202020202020203237384632,
  0x33373846322D48504152474F454449205954494C4942495441504D4F43204B4A432020312E3320232020202020202020202036304335203B202020202020202020202020202020202064657070616D203B2020202020202020203337384632,
  0x34373846322D48504152474F454449205954494C4942495441504D4F43204B4A432020312E33202320202020202020202020202020202020202020202020202020202020206465776F6C6C61736964203B2020202020202020203437384632,
  0x35373846322D48504152474F454449205954494C4942495441504D4F43204B4A432020312E3320232020202020202020202032324335203B202020202020202020202020202020202064657070616D203B2020202020202020203537384632,
  0x36373846322D48504152474F454449205954494C4942495441504D4F43204B4A432020312E3320232020202020202020202031383733203B202020202020202020202020202020202064657070616D203B2020202020202020203637384632,
  0x37373846322D48504152474F454449205954494C4942495441504D4F43204B4A432020312E3320232020202020202020202030364335203B202020202020202020202020202020202064657070616D203B2020202020202020203737384632,
  0x38373846322D48504152474F454449205954494C4942495441504D4F43204B4A432020312E3320232020202020202020202045364335203B202020202020202020202020202020202064657070616D203B2020202020202020203837384632,
  0x39373846322D48504152474F454449205954494C4942495441504D4F43204B4A432020312E3320232020202020202020202030434335203B202020202020202020202020202020202064657070616D203B2020202020202020203937384632,
  0x41373846322D48504152474F454449205954494C4942495441504D4F43204B4A432020312E3320232020202020202020202044384335203B202020202020202020202020202020202064657070616D203B2020202020202020204137384632,
  0x42373846322D48504152474F454449205954494C4942495441504D4F43204B4A432020312E3320232020202020202020203445443132203B202020202020202020202020202020202064657070616D203B2020202020202020204237384632,
  0x43373846322D48504152474F454449205954494C4942495441504D4F43204B4A432020312E3320232020202020202020202033344435203B202020202020202020202020202020202064657070616D203B2020202020202020204337384632,
  0x44373846322D48504152474F454449205954494C4942495441504D4F43204B4A432020312E3320232020202020202020203645443132203B202020202020202020202020202020202064657070616D203B2020202020202020204437384632,
  0x45373846322D48504152474F454449205954494C4942495441504D4F43204B4A432020312E3320232020202020202020202045364435203B202020202020202020202020202020202064657070616D203B2020202020202020204537384632,
  0x46373846322D48504152474F454449205954494C4942495441504D4F43204B4A432020312E3320232020202020202020202042364435203B202020202020202020202020202020202064657070616D203B2020202020202020204637384632,
  0x30383846322D48504152474F454449205954494C4942495441504D4F43204B4A432020312E3320232020202020202020202043374435203B202020202020202020202020202020202064657070616D203B2020202020202020203038384632,
  0x31383846322D48504152474F454449205954494C4942495441504D4F43204B4A432020312E3320232020202020202020202031454435203B202020202020202020202020202020202064657070616D203B2020202020202020203138384632,
  0x32383846322D48504152474F454449205954494C4942495441504D4F43204B4A432020312E3320232020202020202020202032454435203B202020202020202020202020202020202064657070616D203B2020202020202020203238384632,
  0x33383846322D48504152474F454449205954494C4942495441504D4F43204B4A432020312E3320232020202020202020202046323833203B202020202020202020202020202020202064657070616D203B2020202020202020203338384632,
  0x34383846322D48504152474F454449205954494C4942495441504D4F43204B4A432020312E3320232020202020202020202044464435203B202020202020202020202020202020202064657070616D203B2020202020202020203438384632,
  0x35383846322D48504152474F454449205954494C4942495441504D4F43204B4A432020312E3320232020202020202020202038324535203B202020202020202020202020202020202064657070616D203B2020202020202020203538384632,
  0x36383846322D48504152474F454449205954494C4942495441504D4F43204B4A432020312E3320232020202020202020202044334535203B202020202020202020202020202020202064657070616D203B2020202020202020203638384632,
  0x37383846322D48504152474F454449205954494C4942495441504D4F43204B4A432020312E3320232020202020202020202039364535203B202020202020202020202020202020202064657070616D203B2020202020202020203738384632,
  0x38383846322D48504152474F454449205954494C4942495441504D4F43204B4A432020312E3320232020202020202020202032363833203B202020202020202020202020202020202064657070616D203B2020202020202020203838384632,
  0x39383846322D48504152474F454449205954494C4942495441504D4F43204B4A432020312E3320232020202020202020203338313232203B202020202020202020202020202020202064657070616D203B2020202020202020203938384632,
  0x41383846322D48504152474F454449205954494C4942495441504D4F43204B4A432020312E3320232020202020202020202043373833203B202020202020202020202020202020202064657070616D203B2020202020202020204138384632,
  0x42383846322D48504152474F454449205954494C4942495441504D4F43204B4A432020312E3320232020202020202020202030424535203B202020202020202020202020202020202064657070616D203B2020202020202020204238384632,
  0x43383846322D48504152474F454449205954494C4942495441504D4F43204B4A432020312E3320232020202020202020202033424535203B202020202020202020202020202020202064657070616D203B2020202020202020204338384632,
  0x44383846322D48504152474F454449205954494C4942495441504D4F43204B4A432020312E3320232020202020202020202036424535203B202020202020202020202020202020202064657070616D203B2020202020202020204438384632,
  0x45383846322D48504152474F454449205954494C4942495441504D4F43204B4A432020312E3320232020202020202020202041434535203B202020202020202020202020202020202064657070616D203B2020202020202020204538384632,
  0x46383846322D48504152474F454449205954494C4942495441504D4F43204B4A432020312E3320232020202020202020203239334132203B202020202020202020202020202020202064657070616D203B2020202020202020204638384632,
  0x30393846322D48504152474F454449205954494C4942495441504D4F43204B4A432020312E3320232020202020202020202045464535203B202020202020202020202020202020202064657070616D203B2020202020202020203039384632,
  0x32393846322D48504152474F454449205954494C4942495441504D4F43204B4A432E2E31393846322D48504152474F454449205954494C4942495441504D4F43204B4A432020312E3320232020202020202020203133333232203B202020202020202020202020202020202064657070616D203B202032393846322E2E3139384632,
  0x33393846322D48504152474F454449205954494C4942495441504D4F43204B4A432020312E3320232020202020202020202031303238203B202020202020202020202020202020202064657070616D203B2020202020202020203339384632,
  0x35393846322D48504152474F454449205954494C4942495441504D4F43204B4A432E2E34393846322D48504152474F454449205954494C4942495441504D4F43204B4A432020312E3320232020202020202020202032324635203B202020202020202020202020202020202064657070616D203B202035393846322E2E3439384632,
  0x36393846322D48504152474F454449205954494C4942495441504D4F43204B4A432020312E3320232020202020202020202037433833203B202020202020202020202020202020202064657070616D203B2020202020202020203639384632,
  0x37393846322D48504152474F454449205954494C4942495441504D4F43204B4A432020312E3320232020202020202020203842323332203B202020202020202020202020202020202064657070616D203B2020202020202020203739384632,
  0x38393846322D48504152474F454449205954494C4942495441504D4F43204B4A432020312E3320232020202020202020204144313632203B202020202020202020202020202020202064657070616D203B2020202020202020203839384632,
  0x39393846322D48504152474F454449205954494C4942495441504D4F43204B4A432020312E3320232020202020202020202032364635203B202020202020202020202020202020202064657070616D203B2020202020202020203939384632,
  0x41393846322D48504152474F454449205954494C4942495441504D4F43204B4A432020312E3320232020202020202020202042364635203B202020202020202020202020202020202064657070616D203B2020202020202020204139384632,
  0x42393846322D48504152474F454449205954494C4942495441504D4F43204B4A432020312E3320232020202020202020202033453833203B202020202020202020202020202020202064657070616D203B2020202020202020204239384632,
  0x43393846322D48504152474F454449205954494C4942495441504D4F43204B4A432020312E3320232020202020202020202041394635203B202020202020202020202020202020202064657070616D203B2020202020202020204339384632,
  0x44393846322D48504152474F454449205954494C4942495441504D4F43204B4A432020312E3320232020202020202020202044434635203B202020202020202020202020202020202064657070616D203B2020202020202020204439384632,
  0x45393846322D48504152474F454449205954494C4942495441504D4F43204B4A432020312E3320232020202020202020202037444635203B202020202020202020202020202020202064657070616D203B2020202020202020204539384632,
  0x46393846322D48504152474F454449205954494C4942495441504D4F43204B4A432020312E3320232020202020202020202039464635203B202020202020202020202020202020202064657070616D203B2020202020202020204639384632,
  0x30413846322D48504152474F454449205954494C4942495441504D4F43204B4A432020312E3320232020202020202020202031383036203B202020202020202020202020202020202064657070616D203B2020202020202020203041384632,
  0x31413846322D48504152474F454449205954494C4942495441504D4F43204B4A432020312E3320232020202020202020202041333933203B202020202020202020202020202020202064657070616D203B2020202020202020203141384632,
  0x32413846322D48504152474F454449205954494C4942495441504D4F43204B4A432020312E3320232020202020202020202043313933203B202020202020202020202020202020202064657070616D203B2020202020202020203241384632,
  0x33413846322D48504152474F454449205954494C4942495441504D4F43204B4A432020312E3320232020202020202020202034393036203B202020202020202020202020202020202064657070616D203B2020202020202020203341384632,
  0x34413846322D48504152474F454449205954494C4942495441504D4F43204B4A432020312E3320232020202020202020203444363232203B202020202020202020202020202020202064657070616D203B2020202020202020203441384632,
  0x35413846322D48504152474F454449205954494C4942495441504D4F43204B4A432020312E3320232020202020202020202037433036203B202020202020202020202020202020202064657070616D203B2020202020202020203541384632,
  0x36413846322D48504152474F454449205954494C4942495441504D4F43204B4A432020312E3320232020202020202020202038343136203B202020202020202020202020202020202064657070616D203B2020202020202020203641384632,
  0x37413846322D48504152474F454449205954494C4942495441504D4F43204B4A432020312E3320232020202020202020202043343136203B202020202020202020202020202020202064657070616D203B2020202020202020203741384632,
  0x38413846322D48504152474F454449205954494C4942495441504D4F43204B4A432020312E3320232020202020202020202045343136203B202020202020202020202020202020202064657070616D203B2020202020202020203841384632,
  0x39413846322D48504152474F454449205954494C4942495441504D4F43204B4A432020312E3320232020202020202020202043343136203B202020202020202020202020202020202064657070616D203B2020202020202020203941384632,
  0x41413846322D48504152474F454449205954494C4942495441504D4F43204B4A432020312E3320232020202020202020202041373136203B202020202020202020202020202020202064657070616D203B2020202020202020204141384632,
  0x42413846322D48504152474F454449205954494C4942495441504D4F43204B4A432020312E3320232020202020202020202045383136203B202020202020202020202020202020202064657070616D203B2020202020202020204241384632,
  0x43413846322D48504152474F454449205954494C4942495441504D4F43204B4A432020312E3320232020202020202020202032423136203B202020202020202020202020202020202064657070616D203B2020202020202020204341384632,
  0x44413846322D48504152474F454449205954494C4942495441504D4F43204B4A432020312E3320232020202020202020202034413136203B202020202020202020202020202020202064657070616D203B2020202020202020204441384632,
  0x45413846322D48504152474F454449205954494C4942495441504D4F43204B4A432020312E3320232020202020202020202046413136203B202020202020202020202020202020202064657070616D203B2020202020202020204541384632,
  0x46413846322D48504152474F454449205954494C4942495441504D4F43204B4A432020312E3320232020202020202020202045443136203B202020202020202020202020202020202064657070616D203B2020202020202020204641384632,
  0x30423846322D48504152474F454449205954494C4942495441504D4F43204B4A432020312E3320232020202020202020202032463136203B202020202020202020202020202020202064657070616D203B2020202020202020203042384632,
  0x31423846322D48504152474F454449205954494C4942495441504D4F43204B4A432020312E3320232020202020202020202036463136203B202020202020202020202020202020202064657070616D203B2020202020202020203142384632,
  0x32423846322D48504152474F454449205954494C4942495441504D4F43204B4A432020312E3320232020202020202020202030313236203B202020202020202020202020202020202064657070616D203B2020202020202020203242384632,
  0x33423846322D48504152474F454449205954494C4942495441504D4F43204B4A432020312E3320232020202020202020202042313236203B202020202020202020202020202020202064657070616D203B2020202020202020203342384632,
  0x34423846322D48504152474F454449205954494C4942495441504D4F43204B4A432020312E3320232020202020202020202044353236203B202020202020202020202020202020202064657070616D203B2020202020202020203442384632,
  0x35423846322D48504152474F454449205954494C4942495441504D4F43204B4A432020312E3320232020202020202020202031423236203B202020202020202020202020202020202064657070616D203B2020202020202020203542384632,
  0x36423846322D48504152474F454449205954494C4942495441504D4F43204B4A432020312E3320232020202020202020202034443236203B202020202020202020202020202020202064657070616D203B2020202020202020203642384632,
  0x37423846322D48504152474F454449205954494C4942495441504D4F43204B4A432020312E3320232020202020202020202030353336203B202020202020202020202020202020202064657070616D203B2020202020202020203742384632,
  0x38423846322D48504152474F454449205954494C4942495441504D4F43204B4A432020312E3320232020202020202020204330423232203B202020202020202020202020202020202064657070616D203B2020202020202020203842384632,
  0x39423846322D48504152474F454449205954494C4942495441504D4F43204B4A432020312E3320232020202020202020202044333336203B202020202020202020202020202020202064657070616D203B2020202020202020203942384632,
  0x41423846322D48504152474F454449205954494C4942495441504D4F43204B4A432020312E3320232020202020202020202043463236203B202020202020202020202020202020202064657070616D203B2020202020202020204142384632,
  0x42423846322D48504152474F454449205954494C4942495441504D4F43204B4A432020312E3320232020202020202020202038363336203B202020202020202020202020202020202064657070616D203B2020202020202020204242384632,
  0x43423846322D48504152474F454449205954494C4942495441504D4F43204B4A432020312E3320232020202020202020202033383336203B202020202020202020202020202020202064657070616D203B2020202020202020204342384632,
  0x44423846322D48504152474F454449205954494C4942495441504D4F43204B4A432020312E3320232020202020202020202034453336203B202020202020202020202020202020202064657070616D203B2020202020202020204442384632,
  0x45423846322D48504152474F454449205954494C4942495441504D4F43204B4A432020312E3320232020202020202020203146423232203B202020202020202020202020202020202064657070616D203B2020202020202020204542384632,
  0x46423846322D48504152474F454449205954494C4942495441504D4F43204B4A432020312E3320232020202020202020202032323436203B202020202020202020202020202020202064657070616D203B2020202020202020204642384632,
  0x30433846322D48504152474F454449205954494C4942495441504D4F43204B4A432020312E3320232020202020202020202035433336203B202020202020202020202020202020202064657070616D203B2020202020202020203043384632,
  0x31433846322D48504152474F454449205954494C4942495441504D4F43204B4A432020312E3320232020202020202020202039413336203B202020202020202020202020202020202064657070616D203B2020202020202020203143384632,
  0x32433846322D48504152474F454449205954494C4942495441504D4F43204B4A432020312E3320232020202020202020202045324133203B202020202020202020202020202020202064657070616D203B2020202020202020203243384632,
  0x33433846322D48504152474F454449205954494C4942495441504D4F43204B4A432020312E3320232020202020202020202039363436203B202020202020202020202020202020202064657070616D203B2020202020202020203343384632,
  0x34433846322D48504152474F454449205954494C4942495441504D4F43204B4A432020312E3320232020202020202020202045373436203B202020202020202020202020202020202064657070616D203B2020202020202020203443384632,
  0x35433846322D48504152474F454449205954494C4942495441504D4F43204B4A432020312E3320232020202020202020202044393436203B202020202020202020202020202020202064657070616D203B2020202020202020203543384632,
  0x36433846322D48504152474F454449205954494C4942495441504D4F43204B4A432020312E3320232020202020202020202037373436203B202020202020202020202020202020202064657070616D203B2020202020202020203643384632,
  0x37433846322D48504152474F454449205954494C4942495441504D4F43204B4A432020312E3320232020202020202020202043364133203B202020202020202020202020202020202064657070616D203B2020202020202020203743384632,
  0x38433846322D48504152474F454449205954494C4942495441504D4F43204B4A432020312E3320232020202020202020202046343536203B202020202020202020202020202020202064657070616D203B2020202020202020203843384632,
  0x39433846322D48504152474F454449205954494C4942495441504D4F43204B4A432020312E3320232020202020202020202043363536203B202020202020202020202020202020202064657070616D203B2020202020202020203943384632,
  0x41433846322D48504152474F454449205954494C4942495441504D4F43204B4A432020312E3320232020202020202020204130303332203B202020202020202020202020202020202064657070616D203B2020202020202020204143384632,
  0x42433846322D48504152474F454449205954494C4942495441504D4F43204B4A432020312E3320232020202020202020202033453536203B202020202020202020202020202020202064657070616D203B2020202020202020204243384632,
  0x43433846322D48504152474F454449205954494C4942495441504D4F43204B4A432020312E3320232020202020202020202038463636203B202020202020202020202020202020202064657070616D203B2020202020202020204343384632,
  0x44433846322D48504152474F454449205954494C4942495441504D4F43204B4A432020312E3320232020202020202020202039343636203B202020202020202020202020202020202064657070616D203B2020202020202020204443384632,
  0x45433846322D48504152474F454449205954494C4942495441504D4F43204B4A432020312E3320232020202020202020202039314233203B202020202020202020202020202020202064657070616D203B2020202020202020204543384632,
  0x46433846322D48504152474F454449205954494C4942495441504D4F43204B4A432020312E3320232020202020202020202031393636203B202020202020202020202020202020202064657070616D203B2020202020202020204643384632,
  0x30443846322D48504152474F454449205954494C4942495441504D4F43204B4A432020312E3320232020202020202020202038304233203B202020202020202020202020202020202064657070616D203B2020202020202020203044384632,
  0x31443846322D48504152474F454449205954494C4942495441504D4F43204B4A432020312E3320232020202020202020202034454133203B202020202020202020202020202020202064657070616D203B2020202020202020203144384632,
  0x32443846322D48504152474F454449205954494C4942495441504D4F43204B4A432020312E3320232020202020202020202032393135203B202020202020202020202020202020202064657070616D203B2020202020202020203244384632,
  0x33443846322D48504152474F454449205954494C4942495441504D4F43204B4A432020312E3320232020202020202020202035393135203B202020202020202020202020202020202064657070616D203B2020202020202020203344384632,
  0x34443846322D48504152474F454449205954494C4942495441504D4F43204B4A432020312E3320232020202020202020202030303736203B202020202020202020202020202020202064657070616D203B2020202020202020203444384632,
  0x35443846322D48504152474F454449205954494C4942495441504D4F43204B4A432020312E3320232020202020202020202043393636203B202020202020202020202020202020202064657070616D203B2020202020202020203544384632,
  0x36443846322D48504152474F454449205954494C4942495441504D4F43204B4A432020312E3320232020202020202020202044413038203B202020202020202020202020202020202064657070616D203B2020202020202020203644384632,
  0x37443846322D48504152474F454449205954494C4942495441504D4F43204B4A432020312E3320232020202020202020202039443334203B202020202020202020202020202020202064657070616D203B2020202020202020203744384632,
  0x38443846322D48504152474F454449205954494C4942495441504D4F43204B4A432020312E3320232020202020202020202037313736203B202020202020202020202020202020202064657070616D203B2020202020202020203844384632,
  0x39443846322D48504152474F454449205954494C4942495441504D4F43204B4A432020312E3320232020202020202020202042313736203B202020202020202020202020202020202064657070616D203B2020202020202020203944384632,
  0x41443846322D48504152474F454449205954494C4942495441504D4F43204B4A432020312E3320232020202020202020202031323736203B202020202020202020202020202020202064657070616D203B2020202020202020204144384632,
  0x42443846322D48504152474F454449205954494C4942495441504D4F43204B4A432020312E3320232020202020202020202045353736203B202020202020202020202020202020202064657070616D203B2020202020202020204244384632,
  0x43443846322D48504152474F454449205954494C4942495441504D4F43204B4A432020312E3320232020202020202020202033353736203B202020202020202020202020202020202064657070616D203B2020202020202020204344384632,
  0x44443846322D48504152474F454449205954494C4942495441504D4F43204B4A432020312E3320232020202020202020203343333332203B202020202020202020202020202020202064657070616D203B2020202020202020204444384632,
  0x45443846322D48504152474F454449205954494C4942495441504D4F43204B4A432020312E3320232020202020202020202039344233203B202020202020202020202020202020202064657070616D203B2020202020202020204544384632,
  0x46443846322D48504152474F454449205954494C4942495441504D4F43204B4A432020312E3320232020202020202020202041463736203B202020202020202020202020202020202064657070616D203B2020202020202020204644384632,
  0x30453846322D48504152474F454449205954494C4942495441504D4F43204B4A432020312E3320232020202020202020202035383736203B202020202020202020202020202020202064657070616D203B2020202020202020203045384632,
  0x31453846322D48504152474F454449205954494C4942495441504D4F43204B4A432020312E3320232020202020202020202032353836203B202020202020202020202020202020202064657070616D203B2020202020202020203145384632,
  0x32453846322D48504152474F454449205954494C4942495441504D4F43204B4A432020312E3320232020202020202020202035383836203B202020202020202020202020202020202064657070616D203B2020202020202020203245384632,
  0x33453846322D48504152474F454449205954494C4942495441504D4F43204B4A432020312E3320232020202020202020204436343332203B202020202020202020202020202020202064657070616D203B2020202020202020203345384632,
  0x34453846322D48504152474F454449205954494C4942495441504D4F43204B4A432020312E3320232020202020202020202045383836203B202020202020202020202020202020202064657070616D203B2020202020202020203445384632,
  0x35453846322D48504152474F454449205954494C4942495441504D4F43204B4A432020312E3320232020202020202020202046313836203B202020202020202020202020202020202064657070616D203B2020202020202020203545384632,
  0x36453846322D48504152474F454449205954494C4942495441504D4F43204B4A432020312E3320232020202020202020202034313936203B202020202020202020202020202020202064657070616D203B2020202020202020203645384632,
  0x37453846322D48504152474F454449205954494C4942495441504D4F43204B4A432020312E3320232020202020202020202044394233203B202020202020202020202020202020202064657070616D203B2020202020202020203745384632,
  0x38453846322D48504152474F454449205954494C4942495441504D4F43204B4A432020312E3320232020202020202020202032343936203B202020202020202020202020202020202064657070616D203B2020202020202020203845384632,
  0x39453846322D48504152474F454449205954494C4942495441504D4F43204B4A432020312E3320232020202020202020202033413936203B202020202020202020202020202020202064657070616D203B2020202020202020203945384632,
  0x41453846322D48504152474F454449205954494C4942495441504D4F43204B4A432020312E3320232020202020202020202041453936203B202020202020202020202020202020202064657070616D203B2020202020202020204145384632,
  0x42453846322D48504152474F454449205954494C4942495441504D4F43204B4A432020312E3320232020202020202020202038414136203B202020202020202020202020202020202064657070616D203B2020202020202020204245384632,
  0x43453846322D48504152474F454449205954494C4942495441504D4F43204B4A432020312E3320232020202020202020203341363332203B202020202020202020202020202020202064657070616D203B2020202020202020204345384632,
  0x44453846322D48504152474F454449205954494C4942495441504D4F43204B4A432020312E3320232020202020202020202042444136203B202020202020202020202020202020202064657070616D203B2020202020202020204445384632,
  0x45453846322D48504152474F454449205954494C4942495441504D4F43204B4A432020312E3320232020202020202020202038314333203B202020202020202020202020202020202064657070616D203B2020202020202020204545384632,
  0x46453846322D48504152474F454449205954494C4942495441504D4F43204B4A432020312E3320232020202020202020202031324236203B202020202020202020202020202020202064657070616D203B2020202020202020204645384632,
  0x30463846322D48504152474F454449205954494C4942495441504D4F43204B4A432020312E3320232020202020202020203741383332203B202020202020202020202020202020202064657070616D203B2020202020202020203046384632,
  0x31463846322D48504152474F454449205954494C4942495441504D4F43204B4A432020312E3320232020202020202020202034354236203B202020202020202020202020202020202064657070616D203B2020202020202020203146384632,
  0x32463846322D48504152474F454449205954494C4942495441504D4F43204B4A432020312E3320232020202020202020202045344333203B202020202020202020202020202020202064657070616D203B2020202020202020203246384632,
  0x33463846322D48504152474F454449205954494C4942495441504D4F43204B4A432020312E3320232020202020202020202032374236203B202020202020202020202020202020202064657070616D203B2020202020202020203346384632,
  0x34463846322D48504152474F454449205954494C4942495441504D4F43204B4A432020312E3320232020202020202020202046394236203B202020202020202020202020202020202064657070616D203B2020202020202020203446384632,
  0x35463846322D48504152474F454449205954494C4942495441504D4F43204B4A432020312E3320232020202020202020202041424236203B202020202020202020202020202020202064657070616D203B2020202020202020203546384632,
  0x36463846322D48504152474F454449205954494C4942495441504D4F43204B4A432020312E3320232020202020202020202042424236203B202020202020202020202020202020202064657070616D203B2020202020202020203646384632,
  0x37463846322D48504152474F454449205954494C4942495441504D4F43204B4A432020312E3320232020202020202020204438413332203B202020202020202020202020202020202064657070616D203B2020202020202020203746384632,
  0x38463846322D48504152474F454449205954494C4942495441504D4F43204B4A432020312E3320232020202020202020204230443132203B202020202020202020202020202020202064657070616D203B2020202020202020203846384632,
  0x39463846322D48504152474F454449205954494C4942495441504D4F43204B4A432020312E3320232020202020202020204146413332203B202020202020202020202020202020202064657070616D203B2020202020202020203946384632,
  0x41463846322D48504152474F454449205954494C4942495441504D4F43204B4A432020312E3320232020202020202020202045344336203B202020202020202020202020202020202064657070616D203B2020202020202020204146384632,
  0x42463846322D48504152474F454449205954494C4942495441504D4F43204B4A432020312E3320232020202020202020204342433332203B202020202020202020202020202020202064657070616D203B2020202020202020204246384632,
  0x43463846322D48504152474F454449205954494C4942495441504D4F43204B4A432020312E3320232020202020202020202046424336203B202020202020202020202020202020202064657070616D203B2020202020202020204346384632,
  0x44463846322D48504152474F454449205954494C4942495441504D4F43204B4A432020312E3320232020202020202020202044434336203B202020202020202020202020202020202064657070616D203B2020202020202020204446384632,
  0x45463846322D48504152474F454449205954494C4942495441504D4F43204B4A432020312E3320232020202020202020202037364336203B202020202020202020202020202020202064657070616D203B2020202020202020204546384632,
  0x46463846322D48504152474F454449205954494C4942495441504D4F43204B4A432020312E3320232020202020202020202036314436203B202020202020202020202020202020202064657070616D203B2020202020202020204646384632,
  0x30303946322D48504152474F454449205954494C4942495441504D4F43204B4A432020312E3320232020202020202020202045334436203B202020202020202020202020202020202064657070616D203B2020202020202020203030394632,
  0x31303946322D48504152474F454449205954494C4942495441504D4F43204B4A432020312E3320232020202020202020202037374436203B202020202020202020202020202020202064657070616D203B2020202020202020203130394632,
  0x32303946322D48504152474F454449205954494C4942495441504D4F43204B4A432020312E3320232020202020202020202031344436203B202020202020202020202020202020202064657070616D203B2020202020202020203230394632,
  0x33303946322D48504152474F454449205954494C4942495441504D4F43204B4A432020312E3320232020202020202020202039364436203B202020202020202020202020202020202064657070616D203B2020202020202020203330394632,
  0x34303946322D48504152474F454449205954494C4942495441504D4F43204B4A432020312E3320232020202020202020202038374436203B202020202020202020202020202020202064657070616D203B2020202020202020203430394632,
  0x35303946322D48504152474F454449205954494C4942495441504D4F43204B4A432020312E3320232020202020202020202035384436203B202020202020202020202020202020202064657070616D203B2020202020202020203530394632,
  0x36303946322D48504152474F454449205954494C4942495441504D4F43204B4A432020312E3320232020202020202020204531443332203B202020202020202020202020202020202064657070616D203B2020202020202020203630394632,
  0x37303946322D48504152474F454449205954494C4942495441504D4F43204B4A432020312E3320232020202020202020202034334436203B202020202020202020202020202020202064657070616D203B2020202020202020203730394632,
  0x38303946322D48504152474F454449205954494C4942495441504D4F43204B4A432020312E3320232020202020202020202046324536203B202020202020202020202020202020202064657070616D203B2020202020202020203830394632,
  0x39303946322D48504152474F454449205954494C4942495441504D4F43204B4A432020312E3320232020202020202020202045364536203B202020202020202020202020202020202064657070616D203B2020202020202020203930394632,
  0x41303946322D48504152474F454449205954494C4942495441504D4F43204B4A432020312E3320232020202020202020202033334433203B202020202020202020202020202020202064657070616D203B2020202020202020204130394632,
  0x42303946322D48504152474F454449205954494C4942495441504D4F43204B4A432020312E3320232020202020202020202042434536203B202020202020202020202020202020202064657070616D203B2020202020202020204230394632,
  0x43303946322D48504152474F454449205954494C4942495441504D4F43204B4A432020312E3320232020202020202020202037434536203B202020202020202020202020202020202064657070616D203B2020202020202020204330394632,
  0x44303946322D48504152474F454449205954494C4942495441504D4F43204B4A432020312E3320232020202020202020203144453332203B202020202020202020202020202020202064657070616D203B2020202020202020204430394632,
  0x45303946322D48504152474F454449205954494C4942495441504D4F43204B4A432020312E3320232020202020202020202039464436203B202020202020202020202020202020202064657070616D203B2020202020202020204530394632,
  0x46303946322D48504152474F454449205954494C4942495441504D4F43204B4A432020312E3320232020202020202020202045364636203B202020202020202020202020202020202064657070616D203B2020202020202020204630394632,
  0x30313946322D48504152474F454449205954494C4942495441504D4F43204B4A432020312E3320232020202020202020204535463332203B202020202020202020202020202020202064657070616D203B2020202020202020203031394632,
  0x31313946322D48504152474F454449205954494C4942495441504D4F43204B4A432020312E3320232020202020202020204538463332203B202020202020202020202020202020202064657070616D203B2020202020202020203131394632,
  0x32313946322D48504152474F454449205954494C4942495441504D4F43204B4A432020312E3320232020202020202020202036434636203B202020202020202020202020202020202064657070616D203B2020202020202020203231394632,
  0x33313946322D48504152474F454449205954494C4942495441504D4F43204B4A432020312E3320232020202020202020202039333037203B202020202020202020202020202020202064657070616D203B2020202020202020203331394632,
  0x34313946322D48504152474F454449205954494C4942495441504D4F43204B4A432020312E3320232020202020202020202045313037203B202020202020202020202020202020202064657070616D203B2020202020202020203431394632,
  0x35313946322D48504152474F454449205954494C4942495441504D4F43204B4A432020312E3320232020202020202020202042313037203B202020202020202020202020202020202064657070616D203B2020202020202020203531394632,
  0x36313946322D48504152474F454449205954494C4942495441504D4F43204B4A432020312E3320232020202020202020202036394433203B202020202020202020202020202020202064657070616D203B2020202020202020203631394632,
  0x37313946322D48504152474F454449205954494C4942495441504D4F43204B4A432020312E3320232020202020202020202041343037203B202020202020202020202020202020202064657070616D203B2020202020202020203731394632,
  0x38313946322D48504152474F454449205954494C4942495441504D4F43204B4A432020312E3320232020202020202020202044373037203B202020202020202020202020202020202064657070616D203B2020202020202020203831394632,
  0x39313946322D48504152474F454449205954494C4942495441504D4F43204B4A432020312E3320232020202020202020202037373037203B202020202020202020202020202020202064657070616D203B2020202020202020203931394632,
  0x41313946322D48504152474F454449205954494C4942495441504D4F43204B4A432020312E3320232020202020202020202044413037203B202020202020202020202020202020202064657070616D203B2020202020202020204131394632,
  0x42313946322D48504152474F454449205954494C4942495441504D4F43204B4A432020312E3320232020202020202020203532353032203B202020202020202020202020202020202064657070616D203B2020202020202020204231394632,
  0x43313946322D48504152474F454449205954494C4942495441504D4F43204B4A432020312E3320232020202020202020202035343137203B202020202020202020202020202020202064657070616D203B2020202020202020204331394632,
  0x44313946322D48504152474F454449205954494C4942495441504D4F43204B4A432020312E3320232020202020202020203336323432203B202020202020202020202020202020202064657070616D203B2020202020202020204431394632,
  0x45313946322D48504152474F454449205954494C4942495441504D4F43204B4A432020312E3320232020202020202020202043393137203B202020202020202020202020202020202064657070616D203B2020202020202020204531394632,
  0x46313946322D48504152474F454449205954494C4942495441504D4F43204B4A432020312E33202320202020202020202020202020202020202020202020202020202020206465776F6C6C61736964203B2020202020202020204631394632,
  0x30323946322D48504152474F454449205954494C4942495441504D4F43204B4A432020312E3320232020202020202020202038323237203B202020202020202020202020202020202064657070616D203B2020202020202020203032394632,
  0x31323946322D48504152474F454449205954494C4942495441504D4F43204B4A432020312E3320232020202020202020202035333237203B202020202020202020202020202020202064657070616D203B2020202020202020203132394632,
  0x32323946322D48504152474F454449205954494C4942495441504D4F43204B4A432020312E3320232020202020202020202030353237203B202020202020202020202020202020202064657070616D203B2020202020202020203232394632,
  0x33323946322D48504152474F454449205954494C4942495441504D4F43204B4A432020312E3320232020202020202020203830363432203B202020202020202020202020202020202064657070616D203B2020202020202020203332394632,
  0x34323946322D48504152474F454449205954494C4942495441504D4F43204B4A432020312E3320232020202020202020202030383237203B202020202020202020202020202020202064657070616D203B2020202020202020203432394632,
  0x35323946322D48504152474F454449205954494C4942495441504D4F43204B4A432020312E3320232020202020202020202035393237203B202020202020202020202020202020202064657070616D203B2020202020202020203532394632,
  0x36323946322D48504152474F454449205954494C4942495441504D4F43204B4A432020312E3320232020202020202020203533373432203B202020202020202020202020202020202064657070616D203B2020202020202020203632394632,
  0x37323946322D48504152474F454449205954494C4942495441504D4F43204B4A432020312E3320232020202020202020203431383432203B202020202020202020202020202020202064657070616D203B2020202020202020203732394632,
  0x38323946322D48504152474F454449205954494C4942495441504D4F43204B4A432020312E3320232020202020202020202041373337203B202020202020202020202020202020202064657070616D203B2020202020202020203832394632,
  0x39323946322D48504152474F454449205954494C4942495441504D4F43204B4A432020312E3320232020202020202020202042383337203B202020202020202020202020202020202064657070616D203B2020202020202020203932394632,
  0x41323946322D48504152474F454449205954494C4942495441504D4F43204B4A432020312E3320232020202020202020202043414533203B202020202020202020202020202020202064657070616D203B2020202020202020204132394632,
  0x42323946322D48504152474F454449205954494C4942495441504D4F43204B4A432020312E3320232020202020202020202035413337203B202020202020202020202020202020202064657070616D203B2020202020202020204232394632,
  0x44323946322D48504152474F454449205954494C4942495441504D4F43204B4A432E2E43323946322D48504152474F454449205954494C4942495441504D4F43204B4A432020312E3320232020202020202020202038424533203B202020202020202020202020202020202064657070616D203B202044323946322E2E4332394632,
  0x45323946322D48504152474F454449205954494C4942495441504D4F43204B4A432020312E3320232020202020202020202037343437203B202020202020202020202020202020202064657070616D203B2020202020202020204532394632,
  0x46323946322D48504152474F454449205954494C4942495441504D4F43204B4A432020312E3320232020202020202020202043353437203B202020202020202020202020202020202064657070616D203B2020202020202020204632394632,
  0x30333946322D48504152474F454449205954494C4942495441504D4F43204B4A432020312E3320232020202020202020202031373437203B202020202020202020202020202020202064657070616D203B2020202020202020203033394632,
  0x31333946322D48504152474F454449205954494C4942495441504D4F43204B4A432020312E3320232020202020202020202035383437203B202020202020202020202020202020202064657070616D203B2020202020202020203133394632,
  0x32333946322D48504152474F454449205954494C4942495441504D4F43204B4A432020312E3320232020202020202020202041433437203B202020202020202020202020202020202064657070616D203B2020202020202020203233394632,
  0x33333946322D48504152474F454449205954494C4942495441504D4F43204B4A432020312E3320232020202020202020202042314633203B202020202020202020202020202020202064657070616D203B2020202020202020203333394632,
  0x34333946322D48504152474F454449205954494C4942495441504D4F43204B4A432020312E3320232020202020202020202034323537203B202020202020202020202020202020202064657070616D203B2020202020202020203433394632,
  0x35333946322D48504152474F454449205954494C4942495441504D4F43204B4A432020312E3320232020202020202020203633433432203B202020202020202020202020202020202064657070616D203B2020202020202020203533394632,
  0x36333946322D48504152474F454449205954494C4942495441504D4F43204B4A432020312E3320232020202020202020202045333537203B202020202020202020202020202020202064657070616D203B2020202020202020203633394632,
  0x37333946322D48504152474F454449205954494C4942495441504D4F43204B4A432020312E3320232020202020202020203239433432203B202020202020202020202020202020202064657070616D203B2020202020202020203733394632,
  0x38333946322D48504152474F454449205954494C4942495441504D4F43204B4A432020312E3320232020202020202020202030373537203B202020202020202020202020202020202064657070616D203B2020202020202020203833394632,
  0x39333946322D48504152474F454449205954494C4942495441504D4F43204B4A432020312E3320232020202020202020204639313232203B202020202020202020202020202020202064657070616D203B2020202020202020203933394632,
  0x41333946322D48504152474F454449205954494C4942495441504D4F43204B4A432020312E3320232020202020202020202030313637203B202020202020202020202020202020202064657070616D203B2020202020202020204133394632,
  0x42333946322D48504152474F454449205954494C4942495441504D4F43204B4A432020312E3320232020202020202020203141463432203B202020202020202020202020202020202064657070616D203B2020202020202020204233394632,
  0x43333946322D48504152474F454449205954494C4942495441504D4F43204B4A432020312E3320232020202020202020203842463432203B202020202020202020202020202020202064657070616D203B2020202020202020204333394632,
  0x44333946322D48504152474F454449205954494C4942495441504D4F43204B4A432020312E3320232020202020202020203434303532203B202020202020202020202020202020202064657070616D203B2020202020202020204433394632,
  0x45333946322D48504152474F454449205954494C4942495441504D4F43204B4A432020312E3320232020202020202020202043464633203B202020202020202020202020202020202064657070616D203B2020202020202020204533394632,
  0x46333946322D48504152474F454449205954494C4942495441504D4F43204B4A432020312E3320232020202020202020202038303034203B202020202020202020202020202020202064657070616D203B2020202020202020204633394632,
  0x30343946322D48504152474F454449205954494C4942495441504D4F43204B4A432020312E3320232020202020202020202034463637203B202020202020202020202020202020202064657070616D203B2020202020202020203034394632,
  0x31343946322D48504152474F454449205954494C4942495441504D4F43204B4A432020312E3320232020202020202020203346303532203B202020202020202020202020202020202064657070616D203B2020202020202020203134394632,
  0x32343946322D48504152474F454449205954494C4942495441504D4F43204B4A432020312E3320232020202020202020203246303532203B202020202020202020202020202020202064657070616D203B2020202020202020203234394632,
  0x33343946322D48504152474F454449205954494C4942495441504D4F43204B4A432020312E3320232020202020202020203931313532203B202020202020202020202020202020202064657070616D203B2020202020202020203334394632,
  0x34343946322D48504152474F454449205954494C4942495441504D4F43204B4A432020312E3320232020202020202020203333313532203B202020202020202020202020202020202064657070616D203B2020202020202020203434394632,
  0x35343946322D48504152474F454449205954494C4942495441504D4F43204B4A432020312E3320232020202020202020202045313737203B202020202020202020202020202020202064657070616D203B2020202020202020203534394632,
  0x37343946322D48504152474F454449205954494C4942495441504D4F43204B4A432E2E36343946322D48504152474F454449205954494C4942495441504D4F43204B4A432020312E3320232020202020202020202046313737203B202020202020202020202020202020202064657070616D203B202037343946322E2E3634394632,
  0x38343946322D48504152474F454449205954494C4942495441504D4F43204B4A432020312E3320232020202020202020202041343737203B202020202020202020202020202020202064657070616D203B2020202020202020203834394632,
  0x39343946322D48504152474F454449205954494C4942495441504D4F43204B4A432020312E3320232020202020202020202039333034203B202020202020202020202020202020202064657070616D203B2020202020202020203934394632,
  0x41343946322D48504152474F454449205954494C4942495441504D4F43204B4A432020312E3320232020202020202020202042383737203B202020202020202020202020202020202064657070616D203B2020202020202020204134394632,
  0x42343946322D48504152474F454449205954494C4942495441504D4F43204B4A432020312E3320232020202020202020202036343034203B202020202020202020202020202020202064657070616D203B2020202020202020204234394632,
  0x43343946322D48504152474F454449205954494C4942495441504D4F43204B4A432020312E3320232020202020202020202036393034203B202020202020202020202020202020202064657070616D203B2020202020202020204334394632,
  0x44343946322D48504152474F454449205954494C4942495441504D4F43204B4A432020312E3320232020202020202020204431343532203B202020202020202020202020202020202064657070616D203B2020202020202020204434394632,
  0x45343946322D48504152474F454449205954494C4942495441504D4F43204B4A432020312E3320232020202020202020202045343837203B202020202020202020202020202020202064657070616D203B2020202020202020204534394632,
  0x46343946322D48504152474F454449205954494C4942495441504D4F43204B4A432020312E3320232020202020202020202043383837203B202020202020202020202020202020202064657070616D203B2020202020202020204634394632,
  0x30353946322D48504152474F454449205954494C4942495441504D4F43204B4A432020312E3320232020202020202020202043433837203B202020202020202020202020202020202064657070616D203B2020202020202020203035394632,
  0x31353946322D48504152474F454449205954494C4942495441504D4F43204B4A432020312E3320232020202020202020202033453034203B202020202020202020202020202020202064657070616D203B2020202020202020203135394632,
  0x32353946322D48504152474F454449205954494C4942495441504D4F43204B4A432020312E3320232020202020202020203632363532203B202020202020202020202020202020202064657070616D203B2020202020202020203235394632,
  0x33353946322D48504152474F454449205954494C4942495441504D4F43204B4A432020312E3320232020202020202020202036353937203B202020202020202020202020202020202064657070616D203B2020202020202020203335394632,
  0x34353946322D48504152474F454449205954494C4942495441504D4F43204B4A432020312E3320232020202020202020204139363532203B202020202020202020202020202020202064657070616D203B2020202020202020203435394632,
  0x35353946322D48504152474F454449205954494C4942495441504D4F43204B4A432020312E3320232020202020202020203543363532203B202020202020202020202020202020202064657070616D203B2020202020202020203535394632,
  0x36353946322D48504152474F454449205954494C4942495441504D4F43204B4A432020312E3320232020202020202020202046383937203B202020202020202020202020202020202064657070616D203B2020202020202020203635394632,
  0x37353946322D48504152474F454449205954494C4942495441504D4F43204B4A432020312E3320232020202020202020202042453937203B202020202020202020202020202020202064657070616D203B2020202020202020203735394632,
  0x38353946322D48504152474F454449205954494C4942495441504D4F43204B4A432020312E3320232020202020202020202046323134203B202020202020202020202020202020202064657070616D203B2020202020202020203835394632,
  0x39353946322D48504152474F454449205954494C4942495441504D4F43204B4A432020312E3320232020202020202020202030344137203B202020202020202020202020202020202064657070616D203B2020202020202020203935394632,
  0x41353946322D48504152474F454449205954494C4942495441504D4F43204B4A432020312E3320232020202020202020202041344137203B202020202020202020202020202020202064657070616D203B2020202020202020204135394632,
  0x42353946322D48504152474F454449205954494C4942495441504D4F43204B4A432020312E3320232020202020202020202046344137203B202020202020202020202020202020202064657070616D203B2020202020202020204235394632,
  0x43353946322D48504152474F454449205954494C4942495441504D4F43204B4A432020312E3320232020202020202020204337393532203B202020202020202020202020202020202064657070616D203B2020202020202020204335394632,
  0x45353946322D48504152474F454449205954494C4942495441504D4F43204B4A432E2E44353946322D48504152474F454449205954494C4942495441504D4F43204B4A432020312E3320232020202020202020203741413532203B202020202020202020202020202020202064657070616D203B202045353946322E2E4435394632,
  0x46353946322D48504152474F454449205954494C4942495441504D4F43204B4A432020312E33202320202020202020202020202020202020202020202020202020202020206465776F6C6C61736964203B2020202020202020204635394632,
  0x30363946322D48504152474F454449205954494C4942495441504D4F43204B4A432020312E3320232020202020202020202032303234203B202020202020202020202020202020202064657070616D203B2020202020202020203036394632,
  0x31363946322D48504152474F454449205954494C4942495441504D4F43204B4A432020312E3320232020202020202020204241423532203B202020202020202020202020202020202064657070616D203B2020202020202020203136394632]

def mapText34 : List Nat := [
  0x32363946322D48504152474F454449205954494C4942495441504D4F43204B4A432020312E3320232020202020202020202036434237203B202020202020202020202020202020202064657070616D203B2020202020202020203236394632,
  0x33363946322D48504152474F454449205954494C4942495441504D4F43204B4A432020312E3320232020202020202020202039434237203B202020202020202020202020202020202064657070616D203B2020202020202020203336394632,
  0x34363946322D48504152474F454449205954494C4942495441504D4F43204B4A432020312E3320232020202020202020202037323234203B202020202020202020202020202020202064657070616D203B2020202020202020203436394632,
  0x35363946322D48504152474F454449205954494C4942495441504D4F43204B4A432020312E3320232020202020202020203038433532203B202020202020202020202020202020202064657070616D203B2020202020202020203536394632,
  0x36363946322D48504152474F454449205954494C4942495441504D4F43204B4A432020312E3320232020202020202020202032444337203B202020202020202020202020202020202064657070616D203B2020202020202020203636394632,
  0x37363946322D48504152474F454449205954494C4942495441504D4F43204B4A432020312E3320232020202020202020202030413234203B202020202020202020202020202020202064657070616D203B2020202020202020203736394632,
  0x38363946322D48504152474F454449205954494C4942495441504D4F43204B4A432020312E3320232020202020202020202038454337203B202020202020202020202020202020202064657070616D203B2020202020202020203836394632,
  0x39363946322D48504152474F454449205954494C4942495441504D4F43204B4A432020312E3320232020202020202020202033454337203B202020202020202020202020202020202064657070616D203B2020202020202020203936394632,
  0x41363946322D48504152474F454449205954494C4942495441504D4F43204B4A432020312E3320232020202020202020202030304437203B202020202020202020202020202020202064657070616D203B2020202020202020204136394632,
  0x42363946322D48504152474F454449205954494C4942495441504D4F43204B4A432020312E3320232020202020202020203638463532203B202020202020202020202020202020202064657070616D203B2020202020202020204236394632,
  0x43363946322D48504152474F454449205954494C4942495441504D4F43204B4A432020312E3320232020202020202020202033364437203B202020202020202020202020202020202064657070616D203B2020202020202020204336394632,
  0x44363946322D48504152474F454449205954494C4942495441504D4F43204B4A432020312E3320232020202020202020202031303334203B202020202020202020202020202020202064657070616D203B2020202020202020204436394632,
  0x45363946322D48504152474F454449205954494C4942495441504D4F43204B4A432020312E3320232020202020202020202037434437203B202020202020202020202020202020202064657070616D203B2020202020202020204536394632,
  0x46363946322D48504152474F454449205954494C4942495441504D4F43204B4A432020312E3320232020202020202020202032304537203B202020202020202020202020202020202064657070616D203B2020202020202020204636394632,
  0x30373946322D48504152474F454449205954494C4942495441504D4F43204B4A432020312E3320232020202020202020202035344537203B202020202020202020202020202020202064657070616D203B2020202020202020203037394632,
  0x31373946322D48504152474F454449205954494C4942495441504D4F43204B4A432020312E3320232020202020202020202034333334203B202020202020202020202020202020202064657070616D203B2020202020202020203137394632,
  0x32373946322D48504152474F454449205954494C4942495441504D4F43204B4A432020312E3320232020202020202020203832323632203B202020202020202020202020202020202064657070616D203B2020202020202020203237394632,
  0x33373946322D48504152474F454449205954494C4942495441504D4F43204B4A432020312E3320232020202020202020203734323632203B202020202020202020202020202020202064657070616D203B2020202020202020203337394632,
  0x34373946322D48504152474F454449205954494C4942495441504D4F43204B4A432020312E3320232020202020202020202039353334203B202020202020202020202020202020202064657070616D203B2020202020202020203437394632,
  0x35373946322D48504152474F454449205954494C4942495441504D4F43204B4A432020312E3320232020202020202020203944323632203B202020202020202020202020202020202064657070616D203B2020202020202020203537394632,
  0x36373946322D48504152474F454449205954494C4942495441504D4F43204B4A432020312E3320232020202020202020202041374637203B202020202020202020202020202020202064657070616D203B2020202020202020203637394632,
  0x37373946322D48504152474F454449205954494C4942495441504D4F43204B4A432020312E3320232020202020202020204533333632203B202020202020202020202020202020202064657070616D203B2020202020202020203737394632,
  0x38373946322D48504152474F454449205954494C4942495441504D4F43204B4A432020312E3320232020202020202020202035394637203B202020202020202020202020202020202064657070616D203B2020202020202020203837394632,
  0x39373946322D48504152474F454449205954494C4942495441504D4F43204B4A432020312E3320232020202020202020202041464637203B202020202020202020202020202020202064657070616D203B2020202020202020203937394632,
  0x41373946322D48504152474F454449205954494C4942495441504D4F43204B4A432020312E3320232020202020202020202035303038203B202020202020202020202020202020202064657070616D203B2020202020202020204137394632,
  0x42373946322D48504152474F454449205954494C4942495441504D4F43204B4A432020312E3320232020202020202020204144343632203B202020202020202020202020202020202064657070616D203B2020202020202020204237394632,
  0x43373946322D48504152474F454449205954494C4942495441504D4F43204B4A432020312E3320232020202020202020203332353632203B202020202020202020202020202020202064657070616D203B2020202020202020204337394632,
  0x44373946322D48504152474F454449205954494C4942495441504D4F43204B4A432020312E3320232020202020202020202030363038203B202020202020202020202020202020202064657070616D203B2020202020202020204437394632,
  0x45373946322D48504152474F454449205954494C4942495441504D4F43204B4A432020312E3320232020202020202020203841353632203B202020202020202020202020202020202064657070616D203B2020202020202020204537394632,
  0x46373946322D48504152474F454449205954494C4942495441504D4F43204B4A432020312E3320232020202020202020202030373038203B202020202020202020202020202020202064657070616D203B2020202020202020204637394632,
  0x30383946322D48504152474F454449205954494C4942495441504D4F43204B4A432020312E3320232020202020202020204635333332203B202020202020202020202020202020202064657070616D203B2020202020202020203038394632,
  0x31383946322D48504152474F454449205954494C4942495441504D4F43204B4A432020312E3320232020202020202020202035443334203B202020202020202020202020202020202064657070616D203B2020202020202020203138394632,
  0x32383946322D48504152474F454449205954494C4942495441504D4F43204B4A432020312E3320232020202020202020202032423038203B202020202020202020202020202020202064657070616D203B2020202020202020203238394632,
  0x33383946322D48504152474F454449205954494C4942495441504D4F43204B4A432020312E3320232020202020202020202033303138203B202020202020202020202020202020202064657070616D203B2020202020202020203338394632,
  0x34383946322D48504152474F454449205954494C4942495441504D4F43204B4A432020312E3320232020202020202020202042303434203B202020202020202020202020202020202064657070616D203B2020202020202020203438394632,
  0x35383946322D48504152474F454449205954494C4942495441504D4F43204B4A432020312E3320232020202020202020202045333138203B202020202020202020202020202020202064657070616D203B2020202020202020203538394632,
  0x36383946322D48504152474F454449205954494C4942495441504D4F43204B4A432020312E3320232020202020202020202035424135203B202020202020202020202020202020202064657070616D203B2020202020202020203638394632,
  0x37383946322D48504152474F454449205954494C4942495441504D4F43204B4A432020312E3320232020202020202020203741373632203B202020202020202020202020202020202064657070616D203B2020202020202020203738394632,
  0x38383946322D48504152474F454449205954494C4942495441504D4F43204B4A432020312E3320232020202020202020203542373632203B202020202020202020202020202020202064657070616D203B2020202020202020203838394632,
  0x39383946322D48504152474F454449205954494C4942495441504D4F43204B4A432020312E3320232020202020202020203339333332203B202020202020202020202020202020202064657070616D203B2020202020202020203938394632,
  0x41383946322D48504152474F454449205954494C4942495441504D4F43204B4A432020312E3320232020202020202020204339333332203B202020202020202020202020202020202064657070616D203B2020202020202020204138394632,
  0x42383946322D48504152474F454449205954494C4942495441504D4F43204B4A432020312E3320232020202020202020202031303238203B202020202020202020202020202020202064657070616D203B2020202020202020204238394632,
  0x43383946322D48504152474F454449205954494C4942495441504D4F43204B4A432020312E3320232020202020202020202034303238203B202020202020202020202020202020202064657070616D203B2020202020202020204338394632,
  0x44383946322D48504152474F454449205954494C4942495441504D4F43204B4A432020312E3320232020202020202020202045394638203B202020202020202020202020202020202064657070616D203B2020202020202020204438394632,
  0x45383946322D48504152474F454449205954494C4942495441504D4F43204B4A432020312E3320232020202020202020202042363434203B202020202020202020202020202020202064657070616D203B2020202020202020204538394632,
  0x46383946322D48504152474F454449205954494C4942495441504D4F43204B4A432020312E3320232020202020202020202031393238203B202020202020202020202020202020202064657070616D203B2020202020202020204638394632,
  0x30393946322D48504152474F454449205954494C4942495441504D4F43204B4A432020312E3320232020202020202020202042383238203B202020202020202020202020202020202064657070616D203B2020202020202020203039394632,
  0x31393946322D48504152474F454449205954494C4942495441504D4F43204B4A432020312E3320232020202020202020202044393238203B202020202020202020202020202020202064657070616D203B2020202020202020203139394632,
  0x32393946322D48504152474F454449205954494C4942495441504D4F43204B4A432020312E3320232020202020202020202033423235203B202020202020202020202020202020202064657070616D203B2020202020202020203239394632,
  0x33393946322D48504152474F454449205954494C4942495441504D4F43204B4A432020312E3320232020202020202020202031423238203B202020202020202020202020202020202064657070616D203B2020202020202020203339394632,
  0x34393946322D48504152474F454449205954494C4942495441504D4F43204B4A432020312E3320232020202020202020202033423238203B202020202020202020202020202020202064657070616D203B2020202020202020203439394632,
  0x35393946322D48504152474F454449205954494C4942495441504D4F43204B4A432020312E3320232020202020202020202044423238203B202020202020202020202020202020202064657070616D203B2020202020202020203539394632,
  0x36393946322D48504152474F454449205954494C4942495441504D4F43204B4A432020312E3320232020202020202020202036453238203B202020202020202020202020202020202064657070616D203B2020202020202020203639394632,
  0x37393946322D48504152474F454449205954494C4942495441504D4F43204B4A432020312E3320232020202020202020204333423632203B202020202020202020202020202020202064657070616D203B2020202020202020203739394632,
  0x38393946322D48504152474F454449205954494C4942495441504D4F43204B4A432020312E3320232020202020202020202035453238203B202020202020202020202020202020202064657070616D203B2020202020202020203839394632,
  0x39393946322D48504152474F454449205954494C4942495441504D4F43204B4A432020312E3320232020202020202020202044313338203B202020202020202020202020202020202064657070616D203B2020202020202020203939394632,
  0x41393946322D48504152474F454449205954494C4942495441504D4F43204B4A432020312E3320232020202020202020202033363338203B202020202020202020202020202020202064657070616D203B2020202020202020204139394632,
  0x42393946322D48504152474F454449205954494C4942495441504D4F43204B4A432020312E3320232020202020202020202044413338203B202020202020202020202020202020202064657070616D203B2020202020202020204239394632,
  0x43393946322D48504152474F454449205954494C4942495441504D4F43204B4A432020312E3320232020202020202020202033323338203B202020202020202020202020202020202064657070616D203B2020202020202020204339394632,
  0x44393946322D48504152474F454449205954494C4942495441504D4F43204B4A432020312E3320232020202020202020202044423338203B202020202020202020202020202020202064657070616D203B2020202020202020204439394632,
  0x45393946322D48504152474F454449205954494C4942495441504D4F43204B4A432020312E3320232020202020202020202037453338203B202020202020202020202020202020202064657070616D203B2020202020202020204539394632,
  0x46393946322D48504152474F454449205954494C4942495441504D4F43204B4A432020312E3320232020202020202020202037353438203B202020202020202020202020202020202064657070616D203B2020202020202020204639394632,
  0x30413946322D48504152474F454449205954494C4942495441504D4F43204B4A432020312E3320232020202020202020202033353338203B202020202020202020202020202020202064657070616D203B2020202020202020203041394632,
  0x31413946322D48504152474F454449205954494C4942495441504D4F43204B4A432020312E3320232020202020202020202041433338203B202020202020202020202020202020202064657070616D203B2020202020202020203141394632,
  0x32413946322D48504152474F454449205954494C4942495441504D4F43204B4A432020312E3320232020202020202020202043433338203B202020202020202020202020202020202064657070616D203B2020202020202020203241394632,
  0x33413946322D48504152474F454449205954494C4942495441504D4F43204B4A432020312E3320232020202020202020202043443338203B202020202020202020202020202020202064657070616D203B2020202020202020203341394632,
  0x34413946322D48504152474F454449205954494C4942495441504D4F43204B4A432020312E3320232020202020202020203633433632203B202020202020202020202020202020202064657070616D203B2020202020202020203441394632,
  0x35413946322D48504152474F454449205954494C4942495441504D4F43204B4A432020312E3320232020202020202020204236443632203B202020202020202020202020202020202064657070616D203B2020202020202020203541394632,
  0x36413946322D48504152474F454449205954494C4942495441504D4F43204B4A432020312E3320232020202020202020203544433632203B202020202020202020202020202020202064657070616D203B2020202020202020203641394632,
  0x37413946322D48504152474F454449205954494C4942495441504D4F43204B4A432020312E3320232020202020202020202042323534203B202020202020202020202020202020202064657070616D203B2020202020202020203741394632,
  0x38413946322D48504152474F454449205954494C4942495441504D4F43204B4A432020312E3320232020202020202020202031463438203B202020202020202020202020202020202064657070616D203B2020202020202020203841394632,
  0x39413946322D48504152474F454449205954494C4942495441504D4F43204B4A432020312E3320232020202020202020202033463438203B202020202020202020202020202020202064657070616D203B2020202020202020203941394632,
  0x41413946322D48504152474F454449205954494C4942495441504D4F43204B4A432020312E3320232020202020202020202036313538203B202020202020202020202020202020202064657070616D203B2020202020202020204141394632,
  0x42413946322D48504152474F454449205954494C4942495441504D4F43204B4A432020312E3320232020202020202020204143333732203B202020202020202020202020202020202064657070616D203B2020202020202020204241394632,
  0x43413946322D48504152474F454449205954494C4942495441504D4F43204B4A432020312E3320232020202020202020202034363538203B202020202020202020202020202020202064657070616D203B2020202020202020204341394632,
  0x44413946322D48504152474F454449205954494C4942495441504D4F43204B4A432020312E3320232020202020202020204332463632203B202020202020202020202020202020202064657070616D203B2020202020202020204441394632,
  0x45413946322D48504152474F454449205954494C4942495441504D4F43204B4A432020312E3320232020202020202020202044353534203B202020202020202020202020202020202064657070616D203B2020202020202020204541394632,
  0x46413946322D48504152474F454449205954494C4942495441504D4F43204B4A432020312E3320232020202020202020202031363534203B202020202020202020202020202020202064657070616D203B2020202020202020204641394632,
  0x30423946322D48504152474F454449205954494C4942495441504D4F43204B4A432020312E3320232020202020202020203142463632203B202020202020202020202020202020202064657070616D203B2020202020202020203042394632,
  0x31423946322D48504152474F454449205954494C4942495441504D4F43204B4A432020312E3320232020202020202020203244303732203B202020202020202020202020202020202064657070616D203B2020202020202020203142394632,
  0x32423946322D48504152474F454449205954494C4942495441504D4F43204B4A432020312E3320232020202020202020202042363534203B202020202020202020202020202020202064657070616D203B2020202020202020203242394632,
  0x33423946322D48504152474F454449205954494C4942495441504D4F43204B4A432020312E3320232020202020202020202030353638203B202020202020202020202020202020202064657070616D203B2020202020202020203342394632,
  0x34423946322D48504152474F454449205954494C4942495441504D4F43204B4A432020312E3320232020202020202020202043353638203B202020202020202020202020202020202064657070616D203B2020202020202020203442394632,
  0x35423946322D48504152474F454449205954494C4942495441504D4F43204B4A432020312E3320232020202020202020202037363638203B202020202020202020202020202020202064657070616D203B2020202020202020203542394632,
  0x36423946322D48504152474F454449205954494C4942495441504D4F43204B4A432020312E3320232020202020202020202039363638203B202020202020202020202020202020202064657070616D203B2020202020202020203642394632,
  0x37423946322D48504152474F454449205954494C4942495441504D4F43204B4A432020312E3320232020202020202020202039413638203B202020202020202020202020202020202064657070616D203B2020202020202020203742394632,
  0x38423946322D48504152474F454449205954494C4942495441504D4F43204B4A432020312E3320232020202020202020202038383638203B202020202020202020202020202020202064657070616D203B2020202020202020203842394632,
  0x39423946322D48504152474F454449205954494C4942495441504D4F43204B4A432020312E3320232020202020202020202045303738203B202020202020202020202020202020202064657070616D203B2020202020202020203942394632,
  0x41423946322D48504152474F454449205954494C4942495441504D4F43204B4A432020312E3320232020202020202020202032453638203B202020202020202020202020202020202064657070616D203B2020202020202020204142394632,
  0x42423946322D48504152474F454449205954494C4942495441504D4F43204B4A432020312E3320232020202020202020202039373738203B202020202020202020202020202020202064657070616D203B2020202020202020204242394632,
  0x43423946322D48504152474F454449205954494C4942495441504D4F43204B4A432020312E3320232020202020202020202038323738203B202020202020202020202020202020202064657070616D203B2020202020202020204342394632,
  0x44423946322D48504152474F454449205954494C4942495441504D4F43204B4A432020312E3320232020202020202020202042363738203B202020202020202020202020202020202064657070616D203B2020202020202020204442394632,
  0x45423946322D48504152474F454449205954494C4942495441504D4F43204B4A432020312E3320232020202020202020202036383738203B202020202020202020202020202020202064657070616D203B2020202020202020204542394632,
  0x46423946322D48504152474F454449205954494C4942495441504D4F43204B4A432020312E33202320202020202020202020202020202020202020202020202020202020206465776F6C6C61736964203B2020202020202020204642394632,
  0x30433946322D48504152474F454449205954494C4942495441504D4F43204B4A432020312E3320232020202020202020202031453738203B202020202020202020202020202020202064657070616D203B2020202020202020203043394632,
  0x31433946322D48504152474F454449205954494C4942495441504D4F43204B4A432020312E3320232020202020202020202031303838203B202020202020202020202020202020202064657070616D203B2020202020202020203143394632,
  0x32433946322D48504152474F454449205954494C4942495441504D4F43204B4A432020312E3320232020202020202020202039463534203B202020202020202020202020202020202064657070616D203B2020202020202020203243394632,
  0x33433946322D48504152474F454449205954494C4942495441504D4F43204B4A432020312E3320232020202020202020202030363838203B202020202020202020202020202020202064657070616D203B2020202020202020203343394632,
  0x34433946322D48504152474F454449205954494C4942495441504D4F43204B4A432020312E3320232020202020202020202033363838203B202020202020202020202020202020202064657070616D203B2020202020202020203443394632,
  0x35433946322D48504152474F454449205954494C4942495441504D4F43204B4A432020312E3320232020202020202020203736363732203B202020202020202020202020202020202064657070616D203B2020202020202020203543394632,
  0x36433946322D48504152474F454449205954494C4942495441504D4F43204B4A432020312E3320232020202020202020202037443838203B202020202020202020202020202020202064657070616D203B2020202020202020203643394632,
  0x37433946322D48504152474F454449205954494C4942495441504D4F43204B4A432020312E3320232020202020202020202045443838203B202020202020202020202020202020202064657070616D203B2020202020202020203743394632,
  0x38433946322D48504152474F454449205954494C4942495441504D4F43204B4A432020312E3320232020202020202020202035333634203B202020202020202020202020202020202064657070616D203B2020202020202020203843394632,
  0x39433946322D48504152474F454449205954494C4942495441504D4F43204B4A432020312E3320232020202020202020202041463838203B202020202020202020202020202020202064657070616D203B2020202020202020203943394632,
  0x41433946322D48504152474F454449205954494C4942495441504D4F43204B4A432020312E3320232020202020202020202042423433203B202020202020202020202020202020202064657070616D203B2020202020202020204143394632,
  0x42433946322D48504152474F454449205954494C4942495441504D4F43204B4A432020312E3320232020202020202020204541383732203B202020202020202020202020202020202064657070616D203B2020202020202020204243394632,
  0x43433946322D48504152474F454449205954494C4942495441504D4F43204B4A432020312E3320232020202020202020203636393732203B202020202020202020202020202020202064657070616D203B2020202020202020204343394632,
  0x44433946322D48504152474F454449205954494C4942495441504D4F43204B4A432020312E3320232020202020202020202045423634203B202020202020202020202020202020202064657070616D203B2020202020202020204443394632,
  0x45433946322D48504152474F454449205954494C4942495441504D4F43204B4A432020312E3320232020202020202020202037433634203B202020202020202020202020202020202064657070616D203B2020202020202020204543394632,
  0x46433946322D48504152474F454449205954494C4942495441504D4F43204B4A432020312E3320232020202020202020202030414138203B202020202020202020202020202020202064657070616D203B2020202020202020204643394632,
  0x30443946322D48504152474F454449205954494C4942495441504D4F43204B4A432020312E3320232020202020202020202044454138203B202020202020202020202020202020202064657070616D203B2020202020202020203044394632,
  0x31443946322D48504152474F454449205954494C4942495441504D4F43204B4A432020312E3320232020202020202020202041384238203B202020202020202020202020202020202064657070616D203B2020202020202020203144394632,
  0x32443946322D48504152474F454449205954494C4942495441504D4F43204B4A432020312E3320232020202020202020202035354338203B202020202020202020202020202020202064657070616D203B2020202020202020203244394632,
  0x33443946322D48504152474F454449205954494C4942495441504D4F43204B4A432020312E3320232020202020202020203841433732203B202020202020202020202020202020202064657070616D203B2020202020202020203344394632,
  0x34443946322D48504152474F454449205954494C4942495441504D4F43204B4A432020312E3320232020202020202020202042414338203B202020202020202020202020202020202064657070616D203B2020202020202020203444394632,
  0x35443946322D48504152474F454449205954494C4942495441504D4F43204B4A432020312E3320232020202020202020202031434338203B202020202020202020202020202020202064657070616D203B2020202020202020203544394632,
  0x36443946322D48504152474F454449205954494C4942495441504D4F43204B4A432020312E3320232020202020202020202042314438203B202020202020202020202020202020202064657070616D203B2020202020202020203644394632,
  0x37443946322D48504152474F454449205954494C4942495441504D4F43204B4A432020312E3320232020202020202020202037374438203B202020202020202020202020202020202064657070616D203B2020202020202020203744394632,
  0x38443946322D48504152474F454449205954494C4942495441504D4F43204B4A432020312E3320232020202020202020204632463732203B202020202020202020202020202020202064657070616D203B2020202020202020203844394632,
  0x39443946322D48504152474F454449205954494C4942495441504D4F43204B4A432020312E3320232020202020202020203430383032203B202020202020202020202020202020202064657070616D203B2020202020202020203944394632,
  0x41443946322D48504152474F454449205954494C4942495441504D4F43204B4A432020312E3320232020202020202020202042434438203B202020202020202020202020202020202064657070616D203B2020202020202020204144394632,
  0x42443946322D48504152474F454449205954494C4942495441504D4F43204B4A432020312E3320232020202020202020202043424438203B202020202020202020202020202020202064657070616D203B2020202020202020204244394632,
  0x43443946322D48504152474F454449205954494C4942495441504D4F43204B4A432020312E3320232020202020202020202030464438203B202020202020202020202020202020202064657070616D203B2020202020202020204344394632,
  0x44443946322D48504152474F454449205954494C4942495441504D4F43204B4A432020312E3320232020202020202020204544383032203B202020202020202020202020202020202064657070616D203B2020202020202020204444394632,
  0x45443946322D48504152474F454449205954494C4942495441504D4F43204B4A432020312E3320232020202020202020202034444538203B202020202020202020202020202020202064657070616D203B2020202020202020204544394632,
  0x46443946322D48504152474F454449205954494C4942495441504D4F43204B4A432020312E3320232020202020202020202038334638203B202020202020202020202020202020202064657070616D203B2020202020202020204644394632,
  0x30453946322D48504152474F454449205954494C4942495441504D4F43204B4A432020312E3320232020202020202020203244353832203B202020202020202020202020202020202064657070616D203B2020202020202020203045394632,
  0x31453946322D48504152474F454449205954494C4942495441504D4F43204B4A432020312E3320232020202020202020204445353832203B202020202020202020202020202020202064657070616D203B2020202020202020203145394632,
  0x32453946322D48504152474F454449205954494C4942495441504D4F43204B4A432020312E3320232020202020202020202034393039203B202020202020202020202020202020202064657070616D203B2020202020202020203245394632,
  0x33453946322D48504152474F454449205954494C4942495441504D4F43204B4A432020312E3320232020202020202020202031463039203B202020202020202020202020202020202064657070616D203B2020202020202020203345394632,
  0x34453946322D48504152474F454449205954494C4942495441504D4F43204B4A432020312E3320232020202020202020202031313139203B202020202020202020202020202020202064657070616D203B2020202020202020203445394632,
  0x35453946322D48504152474F454449205954494C4942495441504D4F43204B4A432020312E3320232020202020202020204532373832203B202020202020202020202020202020202064657070616D203B2020202020202020203545394632,
  0x36453946322D48504152474F454449205954494C4942495441504D4F43204B4A432020312E3320232020202020202020202042313139203B202020202020202020202020202020202064657070616D203B2020202020202020203645394632,
  0x37453946322D48504152474F454449205954494C4942495441504D4F43204B4A432020312E3320232020202020202020202038333239203B202020202020202020202020202020202064657070616D203B2020202020202020203745394632,
  0x38453946322D48504152474F454449205954494C4942495441504D4F43204B4A432020312E3320232020202020202020202037443239203B202020202020202020202020202020202064657070616D203B2020202020202020203845394632,
  0x39453946322D48504152474F454449205954494C4942495441504D4F43204B4A432020312E3320232020202020202020202038443239203B202020202020202020202020202020202064657070616D203B2020202020202020203945394632,
  0x41453946322D48504152474F454449205954494C4942495441504D4F43204B4A432020312E3320232020202020202020202043373239203B202020202020202020202020202020202064657070616D203B2020202020202020204145394632,
  0x42453946322D48504152474F454449205954494C4942495441504D4F43204B4A432020312E3320232020202020202020202039463339203B202020202020202020202020202020202064657070616D203B2020202020202020204245394632,
  0x43453946322D48504152474F454449205954494C4942495441504D4F43204B4A432020312E3320232020202020202020202035313439203B202020202020202020202020202020202064657070616D203B2020202020202020204345394632,
  0x44453946322D48504152474F454449205954494C4942495441504D4F43204B4A432020312E3320232020202020202020204146423832203B202020202020202020202020202020202064657070616D203B2020202020202020204445394632,
  0x45453946322D48504152474F454449205954494C4942495441504D4F43204B4A432020312E3320232020202020202020202042383539203B202020202020202020202020202020202064657070616D203B2020202020202020204545394632,
  0x46453946322D48504152474F454449205954494C4942495441504D4F43204B4A432020312E3320232020202020202020202035393934203B202020202020202020202020202020202064657070616D203B2020202020202020204645394632,
  0x30463946322D48504152474F454449205954494C4942495441504D4F43204B4A432020312E3320232020202020202020202037423539203B202020202020202020202020202020202064657070616D203B2020202020202020203046394632,
  0x31463946322D48504152474F454449205954494C4942495441504D4F43204B4A432020312E3320232020202020202020203737443832203B202020202020202020202020202020202064657070616D203B2020202020202020203146394632,
  0x32463946322D48504152474F454449205954494C4942495441504D4F43204B4A432020312E3320232020202020202020202036453934203B202020202020202020202020202020202064657070616D203B2020202020202020203246394632,
  0x33463946322D48504152474F454449205954494C4942495441504D4F43204B4A432020312E3320232020202020202020202033433639203B202020202020202020202020202020202064657070616D203B2020202020202020203346394632,
  0x34463946322D48504152474F454449205954494C4942495441504D4F43204B4A432020312E3320232020202020202020202032424435203B202020202020202020202020202020202064657070616D203B2020202020202020203446394632,
  0x35463946322D48504152474F454449205954494C4942495441504D4F43204B4A432020312E3320232020202020202020202033323739203B202020202020202020202020202020202064657070616D203B2020202020202020203546394632,
  0x36463946322D48504152474F454449205954494C4942495441504D4F43204B4A432020312E3320232020202020202020203534313932203B202020202020202020202020202020202064657070616D203B2020202020202020203646394632,
  0x37463946322D48504152474F454449205954494C4942495441504D4F43204B4A432020312E3320232020202020202020204131323932203B202020202020202020202020202020202064657070616D203B2020202020202020203746394632,
  0x38463946322D48504152474F454449205954494C4942495441504D4F43204B4A432020312E3320232020202020202020202045364134203B202020202020202020202020202020202064657070616D203B2020202020202020203846394632,
  0x39463946322D48504152474F454449205954494C4942495441504D4F43204B4A432020312E3320232020202020202020202036374134203B202020202020202020202020202020202064657070616D203B2020202020202020203946394632,
  0x41463946322D48504152474F454449205954494C4942495441504D4F43204B4A432020312E3320232020202020202020202030453739203B202020202020202020202020202020202064657070616D203B2020202020202020204146394632,
  0x42463946322D48504152474F454449205954494C4942495441504D4F43204B4A432020312E3320232020202020202020204130343932203B202020202020202020202020202020202064657070616D203B2020202020202020204246394632,
  0x43463946322D48504152474F454449205954494C4942495441504D4F43204B4A432020312E3320232020202020202020202032424134203B202020202020202020202020202020202064657070616D203B2020202020202020204346394632,
  0x44463946322D48504152474F454449205954494C4942495441504D4F43204B4A432020312E3320232020202020202020203639343932203B202020202020202020202020202020202064657070616D203B2020202020202020204446394632,
  0x46463946322D48504152474F454449205954494C4942495441504D4F43204B4A432E2E45463946322D48504152474F454449205954494C4942495441504D4F43204B4A432020312E3320232020202020202020202042303839203B202020202020202020202020202020202064657070616D203B202046463946322E2E4546394632,
  0x30304146322D48504152474F454449205954494C4942495441504D4F43204B4A432020312E3320232020202020202020202039323839203B202020202020202020202020202020202064657070616D203B2020202020202020203030414632,
  0x31304146322D48504152474F454449205954494C4942495441504D4F43204B4A432020312E3320232020202020202020203642353932203B202020202020202020202020202020202064657070616D203B2020202020202020203130414632,
  0x32304146322D48504152474F454449205954494C4942495441504D4F43204B4A432020312E3320232020202020202020202032453839203B202020202020202020202020202020202064657070616D203B2020202020202020203230414632,
  0x33304146322D48504152474F454449205954494C4942495441504D4F43204B4A432020312E3320232020202020202020202033334234203B202020202020202020202020202020202064657070616D203B2020202020202020203330414632,
  0x34304146322D48504152474F454449205954494C4942495441504D4F43204B4A432020312E3320232020202020202020202039323939203B202020202020202020202020202020202064657070616D203B2020202020202020203430414632,
  0x35304146322D48504152474F454449205954494C4942495441504D4F43204B4A432020312E3320232020202020202020202037413939203B202020202020202020202020202020202064657070616D203B2020202020202020203530414632,
  0x36304146322D48504152474F454449205954494C4942495441504D4F43204B4A432020312E3320232020202020202020202032433939203B202020202020202020202020202020202064657070616D203B2020202020202020203630414632,
  0x37304146322D48504152474F454449205954494C4942495441504D4F43204B4A432020312E3320232020202020202020202045463939203B202020202020202020202020202020202064657070616D203B2020202020202020203730414632,
  0x38304146322D48504152474F454449205954494C4942495441504D4F43204B4A432020312E3320232020202020202020202045434234203B202020202020202020202020202020202064657070616D203B2020202020202020203830414632,
  0x39304146322D48504152474F454449205954494C4942495441504D4F43204B4A432020312E3320232020202020202020203033423932203B202020202020202020202020202020202064657070616D203B2020202020202020203930414632,
  0x41304146322D48504152474F454449205954494C4942495441504D4F43204B4A432020312E3320232020202020202020202032314239203B202020202020202020202020202020202064657070616D203B2020202020202020204130414632,
  0x42304146322D48504152474F454449205954494C4942495441504D4F43204B4A432020312E3320232020202020202020202030344339203B202020202020202020202020202020202064657070616D203B2020202020202020204230414632,
  0x43304146322D48504152474F454449205954494C4942495441504D4F43204B4A432020312E3320232020202020202020202044464339203B202020202020202020202020202020202064657070616D203B2020202020202020204330414632,
  0x44304146322D48504152474F454449205954494C4942495441504D4F43204B4A432020312E3320232020202020202020202045434334203B202020202020202020202020202020202064657070616D203B2020202020202020204430414632,
  0x45304146322D48504152474F454449205954494C4942495441504D4F43204B4A432020312E3320232020202020202020202044454334203B202020202020202020202020202020202064657070616D203B2020202020202020204530414632,
  0x46304146322D48504152474F454449205954494C4942495441504D4F43204B4A432020312E3320232020202020202020202037364439203B202020202020202020202020202020202064657070616D203B2020202020202020204630414632,
  0x30314146322D48504152474F454449205954494C4942495441504D4F43204B4A432020312E3320232020202020202020204543304132203B202020202020202020202020202020202064657070616D203B2020202020202020203031414632,
  0x31314146322D48504152474F454449205954494C4942495441504D4F43204B4A432020312E3320232020202020202020202038464334203B202020202020202020202020202020202064657070616D203B2020202020202020203131414632,
  0x32314146322D48504152474F454449205954494C4942495441504D4F43204B4A432020312E3320232020202020202020203530314132203B202020202020202020202020202020202064657070616D203B2020202020202020203231414632,
  0x33314146322D48504152474F454449205954494C4942495441504D4F43204B4A432020312E3320232020202020202020204530324132203B202020202020202020202020202020202064657070616D203B2020202020202020203331414632,
  0x34314146322D48504152474F454449205954494C4942495441504D4F43204B4A432020312E3320232020202020202020203139324132203B202020202020202020202020202020202064657070616D203B2020202020202020203431414632,
  0x35314146322D48504152474F454449205954494C4942495441504D4F43204B4A432020312E3320232020202020202020202042424539203B202020202020202020202020202020202064657070616D203B2020202020202020203531414632,
  0x36314146322D48504152474F454449205954494C4942495441504D4F43204B4A432020312E3320232020202020202020202036354434203B202020202020202020202020202020202064657070616D203B2020202020202020203631414632,
  0x37314146322D48504152474F454449205954494C4942495441504D4F43204B4A432020312E3320232020202020202020202039464539203B202020202020202020202020202020202064657070616D203B2020202020202020203731414632,
  0x38314146322D48504152474F454449205954494C4942495441504D4F43204B4A432020312E3320232020202020202020202045464539203B202020202020202020202020202020202064657070616D203B2020202020202020203831414632,
  0x39314146322D48504152474F454449205954494C4942495441504D4F43204B4A432020312E3320232020202020202020202035304639203B202020202020202020202020202020202064657070616D203B2020202020202020203931414632,
  0x41314146322D48504152474F454449205954494C4942495441504D4F43204B4A432020312E3320232020202020202020202046304639203B202020202020202020202020202020202064657070616D203B2020202020202020204131414632,
  0x42314146322D48504152474F454449205954494C4942495441504D4F43204B4A432020312E3320232020202020202020202036314639203B202020202020202020202020202020202064657070616D203B2020202020202020204231414632,
  0x43314146322D48504152474F454449205954494C4942495441504D4F43204B4A432020312E3320232020202020202020202042334639203B202020202020202020202020202020202064657070616D203B2020202020202020204331414632,
  0x44314146322D48504152474F454449205954494C4942495441504D4F43204B4A432020312E3320232020202020202020203030364132203B202020202020202020202020202020202064657070616D203B2020202020202020204431414632,
  0x3E44464646322D64657672657365723C2E2E3E45314146322D64657672657365723C202020414E202320202020202020202020202020202020202020202020202020202020206465776F6C6C61736964203B202044464646322E2E4531414632,
  0x3E46464646322D7265746361726168636E6F6E3C2E2E3E45464646322D7265746361726168636E6F6E3C2020302E32202320202020202020202020202020202020202020202020202020202020206465776F6C6C61736964203B202046464646322E2E4546464632,
  0x41343331332D48504152474F4544492044454946494E55204B4A432E2E30303030332D48504152474F4544492044454946494E55204B4A4320302E333120232020202020202020202020202020202020202020202020202020202020202020202064696C6176203B202041343331332E2E3030303033,
  0x3E44464646332D64657672657365723C2E2E3E42343331332D64657672657365723C202020414E202320202020202020202020202020202020202020202020202020202020206465776F6C6C61736964203B202044464646332E2E4234333133,
  0x3E46464646332D7265746361726168636E6F6E3C2E2E3E45464646332D7265746361726168636E6F6E3C2020302E32202320202020202020202020202020202020202020202020202020202020206465776F6C6C61736964203B202046464646332E2E4546464633,
  0x3E44464646342D64657672657365723C2E2E3E30303030342D64657672657365723C202020414E202320202020202020202020202020202020202020202020202020202020206465776F6C6C61736964203B202044464646342E2E3030303034,
  0x3E46464646342D7265746361726168636E6F6E3C2E2E3E45464646342D7265746361726168636E6F6E3C2020302E32202320202020202020202020202020202020202020202020202020202020206465776F6C6C61736964203B202046464646342E2E4546464634,
  0x3E44464646352D64657672657365723C2E2E3E30303030352D64657672657365723C202020414E202320202020202020202020202020202020202020202020202020202020206465776F6C6C61736964203B202044464646352E2E3030303035,
  0x3E46464646352D7265746361726168636E6F6E3C2E2E3E45464646352D7265746361726168636E6F6E3C2020302E32202320202020202020202020202020202020202020202020202020202020206465776F6C6C61736964203B202046464646352E2E4546464635,
  0x3E44464646362D64657672657365723C2E2E3E30303030362D64657672657365723C202020414E202320202020202020202020202020202020202020202020202020202020206465776F6C6C61736964203B202044464646362E2E3030303036,
  0x3E46464646362D7265746361726168636E6F6E3C2E2E3E45464646362D7265746361726168636E6F6E3C2020302E32202320202020202020202020202020202020202020202020202020202020206465776F6C6C61736964203B202046464646362E2E4546464636,
  0x3E44464646372D64657672657365723C2E2E3E30303030372D64657672657365723C202020414E202320202020202020202020202020202020202020202020202020202020206465776F6C6C61736964203B202044464646372E2E3030303037,
  0x3E46464646372D7265746361726168636E6F6E3C2E2E3E45464646372D7265746361726168636E6F6E3C2020302E32202320202020202020202020202020202020202020202020202020202020206465776F6C6C61736964203B202046464646372E2E4546464637,
  0x3E44464646382D64657672657365723C2E2E3E30303030382D64657672657365723C202020414E202320202020202020202020202020202020202020202020202020202020206465776F6C6C61736964203B202044464646382E2E3030303038,
  0x3E46464646382D7265746361726168636E6F6E3C2E2E3E45464646382D7265746361726168636E6F6E3C2020302E32202320202020202020202020202020202020202020202020202020202020206465776F6C6C61736964203B202046464646382E2E4546464638,
  0x3E44464646392D64657672657365723C2E2E3E30303030392D64657672657365723C202020414E202320202020202020202020202020202020202020202020202020202020206465776F6C6C61736964203B202044464646392E2E3030303039,
  0x3E46464646392D7265746361726168636E6F6E3C2E2E3E45464646392D7265746361726168636E6F6E3C2020302E32202320202020202020202020202020202020202020202020202020202020206465776F6C6C61736964203B202046464646392E2E4546464639,
  0x3E44464646412D64657672657365723C2E2E3E30303030412D64657672657365723C202020414E202320202020202020202020202020202020202020202020202020202020206465776F6C6C61736964203B202044464646412E2E3030303041,
  0x3E46464646412D7265746361726168636E6F6E3C2E2E3E45464646412D7265746361726168636E6F6E3C2020302E32202320202020202020202020202020202020202020202020202020202020206465776F6C6C61736964203B202046464646412E2E4546464641,
  0x3E44464646422D64657672657365723C2E2E3E30303030422D64657672657365723C202020414E202320202020202020202020202020202020202020202020202020202020206465776F6C6C61736964203B202044464646422E2E3030303042,
  0x3E46464646422D7265746361726168636E6F6E3C2E2E3E45464646422D7265746361726168636E6F6E3C2020302E32202320202020202020202020202020202020202020202020202020202020206465776F6C6C61736964203B202046464646422E2E4546464642,
  0x3E44464646432D64657672657365723C2E2E3E30303030432D64657672657365723C202020414E202320202020202020202020202020202020202020202020202020202020206465776F6C6C61736964203B202044464646432E2E3030303043,
  0x3E46464646432D7265746361726168636E6F6E3C2E2E3E45464646432D7265746361726168636E6F6E3C2020302E32202320202020202020202020202020202020202020202020202020202020206465776F6C6C61736964203B202046464646432E2E4546464643,
  0x3E44464646442D64657672657365723C2E2E3E30303030442D64657672657365723C202020414E202320202020202020202020202020202020202020202020202020202020206465776F6C6C61736964203B202044464646442E2E3030303044,
  0x3E46464646442D7265746361726168636E6F6E3C2E2E3E45464646442D7265746361726168636E6F6E3C2020302E32202320202020202020202020202020202020202020202020202020202020206465776F6C6C61736964203B202046464646442E2E4546464644,
  0x3E30303030452D64657672657365723C202020414E202320202020202020202020202020202020202020202020202020202020206465776F6C6C61736964203B2020202020202020203030303045,
  0x4741542045474155474E414C2020312E33202320202020202020202020202020202020202020202020202020202020206465776F6C6C61736964203B2020202020202020203130303045,
  0x3E46313030452D64657672657365723C2E2E3E32303030452D64657672657365723C202020414E202320202020202020202020202020202020202020202020202020202020206465776F6C6C61736964203B202046313030452E2E3230303045,
  0x474154204C45434E41432E2E4543415053204741542020312E33202320202020202020202020202020202020202020202020202020202020206465776F6C6C61736964203B202046373030452E2E3032303045,
  0x3E46463030452D64657672657365723C2E2E3E30383030452D64657672657365723C202020414E202320202020202020202020202020202020202020202020202020202020206465776F6C6C61736964203B202046463030452E2E3038303045,
  0x3635322D524F5443454C4553204E4F495441495241562E2E37312D524F5443454C4553204E4F495441495241562020302E34202320202020202020202020202020202020202020202020202020202020202020206465726F6E6769203B202046453130452E2E3030313045,
  0x3E44464646452D64657672657365723C2E2E3E30463130452D64657672657365723C202020414E202320202020202020202020202020202020202020202020202020202020206465776F6C6C61736964203B202044464646452E2E3046313045,
  0x3E46464646452D7265746361726168636E6F6E3C2E2E3E45464646452D7265746361726168636E6F6E3C2020302E32202320202020202020202020202020202020202020202020202020202020206465776F6C6C61736964203B202046464646452E2E4546464645,
  0x3E44464646462D6573752D657461766972703C2E2E3E30303030462D6573752D657461766972703C2020302E32202320202020202020202020202020202020202020202020202020202020206465776F6C6C61736964203B202044464646462E2E3030303046,
  0x3E46464646462D7265746361726168636E6F6E3C2E2E3E45464646462D7265746361726168636E6F6E3C2020302E32202320202020202020202020202020202020202020202020202020202020206465776F6C6C61736964203B202046464646462E2E4546464646,
  0x3E4446464630312D6573752D657461766972703C2E2E3E3030303030312D6573752D657461766972703C2020302E32202320202020202020202020202020202020202020202020202020202020206465776F6C6C61736964203B4446464630312E2E303030303031,
  0x3E4646464630312D7265746361726168636E6F6E3C2E2E3E4546464630312D7265746361726168636E6F6E3C2020302E32202320202020202020202020202020202020202020202020202020202020206465776F6C6C61736964203B4646464630312E2E454646463031,
  0x0,
  0x32313134313131203A73746E696F702065646F63206C61746F542023,
  0x0]

/-- All the lines, in chunks. -/
def mapTextChunks : List (List Nat) := [
  mapText0, mapText1, mapText2, mapText3, mapText4, mapText5, mapText6, mapText7,
  mapText8, mapText9, mapText10, mapText11, mapText12, mapText13, mapText14, mapText15,
  mapText16, mapText17, mapText18, mapText19, mapText20, mapText21, mapText22, mapText23,
  mapText24, mapText25, mapText26, mapText27, mapText28, mapText29, mapText30, mapText31,
  mapText32, mapText33, mapText34]

/-- All the lines. -/
def mapText : List Nat := mapTextChunks.flatten

end Idn2.Shipped
