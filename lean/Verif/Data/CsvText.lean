/-
The text of lib/idna-tables-properties.csv.
Each number holds the bytes of a line without its line feed, the first byte being the least
significant.  Written by tools/gen_data.py; do not edit.
-/

namespace Idn2.Shipped

def csvTextHead : Nat := 0xD6E6F6974706972637365442C7375746174532C79747265706F72502C746E696F7065646F43

def csvText0 : List Nat := [
  0xD414D4D4F432E2E4C4C554E2C2C4445574F4C4C415349442C433230302D30303030,
  0xD53554E494D2D4E45485059482C2C44494C4156502C44323030,
  0xD535544494C4F532E2E504F5453204C4C55462C2C4445574F4C4C415349442C463230302D45323030,
  0xD454E494E2054494749442E2E4F52455A2054494749442C2C44494C4156502C393330302D30333030,
  0xD544E454343412045564152472E2E4E4F4C4F432C2C4445574F4C4C415349442C303630302D41333030,
  0xD5A2052455454454C204C4C414D53204E4954414C2E2E412052455454454C204C4C414D53204E4954414C2C2C44494C4156502C413730302D31363030,
  0xD4E47495320574F52434C49502E2E54454B4341524220594C525543205446454C2C2C4445574F4C4C415349442C364230302D42373030,
  0xD544F4420454C4444494D2C2C4F545845544E4F432C37423030,
  0xD4E524F48542052455454454C204C415449504143204E4954414C2E2E414C4C494445432C2C4445574F4C4C415349442C454430302D38423030,
  0xD5349534552454149442048544957204F2052455454454C204C4C414D53204E4954414C2E2E532050524148532052455454454C204C4C414D53204E4954414C2C2C44494C4156502C364630302D46443030,
  0xD4E474953204E4F4953495649442C2C4445574F4C4C415349442C37463030,
  0xD534953455245414944204854495720592052455454454C204C4C414D53204E4954414C2E2E454B4F5254532048544957204F2052455454454C204C4C414D53204E4954414C2C2C44494C4156502C464630302D38463030,
  0xD4E4F5243414D204854495720412052455454454C204C415449504143204E4954414C2C2C4445574F4C4C415349442C30303130,
  0xD4E4F5243414D204854495720412052455454454C204C4C414D53204E4954414C2C2C44494C4156502C31303130,
  0xD4556455242204854495720412052455454454C204C415449504143204E4954414C2C2C4445574F4C4C415349442C32303130,
  0xD4556455242204854495720412052455454454C204C4C414D53204E4954414C2C2C44494C4156502C33303130,
  0xD4B454E4F474F204854495720412052455454454C204C415449504143204E4954414C2C2C4445574F4C4C415349442C34303130,
  0xD4B454E4F474F204854495720412052455454454C204C4C414D53204E4954414C2C2C44494C4156502C35303130,
  0xD4554554341204854495720432052455454454C204C415449504143204E4954414C2C2C4445574F4C4C415349442C36303130,
  0xD4554554341204854495720432052455454454C204C4C414D53204E4954414C2C2C44494C4156502C37303130,
  0xD58454C464D5543524943204854495720432052455454454C204C415449504143204E4954414C2C2C4445574F4C4C415349442C38303130,
  0xD58454C464D5543524943204854495720432052455454454C204C4C414D53204E4954414C2C2C44494C4156502C39303130,
  0xD45564F424120544F44204854495720432052455454454C204C415449504143204E4954414C2C2C4445574F4C4C415349442C41303130,
  0xD45564F424120544F44204854495720432052455454454C204C4C414D53204E4954414C2C2C44494C4156502C42303130,
  0xD4E4F524143204854495720432052455454454C204C415449504143204E4954414C2C2C4445574F4C4C415349442C43303130,
  0xD4E4F524143204854495720432052455454454C204C4C414D53204E4954414C2C2C44494C4156502C44303130,
  0xD4E4F524143204854495720442052455454454C204C415449504143204E4954414C2C2C4445574F4C4C415349442C45303130,
  0xD4E4F524143204854495720442052455454454C204C4C414D53204E4954414C2C2C44494C4156502C46303130,
  0xD454B4F525453204854495720442052455454454C204C415449504143204E4954414C2C2C4445574F4C4C415349442C30313130,
  0xD454B4F525453204854495720442052455454454C204C4C414D53204E4954414C2C2C44494C4156502C31313130,
  0xD4E4F5243414D204854495720452052455454454C204C415449504143204E4954414C2C2C4445574F4C4C415349442C32313130,
  0xD4E4F5243414D204854495720452052455454454C204C4C414D53204E4954414C2C2C44494C4156502C33313130,
  0xD4556455242204854495720452052455454454C204C415449504143204E4954414C2C2C4445574F4C4C415349442C34313130,
  0xD4556455242204854495720452052455454454C204C4C414D53204E4954414C2C2C44494C4156502C35313130,
  0xD45564F424120544F44204854495720452052455454454C204C415449504143204E4954414C2C2C4445574F4C4C415349442C36313130,
  0xD45564F424120544F44204854495720452052455454454C204C4C414D53204E4954414C2C2C44494C4156502C37313130,
  0xD4B454E4F474F204854495720452052455454454C204C415449504143204E4954414C2C2C4445574F4C4C415349442C38313130,
  0xD4B454E4F474F204854495720452052455454454C204C4C414D53204E4954414C2C2C44494C4156502C39313130,
  0xD4E4F524143204854495720452052455454454C204C415449504143204E4954414C2C2C4445574F4C4C415349442C41313130,
  0xD4E4F524143204854495720452052455454454C204C4C414D53204E4954414C2C2C44494C4156502C42313130,
  0xD58454C464D5543524943204854495720472052455454454C204C415449504143204E4954414C2C2C4445574F4C4C415349442C43313130,
  0xD58454C464D5543524943204854495720472052455454454C204C4C414D53204E4954414C2C2C44494C4156502C44313130,
  0xD4556455242204854495720472052455454454C204C415449504143204E4954414C2C2C4445574F4C4C415349442C45313130,
  0xD4556455242204854495720472052455454454C204C4C414D53204E4954414C2C2C44494C4156502C46313130,
  0xD45564F424120544F44204854495720472052455454454C204C415449504143204E4954414C2C2C4445574F4C4C415349442C30323130,
  0xD45564F424120544F44204854495720472052455454454C204C4C414D53204E4954414C2C2C44494C4156502C31323130,
  0xD414C4C49444543204854495720472052455454454C204C415449504143204E4954414C2C2C4445574F4C4C415349442C32323130,
  0xD414C4C49444543204854495720472052455454454C204C4C414D53204E4954414C2C2C44494C4156502C33323130,
  0xD58454C464D5543524943204854495720482052455454454C204C415449504143204E4954414C2C2C4445574F4C4C415349442C34323130,
  0xD58454C464D5543524943204854495720482052455454454C204C4C414D53204E4954414C2C2C44494C4156502C35323130,
  0xD454B4F525453204854495720482052455454454C204C415449504143204E4954414C2C2C4445574F4C4C415349442C36323130,
  0xD454B4F525453204854495720482052455454454C204C4C414D53204E4954414C2C2C44494C4156502C37323130,
  0xD45444C4954204854495720492052455454454C204C415449504143204E4954414C2C2C4445574F4C4C415349442C38323130,
  0xD45444C4954204854495720492052455454454C204C4C414D53204E4954414C2C2C44494C4156502C39323130,
  0xD4E4F5243414D204854495720492052455454454C204C415449504143204E4954414C2C2C4445574F4C4C415349442C41323130,
  0xD4E4F5243414D204854495720492052455454454C204C4C414D53204E4954414C2C2C44494C4156502C42323130,
  0xD4556455242204854495720492052455454454C204C415449504143204E4954414C2C2C4445574F4C4C415349442C43323130,
  0xD4556455242204854495720492052455454454C204C4C414D53204E4954414C2C2C44494C4156502C44323130,
  0xD4B454E4F474F204854495720492052455454454C204C415449504143204E4954414C2C2C4445574F4C4C415349442C45323130,
  0xD4B454E4F474F204854495720492052455454454C204C4C414D53204E4954414C2C2C44494C4156502C46323130,
  0xD45564F424120544F44204854495720492052455454454C204C415449504143204E4954414C2C2C4445574F4C4C415349442C30333130,
  0xD49205353454C544F442052455454454C204C4C414D53204E4954414C2C2C44494C4156502C31333130,
  0xD58454C464D55435249432048544957204A2052455454454C204C415449504143204E4954414C2E2E4A4920455255544147494C204C415449504143204E4954414C2C2C4445574F4C4C415349442C343331302D32333130,
  0xD58454C464D55435249432048544957204A2052455454454C204C4C414D53204E4954414C2C2C44494C4156502C35333130,
  0xD414C4C494445432048544957204B2052455454454C204C415449504143204E4954414C2C2C4445574F4C4C415349442C36333130,
  0xD41524B2052455454454C204C4C414D53204E4954414C2E2E414C4C494445432048544957204B2052455454454C204C4C414D53204E4954414C2C2C44494C4156502C383331302D37333130,
  0xD45545543412048544957204C2052455454454C204C415449504143204E4954414C2C2C4445574F4C4C415349442C39333130,
  0xD45545543412048544957204C2052455454454C204C4C414D53204E4954414C2C2C44494C4156502C41333130,
  0xD414C4C494445432048544957204C2052455454454C204C415449504143204E4954414C2C2C4445574F4C4C415349442C42333130,
  0xD414C4C494445432048544957204C2052455454454C204C4C414D53204E4954414C2C2C44494C4156502C43333130,
  0xD4E4F5241432048544957204C2052455454454C204C415449504143204E4954414C2C2C4445574F4C4C415349442C44333130,
  0xD4E4F5241432048544957204C2052455454454C204C4C414D53204E4954414C2C2C44494C4156502C45333130,
  0xD454B4F5254532048544957204C2052455454454C204C415449504143204E4954414C2E2E544F4420454C4444494D2048544957204C2052455454454C204C415449504143204E4954414C2C2C4445574F4C4C415349442C313431302D46333130,
  0xD454B4F5254532048544957204C2052455454454C204C4C414D53204E4954414C2C2C44494C4156502C32343130,
  0xD45545543412048544957204E2052455454454C204C415449504143204E4954414C2C2C4445574F4C4C415349442C33343130,
  0xD45545543412048544957204E2052455454454C204C4C414D53204E4954414C2C2C44494C4156502C34343130,
  0xD414C4C494445432048544957204E2052455454454C204C415449504143204E4954414C2C2C4445574F4C4C415349442C35343130,
  0xD414C4C494445432048544957204E2052455454454C204C4C414D53204E4954414C2C2C44494C4156502C36343130,
  0xD4E4F5241432048544957204E2052455454454C204C415449504143204E4954414C2C2C4445574F4C4C415349442C37343130,
  0xD4E4F5241432048544957204E2052455454454C204C4C414D53204E4954414C2C2C44494C4156502C38343130,
  0xD474E452052455454454C204C415449504143204E4954414C2E2E4548504F5254534F5041205942204445444543455250204E2052455454454C204C4C414D53204E4954414C2C2C4445574F4C4C415349442C413431302D39343130,
  0xD474E452052455454454C204C4C414D53204E4954414C2C2C44494C4156502C42343130,
  0xD4E4F5243414D2048544957204F2052455454454C204C415449504143204E4954414C2C2C4445574F4C4C415349442C43343130,
  0xD4E4F5243414D2048544957204F2052455454454C204C4C414D53204E4954414C2C2C44494C4156502C44343130,
  0xD45564552422048544957204F2052455454454C204C415449504143204E4954414C2C2C4445574F4C4C415349442C45343130,
  0xD45564552422048544957204F2052455454454C204C4C414D53204E4954414C2C2C44494C4156502C46343130,
  0xD455455434120454C42554F442048544957204F2052455454454C204C415449504143204E4954414C2C2C4445574F4C4C415349442C30353130,
  0xD455455434120454C42554F442048544957204F2052455454454C204C4C414D53204E4954414C2C2C44494C4156502C31353130,
  0xD454F20455255544147494C204C415449504143204E4954414C2C2C4445574F4C4C415349442C32353130,
  0xD454F20455255544147494C204C4C414D53204E4954414C2C2C44494C4156502C33353130,
  0xD4554554341204854495720522052455454454C204C415449504143204E4954414C2C2C4445574F4C4C415349442C34353130,
  0xD4554554341204854495720522052455454454C204C4C414D53204E4954414C2C2C44494C4156502C35353130,
  0xD414C4C49444543204854495720522052455454454C204C415449504143204E4954414C2C2C4445574F4C4C415349442C36353130,
  0xD414C4C49444543204854495720522052455454454C204C4C414D53204E4954414C2C2C44494C4156502C37353130,
  0xD4E4F524143204854495720522052455454454C204C415449504143204E4954414C2C2C4445574F4C4C415349442C38353130,
  0xD4E4F524143204854495720522052455454454C204C4C414D53204E4954414C2C2C44494C4156502C39353130,
  0xD4554554341204854495720532052455454454C204C415449504143204E4954414C2C2C4445574F4C4C415349442C41353130,
  0xD4554554341204854495720532052455454454C204C4C414D53204E4954414C2C2C44494C4156502C42353130,
  0xD58454C464D5543524943204854495720532052455454454C204C415449504143204E4954414C2C2C4445574F4C4C415349442C43353130,
  0xD58454C464D5543524943204854495720532052455454454C204C4C414D53204E4954414C2C2C44494C4156502C44353130,
  0xD414C4C49444543204854495720532052455454454C204C415449504143204E4954414C2C2C4445574F4C4C415349442C45353130,
  0xD414C4C49444543204854495720532052455454454C204C4C414D53204E4954414C2C2C44494C4156502C46353130,
  0xD4E4F524143204854495720532052455454454C204C415449504143204E4954414C2C2C4445574F4C4C415349442C30363130,
  0xD4E4F524143204854495720532052455454454C204C4C414D53204E4954414C2C2C44494C4156502C31363130,
  0xD414C4C49444543204854495720542052455454454C204C415449504143204E4954414C2C2C4445574F4C4C415349442C32363130,
  0xD414C4C49444543204854495720542052455454454C204C4C414D53204E4954414C2C2C44494C4156502C33363130,
  0xD4E4F524143204854495720542052455454454C204C415449504143204E4954414C2C2C4445574F4C4C415349442C34363130,
  0xD4E4F524143204854495720542052455454454C204C4C414D53204E4954414C2C2C44494C4156502C35363130,
  0xD454B4F525453204854495720542052455454454C204C415449504143204E4954414C2C2C4445574F4C4C415349442C36363130,
  0xD454B4F525453204854495720542052455454454C204C4C414D53204E4954414C2C2C44494C4156502C37363130,
  0xD45444C4954204854495720552052455454454C204C415449504143204E4954414C2C2C4445574F4C4C415349442C38363130,
  0xD45444C4954204854495720552052455454454C204C4C414D53204E4954414C2C2C44494C4156502C39363130,
  0xD4E4F5243414D204854495720552052455454454C204C415449504143204E4954414C2C2C4445574F4C4C415349442C41363130,
  0xD4E4F5243414D204854495720552052455454454C204C4C414D53204E4954414C2C2C44494C4156502C42363130,
  0xD4556455242204854495720552052455454454C204C415449504143204E4954414C2C2C4445574F4C4C415349442C43363130,
  0xD4556455242204854495720552052455454454C204C4C414D53204E4954414C2C2C44494C4156502C44363130,
  0xD45564F424120474E4952204854495720552052455454454C204C415449504143204E4954414C2C2C4445574F4C4C415349442C45363130,
  0xD45564F424120474E4952204854495720552052455454454C204C4C414D53204E4954414C2C2C44494C4156502C46363130,
  0xD455455434120454C42554F44204854495720552052455454454C204C415449504143204E4954414C2C2C4445574F4C4C415349442C30373130,
  0xD455455434120454C42554F44204854495720552052455454454C204C4C414D53204E4954414C2C2C44494C4156502C31373130,
  0xD4B454E4F474F204854495720552052455454454C204C415449504143204E4954414C2C2C4445574F4C4C415349442C32373130,
  0xD4B454E4F474F204854495720552052455454454C204C4C414D53204E4954414C2C2C44494C4156502C33373130,
  0xD58454C464D5543524943204854495720572052455454454C204C415449504143204E4954414C2C2C4445574F4C4C415349442C34373130,
  0xD58454C464D5543524943204854495720572052455454454C204C4C414D53204E4954414C2C2C44494C4156502C35373130,
  0xD58454C464D5543524943204854495720592052455454454C204C415449504143204E4954414C2C2C4445574F4C4C415349442C36373130,
  0xD58454C464D5543524943204854495720592052455454454C204C4C414D53204E4954414C2C2C44494C4156502C37373130,
  0xD45545543412048544957205A2052455454454C204C415449504143204E4954414C2E2E534953455245414944204854495720592052455454454C204C415449504143204E4954414C2C2C4445574F4C4C415349442C393731302D38373130,
  0xD45545543412048544957205A2052455454454C204C4C414D53204E4954414C2C2C44494C4156502C41373130,
  0xD45564F424120544F442048544957205A2052455454454C204C415449504143204E4954414C2C2C4445574F4C4C415349442C42373130,
  0xD45564F424120544F442048544957205A2052455454454C204C4C414D53204E4954414C2C2C44494C4156502C43373130,
  0xD4E4F5241432048544957205A2052455454454C204C415449504143204E4954414C2C2C4445574F4C4C415349442C44373130,
  0xD4E4F5241432048544957205A2052455454454C204C4C414D53204E4954414C2C2C44494C4156502C45373130,
  0xD5320474E4F4C2052455454454C204C4C414D53204E4954414C2C2C4445574F4C4C415349442C46373130,
  0xD454B4F525453204854495720422052455454454C204C4C414D53204E4954414C2C2C44494C4156502C30383130,
  0xD524142504F54204854495720422052455454454C204C415449504143204E4954414C2E2E4B4F4F48204854495720422052455454454C204C415449504143204E4954414C2C2C4445574F4C4C415349442C323831302D31383130,
  0xD524142504F54204854495720422052455454454C204C4C414D53204E4954414C2C2C44494C4156502C33383130,
  0xD58495320454E4F542052455454454C204C415449504143204E4954414C2C2C4445574F4C4C415349442C34383130,
  0xD58495320454E4F542052455454454C204C4C414D53204E4954414C2C2C44494C4156502C35383130,
  0xD4B4F4F48204854495720432052455454454C204C415449504143204E4954414C2E2E4F204E45504F2052455454454C204C415449504143204E4954414C2C2C4445574F4C4C415349442C373831302D36383130,
  0xD4B4F4F48204854495720432052455454454C204C4C414D53204E4954414C2C2C44494C4156502C38383130,
  0xD524142504F54204854495720442052455454454C204C415449504143204E4954414C2E2E44204E4143495246412052455454454C204C415449504143204E4954414C2C2C4445574F4C4C415349442C423831302D39383130,
  0xD41544C45442044454E5255542052455454454C204C4C414D53204E4954414C2E2E524142504F54204854495720442052455454454C204C4C414D53204E4954414C2C2C44494C4156502C443831302D43383130,
  0xD4B4F4F48204854495720462052455454454C204C415449504143204E4954414C2E2E452044455352455645522052455454454C204C415449504143204E4954414C2C2C4445574F4C4C415349442C313931302D45383130,
  0xD4B4F4F48204854495720462052455454454C204C4C414D53204E4954414C2C2C44494C4156502C32393130,
  0xD414D4D41472052455454454C204C415449504143204E4954414C2E2E4B4F4F48204854495720472052455454454C204C415449504143204E4954414C2C2C4445574F4C4C415349442C343931302D33393130,
  0xD56482052455454454C204C4C414D53204E4954414C2C2C44494C4156502C35393130,
  0xD4B4F4F482048544957204B2052455454454C204C415449504143204E4954414C2E2E41544F492052455454454C204C415449504143204E4954414C2C2C4445574F4C4C415349442C383931302D36393130,
  0xD454B4F5254532048544957204144424D414C2052455454454C204C4C414D53204E4954414C2E2E4B4F4F482048544957204B2052455454454C204C4C414D53204E4954414C2C2C44494C4156502C423931302D39393130,
  0xD4B4F4F48205446454C2048544957204E2052455454454C204C415449504143204E4954414C2E2E4D2044454E5255542052455454454C204C415449504143204E4954414C2C2C4445574F4C4C415349442C443931302D43393130,
  0xD47454C20544847495220474E4F4C2048544957204E2052455454454C204C4C414D53204E4954414C2C2C44494C4156502C45393130,
  0xD4E524F482048544957204F2052455454454C204C415449504143204E4954414C2E2E45444C495420454C4444494D2048544957204F2052455454454C204C415449504143204E4954414C2C2C4445574F4C4C415349442C304131302D46393130,
  0xD4E524F482048544957204F2052455454454C204C4C414D53204E4954414C2C2C44494C4156502C31413130,
  0xD494F2052455454454C204C415449504143204E4954414C2C2C4445574F4C4C415349442C32413130,
  0xD494F2052455454454C204C4C414D53204E4954414C2C2C44494C4156502C33413130,
  0xD4B4F4F48204854495720502052455454454C204C415449504143204E4954414C2C2C4445574F4C4C415349442C34413130,
  0xD4B4F4F48204854495720502052455454454C204C4C414D53204E4954414C2C2C44494C4156502C35413130,
  0xD4F575420454E4F542052455454454C204C415449504143204E4954414C2E2E52592052455454454C204E4954414C2C2C4445574F4C4C415349442C374131302D36413130,
  0xD4F575420454E4F542052455454454C204C4C414D53204E4954414C2C2C44494C4156502C38413130,
  0xD4853452052455454454C204C415449504143204E4954414C2C2C4445574F4C4C415349442C39413130,
  0xD4B4F4F48204C4154414C4150204854495720542052455454454C204C4C414D53204E4954414C2E2E504F4F4C204853452044455352455645522052455454454C204E4954414C2C2C44494C4156502C424131302D41413130,
  0xD4B4F4F48204854495720542052455454454C204C415449504143204E4954414C2C2C4445574F4C4C415349442C43413130,
  0xD4B4F4F48204854495720542052455454454C204C4C414D53204E4954414C2C2C44494C4156502C44413130,
  0xD4E524F48204854495720552052455454454C204C415449504143204E4954414C2E2E4B4F4F482058454C464F52544552204854495720542052455454454C204C415449504143204E4954414C2C2C4445574F4C4C415349442C464131302D45413130,
  0xD4E524F48204854495720552052455454454C204C4C414D53204E4954414C2C2C44494C4156502C30423130,
  0xD4B4F4F48204854495720592052455454454C204C415449504143204E4954414C2E2E4E4F4C495350552052455454454C204C415449504143204E4954414C2C2C4445574F4C4C415349442C334231302D31423130,
  0xD4B4F4F48204854495720592052455454454C204C4C414D53204E4954414C2C2C44494C4156502C34423130,
  0xD454B4F5254532048544957205A2052455454454C204C415449504143204E4954414C2C2C4445574F4C4C415349442C35423130,
  0xD454B4F5254532048544957205A2052455454454C204C4C414D53204E4954414C2C2C44494C4156502C36423130,
  0xD444553524556455220485A452052455454454C204C415449504143204E4954414C2E2E485A452052455454454C204C415449504143204E4954414C2C2C4445574F4C4C415349442C384231302D37423130,
  0xD454B4F5254532048544957204F57542052455454454C204E4954414C2E2E444553524556455220485A452052455454454C204C4C414D53204E4954414C2C2C44494C4156502C424231302D39423130,
  0xD4556494620454E4F542052455454454C204C415449504143204E4954414C2C2C4445574F4C4C415349442C43423130,
  0xD4B43494C432058454C464F525445522052455454454C204E4954414C2E2E4556494620454E4F542052455454454C204C4C414D53204E4954414C2C2C44494C4156502C334331302D44423130,
  0xD4E4F524143204854495720412052455454454C204C415449504143204E4954414C2E2E4E4F5241432048544957205A442052455454454C204C415449504143204E4954414C2C2C4445574F4C4C415349442C444331302D34433130,
  0xD4E4F524143204854495720412052455454454C204C4C414D53204E4954414C2C2C44494C4156502C45433130,
  0xD4E4F524143204854495720492052455454454C204C415449504143204E4954414C2C2C4445574F4C4C415349442C46433130,
  0xD4E4F524143204854495720492052455454454C204C4C414D53204E4954414C2C2C44494C4156502C30443130,
  0xD4E4F5241432048544957204F2052455454454C204C415449504143204E4954414C2C2C4445574F4C4C415349442C31443130,
  0xD4E4F5241432048544957204F2052455454454C204C4C414D53204E4954414C2C2C44494C4156502C32443130,
  0xD4E4F524143204854495720552052455454454C204C415449504143204E4954414C2C2C4445574F4C4C415349442C33443130,
  0xD4E4F524143204854495720552052455454454C204C4C414D53204E4954414C2C2C44494C4156502C34443130,
  0xD4E4F5243414D20444E4120534953455245414944204854495720552052455454454C204C415449504143204E4954414C2C2C4445574F4C4C415349442C35443130,
  0xD4E4F5243414D20444E4120534953455245414944204854495720552052455454454C204C4C414D53204E4954414C2C2C44494C4156502C36443130,
  0xD455455434120444E4120534953455245414944204854495720552052455454454C204C415449504143204E4954414C2C2C4445574F4C4C415349442C37443130,
  0xD455455434120444E4120534953455245414944204854495720552052455454454C204C4C414D53204E4954414C2C2C44494C4156502C38443130,
  0xD4E4F52414320444E4120534953455245414944204854495720552052455454454C204C415449504143204E4954414C2C2C4445574F4C4C415349442C39443130,
  0xD4E4F52414320444E4120534953455245414944204854495720552052455454454C204C4C414D53204E4954414C2C2C44494C4156502C41443130,
  0xD455641524720444E4120534953455245414944204854495720552052455454454C204C415449504143204E4954414C2C2C4445574F4C4C415349442C42443130,
  0xD452044454E5255542052455454454C204C4C414D53204E4954414C2E2E455641524720444E4120534953455245414944204854495720552052455454454C204C4C414D53204E4954414C2C2C44494C4156502C444431302D43443130,
  0xD4E4F5243414D20444E4120534953455245414944204854495720412052455454454C204C415449504143204E4954414C2C2C4445574F4C4C415349442C45443130,
  0xD4E4F5243414D20444E4120534953455245414944204854495720412052455454454C204C4C414D53204E4954414C2C2C44494C4156502C46443130,
  0xD4E4F5243414D20444E412045564F424120544F44204854495720412052455454454C204C415449504143204E4954414C2C2C4445574F4C4C415349442C30453130,
  0xD4E4F5243414D20444E412045564F424120544F44204854495720412052455454454C204C4C414D53204E4954414C2C2C44494C4156502C31453130,
  0xD4E4F5243414D20485449572045412052455454454C204C415449504143204E4954414C2C2C4445574F4C4C415349442C32453130,
  0xD4E4F5243414D20485449572045412052455454454C204C4C414D53204E4954414C2C2C44494C4156502C33453130,
  0xD454B4F525453204854495720472052455454454C204C415449504143204E4954414C2C2C4445574F4C4C415349442C34453130,
  0xD454B4F525453204854495720472052455454454C204C4C414D53204E4954414C2C2C44494C4156502C35453130,
  0xD4E4F524143204854495720472052455454454C204C415449504143204E4954414C2C2C4445574F4C4C415349442C36453130,
  0xD4E4F524143204854495720472052455454454C204C4C414D53204E4954414C2C2C44494C4156502C37453130,
  0xD4E4F5241432048544957204B2052455454454C204C415449504143204E4954414C2C2C4445574F4C4C415349442C38453130,
  0xD4E4F5241432048544957204B2052455454454C204C4C414D53204E4954414C2C2C44494C4156502C39453130,
  0xD4B454E4F474F2048544957204F2052455454454C204C415449504143204E4954414C2C2C4445574F4C4C415349442C41453130,
  0xD4B454E4F474F2048544957204F2052455454454C204C4C414D53204E4954414C2C2C44494C4156502C42453130,
  0xD4E4F5243414D20444E41204B454E4F474F2048544957204F2052455454454C204C415449504143204E4954414C2C2C4445574F4C4C415349442C43453130,
  0xD4E4F5243414D20444E41204B454E4F474F2048544957204F2052455454454C204C4C414D53204E4954414C2C2C44494C4156502C44453130,
  0xD4E4F524143204854495720485A452052455454454C204C415449504143204E4954414C2C2C4445574F4C4C415349442C45453130,
  0xD4E4F5241432048544957204A2052455454454C204C4C414D53204E4954414C2E2E4E4F524143204854495720485A452052455454454C204C4C414D53204E4954414C2C2C44494C4156502C304631302D46453130,
  0xD4554554341204854495720472052455454454C204C415449504143204E4954414C2E2E5A442052455454454C204C415449504143204E4954414C2C2C4445574F4C4C415349442C344631302D31463130,
  0xD4554554341204854495720472052455454454C204C4C414D53204E4954414C2C2C44494C4156502C35463130,
  0xD45564152472048544957204E2052455454454C204C415449504143204E4954414C2E2E52494157482052455454454C204C415449504143204E4954414C2C2C4445574F4C4C415349442C384631302D36463130,
  0xD45564152472048544957204E2052455454454C204C4C414D53204E4954414C2C2C44494C4156502C39463130,
  0xD455455434120444E412045564F424120474E4952204854495720412052455454454C204C415449504143204E4954414C2C2C4445574F4C4C415349442C41463130,
  0xD455455434120444E412045564F424120474E4952204854495720412052455454454C204C4C414D53204E4954414C2C2C44494C4156502C42463130,
  0xD455455434120485449572045412052455454454C204C415449504143204E4954414C2C2C4445574F4C4C415349442C43463130,
  0xD455455434120485449572045412052455454454C204C4C414D53204E4954414C2C2C44494C4156502C44463130,
  0xD455455434120444E4120454B4F5254532048544957204F2052455454454C204C415449504143204E4954414C2C2C4445574F4C4C415349442C45463130,
  0xD455455434120444E4120454B4F5254532048544957204F2052455454454C204C4C414D53204E4954414C2C2C44494C4156502C46463130,
  0xD455641524720454C42554F44204854495720412052455454454C204C415449504143204E4954414C2C2C4445574F4C4C415349442C30303230,
  0xD455641524720454C42554F44204854495720412052455454454C204C4C414D53204E4954414C2C2C44494C4156502C31303230,
  0xD4556455242204445545245564E49204854495720412052455454454C204C415449504143204E4954414C2C2C4445574F4C4C415349442C32303230,
  0xD4556455242204445545245564E49204854495720412052455454454C204C4C414D53204E4954414C2C2C44494C4156502C33303230,
  0xD455641524720454C42554F44204854495720452052455454454C204C415449504143204E4954414C2C2C4445574F4C4C415349442C34303230,
  0xD455641524720454C42554F44204854495720452052455454454C204C4C414D53204E4954414C2C2C44494C4156502C35303230,
  0xD4556455242204445545245564E49204854495720452052455454454C204C415449504143204E4954414C2C2C4445574F4C4C415349442C36303230,
  0xD4556455242204445545245564E49204854495720452052455454454C204C4C414D53204E4954414C2C2C44494C4156502C37303230,
  0xD455641524720454C42554F44204854495720492052455454454C204C415449504143204E4954414C2C2C4445574F4C4C415349442C38303230,
  0xD455641524720454C42554F44204854495720492052455454454C204C4C414D53204E4954414C2C2C44494C4156502C39303230,
  0xD4556455242204445545245564E49204854495720492052455454454C204C415449504143204E4954414C2C2C4445574F4C4C415349442C41303230,
  0xD4556455242204445545245564E49204854495720492052455454454C204C4C414D53204E4954414C2C2C44494C4156502C42303230,
  0xD455641524720454C42554F442048544957204F2052455454454C204C415449504143204E4954414C2C2C4445574F4C4C415349442C43303230,
  0xD455641524720454C42554F442048544957204F2052455454454C204C4C414D53204E4954414C2C2C44494C4156502C44303230,
  0xD4556455242204445545245564E492048544957204F2052455454454C204C415449504143204E4954414C2C2C4445574F4C4C415349442C45303230,
  0xD4556455242204445545245564E492048544957204F2052455454454C204C4C414D53204E4954414C2C2C44494C4156502C46303230,
  0xD455641524720454C42554F44204854495720522052455454454C204C415449504143204E4954414C2C2C4445574F4C4C415349442C30313230,
  0xD455641524720454C42554F44204854495720522052455454454C204C4C414D53204E4954414C2C2C44494C4156502C31313230,
  0xD4556455242204445545245564E49204854495720522052455454454C204C415449504143204E4954414C2C2C4445574F4C4C415349442C32313230,
  0xD4556455242204445545245564E49204854495720522052455454454C204C4C414D53204E4954414C2C2C44494C4156502C33313230,
  0xD455641524720454C42554F44204854495720552052455454454C204C415449504143204E4954414C2C2C4445574F4C4C415349442C34313230,
  0xD455641524720454C42554F44204854495720552052455454454C204C4C414D53204E4954414C2C2C44494C4156502C35313230,
  0xD4556455242204445545245564E49204854495720552052455454454C204C415449504143204E4954414C2C2C4445574F4C4C415349442C36313230,
  0xD4556455242204445545245564E49204854495720552052455454454C204C4C414D53204E4954414C2C2C44494C4156502C37313230,
  0xD574F4C454220414D4D4F43204854495720532052455454454C204C415449504143204E4954414C2C2C4445574F4C4C415349442C38313230,
  0xD574F4C454220414D4D4F43204854495720532052455454454C204C4C414D53204E4954414C2C2C44494C4156502C39313230,
  0xD574F4C454220414D4D4F43204854495720542052455454454C204C415449504143204E4954414C2C2C4445574F4C4C415349442C41313230,
  0xD574F4C454220414D4D4F43204854495720542052455454454C204C4C414D53204E4954414C2C2C44494C4156502C42313230,
  0xD48474F592052455454454C204C415449504143204E4954414C2C2C4445574F4C4C415349442C43313230,
  0xD48474F592052455454454C204C4C414D53204E4954414C2C2C44494C4156502C44313230,
  0xD4E4F524143204854495720482052455454454C204C415449504143204E4954414C2C2C4445574F4C4C415349442C45313230,
  0xD4E4F524143204854495720482052455454454C204C4C414D53204E4954414C2C2C44494C4156502C46313230,
  0xD47454C20544847495220474E4F4C2048544957204E2052455454454C204C415449504143204E4954414C2C2C4445574F4C4C415349442C30323230,
  0xD4C525543204854495720442052455454454C204C4C414D53204E4954414C2C2C44494C4156502C31323230]

def csvText1 : List Nat := [
  0xD554F2052455454454C204C415449504143204E4954414C2C2C4445574F4C4C415349442C32323230,
  0xD554F2052455454454C204C4C414D53204E4954414C2C2C44494C4156502C33323230,
  0xD4B4F4F482048544957205A2052455454454C204C415449504143204E4954414C2C2C4445574F4C4C415349442C34323230,
  0xD4B4F4F482048544957205A2052455454454C204C4C414D53204E4954414C2C2C44494C4156502C35323230,
  0xD45564F424120544F44204854495720412052455454454C204C415449504143204E4954414C2C2C4445574F4C4C415349442C36323230,
  0xD45564F424120544F44204854495720412052455454454C204C4C414D53204E4954414C2C2C44494C4156502C37323230,
  0xD414C4C49444543204854495720452052455454454C204C415449504143204E4954414C2C2C4445574F4C4C415349442C38323230,
  0xD414C4C49444543204854495720452052455454454C204C4C414D53204E4954414C2C2C44494C4156502C39323230,
  0xD4E4F5243414D20444E41205349534552454149442048544957204F2052455454454C204C415449504143204E4954414C2C2C4445574F4C4C415349442C41323230,
  0xD4E4F5243414D20444E41205349534552454149442048544957204F2052455454454C204C4C414D53204E4954414C2C2C44494C4156502C42323230,
  0xD4E4F5243414D20444E412045444C49542048544957204F2052455454454C204C415449504143204E4954414C2C2C4445574F4C4C415349442C43323230,
  0xD4E4F5243414D20444E412045444C49542048544957204F2052455454454C204C4C414D53204E4954414C2C2C44494C4156502C44323230,
  0xD45564F424120544F442048544957204F2052455454454C204C415449504143204E4954414C2C2C4445574F4C4C415349442C45323230,
  0xD45564F424120544F442048544957204F2052455454454C204C4C414D53204E4954414C2C2C44494C4156502C46323230,
  0xD4E4F5243414D20444E412045564F424120544F442048544957204F2052455454454C204C415449504143204E4954414C2C2C4445574F4C4C415349442C30333230,
  0xD4E4F5243414D20444E412045564F424120544F442048544957204F2052455454454C204C4C414D53204E4954414C2C2C44494C4156502C31333230,
  0xD4E4F5243414D204854495720592052455454454C204C415449504143204E4954414C2C2C4445574F4C4C415349442C32333230,
  0xD485041524749442050512052455454454C204C4C414D53204E4954414C2E2E4E4F5243414D204854495720592052455454454C204C4C414D53204E4954414C2C2C44494C4156502C393332302D33333230,
  0xD454B4F525453204854495720432052455454454C204C415449504143204E4954414C2E2E454B4F525453204854495720412052455454454C204C415449504143204E4954414C2C2C4445574F4C4C415349442C423332302D41333230,
  0xD454B4F525453204854495720432052455454454C204C4C414D53204E4954414C2C2C44494C4156502C43333230,
  0xD454B4F525453204C414E4F47414944204854495720542052455454454C204C415449504143204E4954414C2E2E5241422048544957204C2052455454454C204C415449504143204E4954414C2C2C4445574F4C4C415349442C453332302D44333230,
  0xD4C4941542048534157532048544957205A2052455454454C204C4C414D53204E4954414C2E2E4C494154204853415753204854495720532052455454454C204C4C414D53204E4954414C2C2C44494C4156502C303432302D46333230,
  0xD504F5453204C4154544F4C472052455454454C204C415449504143204E4954414C2C2C4445574F4C4C415349442C31343230,
  0xD504F5453204C4154544F4C472052455454454C204C4C414D53204E4954414C2C2C44494C4156502C32343230,
  0xD454B4F525453204854495720452052455454454C204C415449504143204E4954414C2E2E454B4F525453204854495720422052455454454C204C415449504143204E4954414C2C2C4445574F4C4C415349442C363432302D33343230,
  0xD454B4F525453204854495720452052455454454C204C4C414D53204E4954414C2C2C44494C4156502C37343230,
  0xD454B4F5254532048544957204A2052455454454C204C415449504143204E4954414C2C2C4445574F4C4C415349442C38343230,
  0xD454B4F5254532048544957204A2052455454454C204C4C414D53204E4954414C2C2C44494C4156502C39343230,
  0xD4C494154204B4F4F4820485449572051204C4C414D532052455454454C204C415449504143204E4954414C2C2C4445574F4C4C415349442C41343230,
  0xD4C494154204B4F4F48204854495720512052455454454C204C4C414D53204E4954414C2C2C44494C4156502C42343230,
  0xD454B4F525453204854495720522052455454454C204C415449504143204E4954414C2C2C4445574F4C4C415349442C43343230,
  0xD454B4F525453204854495720522052455454454C204C4C414D53204E4954414C2C2C44494C4156502C44343230,
  0xD454B4F525453204854495720592052455454454C204C415449504143204E4954414C2C2C4445574F4C4C415349442C45343230,
  0xD4C49415420444E41204B4F4F4848534946204854495720482044454E5255542052455454454C204C4C414D53204E4954414C2E2E454B4F525453204854495720592052455454454C204C4C414D53204E4954414C2C2C44494C4156502C464132302D46343230,
  0xD59204C4C414D532052455454454C205245494649444F4D2E2E48204C4C414D532052455454454C205245494649444F4D2C2C4445574F4C4C415349442C384232302D30423230,
  0xD504F5453204C4154544F4C472044455352455645522052455454454C205245494649444F4D2E2E454D4952502052455454454C205245494649444F4D2C2C44494C4156502C314332302D39423230,
  0xD44414548574F525241204E574F442052455454454C205245494649444F4D2E2E44414548574F525241205446454C2052455454454C205245494649444F4D2C2C4445574F4C4C415349442C354332302D32433230,
  0xD4E4F4C4F432052414C55474E4149525420464C41482052455454454C205245494649444F4D2E2E544E454343412058454C464D55435249432052455454454C205245494649444F4D2C2C44494C4156502C314432302D36433230,
  0xD4B52414D20454E4F5420474E4954524150454420474E41592052455454454C205245494649444F4D2E2E474E495220464C414820544847495220444552544E45432052455454454C205245494649444F4D2C2C4445574F4C4C415349442C424532302D32443230,
  0xD474E4943494F562052455454454C205245494649444F4D2C2C44494C4156502C43453230,
  0xD4445544152495053414E552052455454454C205245494649444F4D2C2C4445574F4C4C415349442C44453230,
  0xD4548504F5254534F504120454C42554F442052455454454C205245494649444F4D2C2C44494C4156502C45453230,
  0xD574F525241205446454C20574F4C2052455454454C205245494649444F4D2E2E44414548574F525241204E574F4420574F4C2052455454454C205245494649444F4D2C2C4445574F4C4C415349442C464632302D46453230,
  0xD454E494C5245564F20454C42554F4420474E494E49424D4F432E2E544E4543434120455641524720474E494E49424D4F432C2C44494C4156502C463333302D30303330,
  0xD4B52414D20454E4F5420455455434120474E494E49424D4F432E2E4B52414D20454E4F5420455641524720474E494E49424D4F432C2C4445574F4C4C415349442C313433302D30343330,
  0xD494E454D4F505349524550204B4545524720474E494E49424D4F432C2C44494C4156502C32343330,
  0xD494E454D4D41524745474F5059204B4545524720474E494E49424D4F432E2E53494E4F524F4B204B4545524720474E494E49424D4F432C2C4445574F4C4C415349442C353433302D33343330,
  0xD574F4C454220574F525241205344524157505520474E494E49424D4F432E2E45564F42412045474449524220474E494E49424D4F432C2C44494C4156502C453433302D36343330,
  0xD52454E494F4A20454D45485041524720474E494E49424D4F432C2C4445574F4C4C415349442C46343330,
  0xD582052455454454C204C4C414D53204E4954414C20474E494E49424D4F432E2E45564F42412044414548574F52524120544847495220474E494E49424D4F432C2C44494C4156502C463633302D30353330,
  0xD415445482052455454454C204C415449504143204B454552472C2C4445574F4C4C415349442C30373330,
  0xD415445482052455454454C204C4C414D53204B454552472C2C44494C4156502C31373330,
  0xD49504D415320434941484352412052455454454C204C415449504143204B454552472C2C4445574F4C4C415349442C32373330,
  0xD49504D415320434941484352412052455454454C204C4C414D53204B454552472C2C44494C4156502C33373330,
  0xD4E474953204C4152454D554E204B454552472C2C4445574F4C4C415349442C34373330,
  0xD4E474953204C4152454D554E205245574F4C204B454552472C2C4F545845544E4F432C35373330,
  0xD414D4D41474944204E41494C5948504D41502052455454454C204C415449504143204B454552472C2C4445574F4C4C415349442C36373330,
  0xD414D4D41474944204E41494C5948504D41502052455454454C204C4C414D53204B454552472C2C44494C4156502C37373330,
  0xD3E44455652455345523C2E2E3E44455652455345523C2C2C44454E47495353414E552C393733302D38373330,
  0xD494E454D4D41524745474F5059204B454552472C2C4445574F4C4C415349442C41373330,
  0xD4C4F424D595320414D474953204554414E554C20444554544F44204445535245564552204C4C414D53204B454552472E2E4C4F424D595320414D474953204554414E554C204445535245564552204C4C414D53204B454552472C2C44494C4156502C443733302D42373330,
  0xD544F592052455454454C204C415449504143204B454552472E2E4B52414D204E4F495453455551204B454552472C2C4445574F4C4C415349442C463733302D45373330,
  0xD3E44455652455345523C2E2E3E44455652455345523C2C2C44454E47495353414E552C333833302D30383330,
  0xD534F4E4F5420485449572041544F492052455454454C204C415449504143204B454552472E2E534F4E4F54204B454552472C2C4445574F4C4C415349442C413833302D34383330,
  0xD3E44455652455345523C2C2C44454E47495353414E552C42383330,
  0xD534F4E4F542048544957204E4F5243494D4F2052455454454C204C415449504143204B454552472C2C4445574F4C4C415349442C43383330,
  0xD3E44455652455345523C2C2C44454E47495353414E552C44383330,
  0xD534F4E4F542048544957204147454D4F2052455454454C204C415449504143204B454552472E2E534F4E4F542048544957204E4F4C495350552052455454454C204C415449504143204B454552472C2C4445574F4C4C415349442C463833302D45383330,
  0xD534F4E4F5420444E4120414B4954594C41494420485449572041544F492052455454454C204C4C414D53204B454552472C2C44494C4156502C30393330,
  0xD4F48522052455454454C204C415449504143204B454552472E2E4148504C412052455454454C204C415449504143204B454552472C2C4445574F4C4C415349442C314133302D31393330,
  0xD3E44455652455345523C2C2C44454E47495353414E552C32413330,
  0xD414B4954594C4149442048544957204E4F4C495350552052455454454C204C415449504143204B454552472E2E414D4749532052455454454C204C415449504143204B454552472C2C4445574F4C4C415349442C424133302D33413330,
  0xD534F4E4F542048544957204147454D4F2052455454454C204C4C414D53204B454552472E2E534F4E4F542048544957204148504C412052455454454C204C4C414D53204B454552472C2C44494C4156502C454333302D43413330,
  0xD4C4F424D5953204950204B454552472E2E4C4F424D59532049414B204C415449504143204B454552472C2C4445574F4C4C415349442C364433302D46433330,
  0xD4C4F424D59532049414B204B454552472C2C44494C4156502C37443330,
  0xD4150504F4B20434941484352412052455454454C204B454552472C2C4445574F4C4C415349442C38443330,
  0xD4150504F4B20434941484352412052455454454C204C4C414D53204B454552472C2C44494C4156502C39443330,
  0xD414D474954532052455454454C204B454552472C2C4445574F4C4C415349442C41443330,
  0xD414D474954532052455454454C204C4C414D53204B454552472C2C44494C4156502C42443330,
  0xD414D4D414749442052455454454C204B454552472C2C4445574F4C4C415349442C43443330,
  0xD414D4D414749442052455454454C204C4C414D53204B454552472C2C44494C4156502C44443330,
  0xD4150504F4B2052455454454C204B454552472C2C4445574F4C4C415349442C45443330,
  0xD4150504F4B2052455454454C204C4C414D53204B454552472C2C44494C4156502C46443330,
  0xD49504D41532052455454454C204B454552472C2C4445574F4C4C415349442C30453330,
  0xD49504D41532052455454454C204C4C414D53204B454552472C2C44494C4156502C31453330,
  0xD494548532052455454454C204C41544950414320434954504F432C2C4445574F4C4C415349442C32453330,
  0xD494548532052455454454C204C4C414D5320434954504F432C2C44494C4156502C33453330,
  0xD4945462052455454454C204C41544950414320434954504F432C2C4445574F4C4C415349442C34453330,
  0xD4945462052455454454C204C4C414D5320434954504F432C2C44494C4156502C35453330,
  0xD4945484B2052455454454C204C41544950414320434954504F432C2C4445574F4C4C415349442C36453330,
  0xD4945484B2052455454454C204C4C414D5320434954504F432C2C44494C4156502C37453330,
  0xD49524F482052455454454C204C41544950414320434954504F432C2C4445574F4C4C415349442C38453330,
  0xD49524F482052455454454C204C4C414D5320434954504F432C2C44494C4156502C39453330,
  0xD4149474E41472052455454454C204C41544950414320434954504F432C2C4445574F4C4C415349442C41453330,
  0xD4149474E41472052455454454C204C4C414D5320434954504F432C2C44494C4156502C42453330,
  0xD414D4948532052455454454C204C41544950414320434954504F432C2C4445574F4C4C415349442C43453330,
  0xD414D4948532052455454454C204C4C414D5320434954504F432C2C44494C4156502C44453330,
  0xD4945442052455454454C204C41544950414320434954504F432C2C4445574F4C4C415349442C45453330,
  0xD4945442052455454454C204C4C414D5320434954504F432C2C44494C4156502C46453330,
  0xD4C4F424D595320414D474953204554414E554C204B454552472E2E4C4F424D595320415050414B204B454552472C2C4445574F4C4C415349442C324633302D30463330,
  0xD544F592052455454454C204B454552472C2C44494C4156502C33463330,
  0xD4F48532052455454454C204C415449504143204B454552472E2E4C4F424D5953204154454854204C415449504143204B454552472C2C4445574F4C4C415349442C374633302D34463330,
  0xD4F48532052455454454C204C4C414D53204B454552472C2C44494C4156502C38463330,
  0xD4E41532052455454454C204C415449504143204B454552472E2E4C4F424D595320414D474953204554414E554C204C415449504143204B454552472C2C4445574F4C4C415349442C414633302D39463330,
  0xD4C4F424D595320454B4F5254532048544957204F4852204B454552472E2E4E41532052455454454C204C4C414D53204B454552472C2C44494C4156502C434633302D42463330,
  0xD41592052455454454C204C4154495041432043494C4C495259432E2E4C4F424D595320414D474953204554414E554C204445535245564552204C415449504143204B454552472C2C4445574F4C4C415349442C463234302D44463330,
  0xD45485A442052455454454C204C4C414D532043494C4C495259432E2E412052455454454C204C4C414D532043494C4C495259432C2C44494C4156502C463534302D30333430,
  0xD4147454D4F2052455454454C204C4154495041432043494C4C495259432C2C4445574F4C4C415349442C30363430,
  0xD4147454D4F2052455454454C204C4C414D532043494C4C495259432C2C44494C4156502C31363430,
  0xD5441592052455454454C204C4154495041432043494C4C495259432C2C4445574F4C4C415349442C32363430,
  0xD5441592052455454454C204C4C414D532043494C4C495259432C2C44494C4156502C33363430,
  0xD45204445494649544F492052455454454C204C4154495041432043494C4C495259432C2C4445574F4C4C415349442C34363430,
  0xD45204445494649544F492052455454454C204C4C414D532043494C4C495259432C2C44494C4156502C35363430,
  0xD53555920454C5454494C2052455454454C204C4154495041432043494C4C495259432C2C4445574F4C4C415349442C36363430,
  0xD53555920454C5454494C2052455454454C204C4C414D532043494C4C495259432C2C44494C4156502C37363430,
  0xD53555920454C5454494C204445494649544F492052455454454C204C4154495041432043494C4C495259432C2C4445574F4C4C415349442C38363430,
  0xD53555920454C5454494C204445494649544F492052455454454C204C4C414D532043494C4C495259432C2C44494C4156502C39363430,
  0xD535559204749422052455454454C204C4154495041432043494C4C495259432C2C4445574F4C4C415349442C41363430,
  0xD535559204749422052455454454C204C4C414D532043494C4C495259432C2C44494C4156502C42363430,
  0xD53555920474942204445494649544F492052455454454C204C4154495041432043494C4C495259432C2C4445574F4C4C415349442C43363430,
  0xD53555920474942204445494649544F492052455454454C204C4C414D532043494C4C495259432C2C44494C4156502C44363430,
  0xD49534B2052455454454C204C4154495041432043494C4C495259432C2C4445574F4C4C415349442C45363430,
  0xD49534B2052455454454C204C4C414D532043494C4C495259432C2C44494C4156502C46363430,
  0xD4953502052455454454C204C4154495041432043494C4C495259432C2C4445574F4C4C415349442C30373430,
  0xD4953502052455454454C204C4C414D532043494C4C495259432C2C44494C4156502C31373430,
  0xD415449462052455454454C204C4154495041432043494C4C495259432C2C4445574F4C4C415349442C32373430,
  0xD415449462052455454454C204C4C414D532043494C4C495259432C2C44494C4156502C33373430,
  0xD41535449485A492052455454454C204C4154495041432043494C4C495259432C2C4445574F4C4C415349442C34373430,
  0xD41535449485A492052455454454C204C4C414D532043494C4C495259432C2C44494C4156502C35373430,
  0xD544E4543434120455641524720454C42554F4420485449572041535449485A492052455454454C204C4154495041432043494C4C495259432C2C4445574F4C4C415349442C36373430,
  0xD544E4543434120455641524720454C42554F4420485449572041535449485A492052455454454C204C4C414D532043494C4C495259432C2C44494C4156502C37373430,
  0xD4B552052455454454C204C4154495041432043494C4C495259432C2C4445574F4C4C415349442C38373430,
  0xD4B552052455454454C204C4C414D532043494C4C495259432C2C44494C4156502C39373430,
  0xD4147454D4F20444E554F522052455454454C204C4154495041432043494C4C495259432C2C4445574F4C4C415349442C41373430,
  0xD4147454D4F20444E554F522052455454454C204C4C414D532043494C4C495259432C2C44494C4156502C42373430,
  0xD4F4C5449542048544957204147454D4F2052455454454C204C4154495041432043494C4C495259432C2C4445574F4C4C415349442C43373430,
  0xD4F4C5449542048544957204147454D4F2052455454454C204C4C414D532043494C4C495259432C2C44494C4156502C44373430,
  0xD544F2052455454454C204C4154495041432043494C4C495259432C2C4445574F4C4C415349442C45373430,
  0xD544F2052455454454C204C4C414D532043494C4C495259432C2C44494C4156502C46373430,
  0xD4150504F4B2052455454454C204C4154495041432043494C4C495259432C2C4445574F4C4C415349442C30383430,
  0xD4150504F4B2052455454454C204C4C414D532043494C4C495259432C2C44494C4156502C31383430,
  0xD4E4749532053444E4153554F48542043494C4C495259432C2C4445574F4C4C415349442C32383430,
  0xD45495459524B4F502043494C4C4952594320474E494E49424D4F432E2E4F4C5449542043494C4C4952594320474E494E49424D4F432C2C44494C4156502C373834302D33383430,
  0xD4C494154204854495720492054524F48532052455454454C204C4154495041432043494C4C495259432E2E4E4749532053444E4153554F485420444552444E55482043494C4C4952594320474E494E49424D4F432C2C4445574F4C4C415349442C413834302D38383430,
  0xD4C494154204854495720492054524F48532052455454454C204C4C414D532043494C4C495259432C2C44494C4156502C42383430,
  0xD4E4749532054464F53494D45532052455454454C204C4154495041432043494C4C495259432C2C4445574F4C4C415349442C43383430,
  0xD4E4749532054464F53494D45532052455454454C204C4C414D532043494C4C495259432C2C44494C4156502C44383430,
  0xD4B43495420485449572052452052455454454C204C4154495041432043494C4C495259432C2C4445574F4C4C415349442C45383430,
  0xD4B43495420485449572052452052455454454C204C4C414D532043494C4C495259432C2C44494C4156502C46383430,
  0xD4E52555450552048544957204548472052455454454C204C4154495041432043494C4C495259432C2C4445574F4C4C415349442C30393430,
  0xD4E52555450552048544957204548472052455454454C204C4C414D532043494C4C495259432C2C44494C4156502C31393430,
  0xD454B4F5254532048544957204548472052455454454C204C4154495041432043494C4C495259432C2C4445574F4C4C415349442C32393430,
  0xD454B4F5254532048544957204548472052455454454C204C4C414D532043494C4C495259432C2C44494C4156502C33393430,
  0xD4B4F4F4820454C4444494D2048544957204548472052455454454C204C4154495041432043494C4C495259432C2C4445574F4C4C415349442C34393430,
  0xD4B4F4F4820454C4444494D2048544957204548472052455454454C204C4C414D532043494C4C495259432C2C44494C4156502C35393430,
  0xD5245444E454353454420485449572045485A2052455454454C204C4154495041432043494C4C495259432C2C4445574F4C4C415349442C36393430,
  0xD5245444E454353454420485449572045485A2052455454454C204C4C414D532043494C4C495259432C2C44494C4156502C37393430,
  0xD5245444E4543534544204854495720455A2052455454454C204C4154495041432043494C4C495259432C2C4445574F4C4C415349442C38393430,
  0xD5245444E4543534544204854495720455A2052455454454C204C4C414D532043494C4C495259432C2C44494C4156502C39393430,
  0xD5245444E4543534544204854495720414B2052455454454C204C4154495041432043494C4C495259432C2C4445574F4C4C415349442C41393430,
  0xD5245444E4543534544204854495720414B2052455454454C204C4C414D532043494C4C495259432C2C44494C4156502C42393430,
  0xD454B4F525453204C41434954524556204854495720414B2052455454454C204C4154495041432043494C4C495259432C2C4445574F4C4C415349442C43393430,
  0xD454B4F525453204C41434954524556204854495720414B2052455454454C204C4C414D532043494C4C495259432C2C44494C4156502C44393430,
  0xD454B4F525453204854495720414B2052455454454C204C4154495041432043494C4C495259432C2C4445574F4C4C415349442C45393430,
  0xD454B4F525453204854495720414B2052455454454C204C4C414D532043494C4C495259432C2C44494C4156502C46393430,
  0xD414B2052494B485341422052455454454C204C4154495041432043494C4C495259432C2C4445574F4C4C415349442C30413430,
  0xD414B2052494B485341422052455454454C204C4C414D532043494C4C495259432C2C44494C4156502C31413430,
  0xD5245444E45435345442048544957204E452052455454454C204C4154495041432043494C4C495259432C2C4445574F4C4C415349442C32413430,
  0xD5245444E45435345442048544957204E452052455454454C204C4C414D532043494C4C495259432C2C44494C4156502C33413430,
  0xD454847204E4520455255544147494C204C4154495041432043494C4C495259432C2C4445574F4C4C415349442C34413430,
  0xD454847204E4520455255544147494C204C4C414D532043494C4C495259432C2C44494C4156502C35413430,
  0xD4B4F4F4820454C4444494D20485449572045502052455454454C204C4154495041432043494C4C495259432C2C4445574F4C4C415349442C36413430,
  0xD4B4F4F4820454C4444494D20485449572045502052455454454C204C4C414D532043494C4C495259432C2C44494C4156502C37413430,
  0xD4148204E41495341484B42412052455454454C204C4154495041432043494C4C495259432C2C4445574F4C4C415349442C38413430,
  0xD4148204E41495341484B42412052455454454C204C4C414D532043494C4C495259432C2C44494C4156502C39413430,
  0xD5245444E454353454420485449572053452052455454454C204C4154495041432043494C4C495259432C2C4445574F4C4C415349442C41413430,
  0xD5245444E454353454420485449572053452052455454454C204C4C414D532043494C4C495259432C2C44494C4156502C42413430,
  0xD5245444E454353454420485449572045542052455454454C204C4154495041432043494C4C495259432C2C4445574F4C4C415349442C43413430,
  0xD5245444E454353454420485449572045542052455454454C204C4C414D532043494C4C495259432C2C44494C4156502C44413430,
  0xD552054484749415254532052455454454C204C4154495041432043494C4C495259432C2C4445574F4C4C415349442C45413430,
  0xD552054484749415254532052455454454C204C4C414D532043494C4C495259432C2C44494C4156502C46413430,
  0xD454B4F525453204854495720552054484749415254532052455454454C204C4154495041432043494C4C495259432C2C4445574F4C4C415349442C30423430,
  0xD454B4F525453204854495720552054484749415254532052455454454C204C4C414D532043494C4C495259432C2C44494C4156502C31423430,
  0xD5245444E454353454420485449572041482052455454454C204C4154495041432043494C4C495259432C2C4445574F4C4C415349442C32423430,
  0xD5245444E454353454420485449572041482052455454454C204C4C414D532043494C4C495259432C2C44494C4156502C33423430,
  0xD45535420455420455255544147494C204C4154495041432043494C4C495259432C2C4445574F4C4C415349442C34423430,
  0xD45535420455420455255544147494C204C4C414D532043494C4C495259432C2C44494C4156502C35423430,
  0xD5245444E45435345442048544957204548432052455454454C204C4154495041432043494C4C495259432C2C4445574F4C4C415349442C36423430,
  0xD5245444E45435345442048544957204548432052455454454C204C4C414D532043494C4C495259432C2C44494C4156502C37423430,
  0xD454B4F525453204C414349545245562048544957204548432052455454454C204C4154495041432043494C4C495259432C2C4445574F4C4C415349442C38423430,
  0xD454B4F525453204C414349545245562048544957204548432052455454454C204C4C414D532043494C4C495259432C2C44494C4156502C39423430,
  0xD414848532052455454454C204C4154495041432043494C4C495259432C2C4445574F4C4C415349442C41423430,
  0xD414848532052455454454C204C4C414D532043494C4C495259432C2C44494C4156502C42423430,
  0xD454843204E41495341484B42412052455454454C204C4154495041432043494C4C495259432C2C4445574F4C4C415349442C43423430,
  0xD454843204E41495341484B42412052455454454C204C4C414D532043494C4C495259432C2C44494C4156502C44423430,
  0xD5245444E4543534544204854495720454843204E41495341484B42412052455454454C204C4154495041432043494C4C495259432C2C4445574F4C4C415349442C45423430,
  0xD5245444E4543534544204854495720454843204E41495341484B42412052455454454C204C4C414D532043494C4C495259432C2C44494C4156502C46423430,
  0xD455645524220485449572045485A2052455454454C204C4154495041432043494C4C495259432E2E414B48434F4C41502052455454454C2043494C4C495259432C2C4445574F4C4C415349442C314334302D30433430,
  0xD455645524220485449572045485A2052455454454C204C4C414D532043494C4C495259432C2C44494C4156502C32433430,
  0xD4B4F4F48204854495720414B2052455454454C204C4154495041432043494C4C495259432C2C4445574F4C4C415349442C33433430,
  0xD4B4F4F48204854495720414B2052455454454C204C4C414D532043494C4C495259432C2C44494C4156502C34433430,
  0xD4C4941542048544957204C452052455454454C204C4154495041432043494C4C495259432C2C4445574F4C4C415349442C35433430,
  0xD4C4941542048544957204C452052455454454C204C4C414D532043494C4C495259432C2C44494C4156502C36433430,
  0xD4B4F4F482048544957204E452052455454454C204C4154495041432043494C4C495259432C2C4445574F4C4C415349442C37433430,
  0xD4B4F4F482048544957204E452052455454454C204C4C414D532043494C4C495259432C2C44494C4156502C38433430,
  0xD4C4941542048544957204E452052455454454C204C4154495041432043494C4C495259432C2C4445574F4C4C415349442C39433430,
  0xD4C4941542048544957204E452052455454454C204C4C414D532043494C4C495259432C2C44494C4156502C41433430,
  0xD454843204E41495353414B41484B2052455454454C204C4154495041432043494C4C495259432C2C4445574F4C4C415349442C42433430,
  0xD454843204E41495353414B41484B2052455454454C204C4C414D532043494C4C495259432C2C44494C4156502C43433430,
  0xD4C4941542048544957204D452052455454454C204C4154495041432043494C4C495259432C2C4445574F4C4C415349442C44433430,
  0xD414B48434F4C41502052455454454C204C4C414D532043494C4C495259432E2E4C4941542048544957204D452052455454454C204C4C414D532043494C4C495259432C2C44494C4156502C464334302D45433430,
  0xD4556455242204854495720412052455454454C204C4154495041432043494C4C495259432C2C4445574F4C4C415349442C30443430,
  0xD4556455242204854495720412052455454454C204C4C414D532043494C4C495259432C2C44494C4156502C31443430,
  0xD534953455245414944204854495720412052455454454C204C4154495041432043494C4C495259432C2C4445574F4C4C415349442C32443430,
  0xD534953455245414944204854495720412052455454454C204C4C414D532043494C4C495259432C2C44494C4156502C33443430,
  0xD4549204120455255544147494C204C4154495041432043494C4C495259432C2C4445574F4C4C415349442C34443430,
  0xD4549204120455255544147494C204C4C414D532043494C4C495259432C2C44494C4156502C35443430,
  0xD455645524220485449572045492052455454454C204C4154495041432043494C4C495259432C2C4445574F4C4C415349442C36443430,
  0xD455645524220485449572045492052455454454C204C4C414D532043494C4C495259432C2C44494C4156502C37443430,
  0xD41574843532052455454454C204C4154495041432043494C4C495259432C2C4445574F4C4C415349442C38443430,
  0xD41574843532052455454454C204C4C414D532043494C4C495259432C2C44494C4156502C39443430,
  0xD53495345524541494420485449572041574843532052455454454C204C4154495041432043494C4C495259432C2C4445574F4C4C415349442C41443430,
  0xD53495345524541494420485449572041574843532052455454454C204C4C414D532043494C4C495259432C2C44494C4156502C42443430,
  0xD53495345524541494420485449572045485A2052455454454C204C4154495041432043494C4C495259432C2C4445574F4C4C415349442C43443430,
  0xD53495345524541494420485449572045485A2052455454454C204C4C414D532043494C4C495259432C2C44494C4156502C44443430,
  0xD534953455245414944204854495720455A2052455454454C204C4154495041432043494C4C495259432C2C4445574F4C4C415349442C45443430,
  0xD534953455245414944204854495720455A2052455454454C204C4C414D532043494C4C495259432C2C44494C4156502C46443430,
  0xD455A44204E41495341484B42412052455454454C204C4154495041432043494C4C495259432C2C4445574F4C4C415349442C30453430,
  0xD455A44204E41495341484B42412052455454454C204C4C414D532043494C4C495259432C2C44494C4156502C31453430,
  0xD4E4F5243414D204854495720492052455454454C204C4154495041432043494C4C495259432C2C4445574F4C4C415349442C32453430,
  0xD4E4F5243414D204854495720492052455454454C204C4C414D532043494C4C495259432C2C44494C4156502C33453430,
  0xD534953455245414944204854495720492052455454454C204C4154495041432043494C4C495259432C2C4445574F4C4C415349442C34453430,
  0xD534953455245414944204854495720492052455454454C204C4C414D532043494C4C495259432C2C44494C4156502C35453430,
  0xD5349534552454149442048544957204F2052455454454C204C4154495041432043494C4C495259432C2C4445574F4C4C415349442C36453430,
  0xD5349534552454149442048544957204F2052455454454C204C4C414D532043494C4C495259432C2C44494C4156502C37453430,
  0xD4F204445525241422052455454454C204C4154495041432043494C4C495259432C2C4445574F4C4C415349442C38453430,
  0xD4F204445525241422052455454454C204C4C414D532043494C4C495259432C2C44494C4156502C39453430,
  0xD5349534552454149442048544957204F204445525241422052455454454C204C4154495041432043494C4C495259432C2C4445574F4C4C415349442C41453430,
  0xD5349534552454149442048544957204F204445525241422052455454454C204C4C414D532043494C4C495259432C2C44494C4156502C42453430,
  0xD534953455245414944204854495720452052455454454C204C4154495041432043494C4C495259432C2C4445574F4C4C415349442C43453430,
  0xD534953455245414944204854495720452052455454454C204C4C414D532043494C4C495259432C2C44494C4156502C44453430,
  0xD4E4F5243414D204854495720552052455454454C204C4154495041432043494C4C495259432C2C4445574F4C4C415349442C45453430,
  0xD4E4F5243414D204854495720552052455454454C204C4C414D532043494C4C495259432C2C44494C4156502C46453430,
  0xD534953455245414944204854495720552052455454454C204C4154495041432043494C4C495259432C2C4445574F4C4C415349442C30463430,
  0xD534953455245414944204854495720552052455454454C204C4C414D532043494C4C495259432C2C44494C4156502C31463430,
  0xD455455434120454C42554F44204854495720552052455454454C204C4154495041432043494C4C495259432C2C4445574F4C4C415349442C32463430,
  0xD455455434120454C42554F44204854495720552052455454454C204C4C414D532043494C4C495259432C2C44494C4156502C33463430,
  0xD5349534552454149442048544957204548432052455454454C204C4154495041432043494C4C495259432C2C4445574F4C4C415349442C34463430,
  0xD5349534552454149442048544957204548432052455454454C204C4C414D532043494C4C495259432C2C44494C4156502C35463430,
  0xD5245444E45435345442048544957204548472052455454454C204C4154495041432043494C4C495259432C2C4445574F4C4C415349442C36463430]

def csvText2 : List Nat := [
  0xD5245444E45435345442048544957204548472052455454454C204C4C414D532043494C4C495259432C2C44494C4156502C37463430,
  0xD534953455245414944204854495720555245592052455454454C204C4154495041432043494C4C495259432C2C4445574F4C4C415349442C38463430,
  0xD534953455245414944204854495720555245592052455454454C204C4C414D532043494C4C495259432C2C44494C4156502C39463430,
  0xD4B4F4F4820444E4120454B4F5254532048544957204548472052455454454C204C4154495041432043494C4C495259432C2C4445574F4C4C415349442C41463430,
  0xD4B4F4F4820444E4120454B4F5254532048544957204548472052455454454C204C4C414D532043494C4C495259432C2C44494C4156502C42463430,
  0xD4B4F4F4820485449572041482052455454454C204C4154495041432043494C4C495259432C2C4445574F4C4C415349442C43463430,
  0xD4B4F4F4820485449572041482052455454454C204C4C414D532043494C4C495259432C2C44494C4156502C44463430,
  0xD454B4F52545320485449572041482052455454454C204C4154495041432043494C4C495259432C2C4445574F4C4C415349442C45463430,
  0xD454B4F52545320485449572041482052455454454C204C4C414D532043494C4C495259432C2C44494C4156502C46463430,
  0xD454420494D4F4B2052455454454C204C4154495041432043494C4C495259432C2C4445574F4C4C415349442C30303530,
  0xD454420494D4F4B2052455454454C204C4C414D532043494C4C495259432C2C44494C4156502C31303530,
  0xD454A4420494D4F4B2052455454454C204C4154495041432043494C4C495259432C2C4445574F4C4C415349442C32303530,
  0xD454A4420494D4F4B2052455454454C204C4C414D532043494C4C495259432C2C44494C4156502C33303530,
  0xD454A5A20494D4F4B2052455454454C204C4154495041432043494C4C495259432C2C4445574F4C4C415349442C34303530,
  0xD454A5A20494D4F4B2052455454454C204C4C414D532043494C4C495259432C2C44494C4156502C35303530,
  0xD454A5A4420494D4F4B2052455454454C204C4154495041432043494C4C495259432C2C4445574F4C4C415349442C36303530,
  0xD454A5A4420494D4F4B2052455454454C204C4C414D532043494C4C495259432C2C44494C4156502C37303530,
  0xD454A4C20494D4F4B2052455454454C204C4154495041432043494C4C495259432C2C4445574F4C4C415349442C38303530,
  0xD454A4C20494D4F4B2052455454454C204C4C414D532043494C4C495259432C2C44494C4156502C39303530,
  0xD454A4E20494D4F4B2052455454454C204C4154495041432043494C4C495259432C2C4445574F4C4C415349442C41303530,
  0xD454A4E20494D4F4B2052455454454C204C4C414D532043494C4C495259432C2C44494C4156502C42303530,
  0xD454A5320494D4F4B2052455454454C204C4154495041432043494C4C495259432C2C4445574F4C4C415349442C43303530,
  0xD454A5320494D4F4B2052455454454C204C4C414D532043494C4C495259432C2C44494C4156502C44303530,
  0xD454A5420494D4F4B2052455454454C204C4154495041432043494C4C495259432C2C4445574F4C4C415349442C45303530,
  0xD454A5420494D4F4B2052455454454C204C4C414D532043494C4C495259432C2C44494C4156502C46303530,
  0xD455A2044455352455645522052455454454C204C4154495041432043494C4C495259432C2C4445574F4C4C415349442C30313530,
  0xD455A2044455352455645522052455454454C204C4C414D532043494C4C495259432C2C44494C4156502C31313530,
  0xD4B4F4F482048544957204C452052455454454C204C4154495041432043494C4C495259432C2C4445574F4C4C415349442C32313530,
  0xD4B4F4F482048544957204C452052455454454C204C4C414D532043494C4C495259432C2C44494C4156502C33313530,
  0xD41484C2052455454454C204C4154495041432043494C4C495259432C2C4445574F4C4C415349442C34313530,
  0xD41484C2052455454454C204C4C414D532043494C4C495259432C2C44494C4156502C35313530,
  0xD4148522052455454454C204C4154495041432043494C4C495259432C2C4445574F4C4C415349442C36313530,
  0xD4148522052455454454C204C4C414D532043494C4C495259432C2C44494C4156502C37313530,
  0xD4541592052455454454C204C4154495041432043494C4C495259432C2C4445574F4C4C415349442C38313530,
  0xD4541592052455454454C204C4C414D532043494C4C495259432C2C44494C4156502C39313530,
  0xD41512052455454454C204C4154495041432043494C4C495259432C2C4445574F4C4C415349442C41313530,
  0xD41512052455454454C204C4C414D532043494C4C495259432C2C44494C4156502C42313530,
  0xD45572052455454454C204C4154495041432043494C4C495259432C2C4445574F4C4C415349442C43313530,
  0xD45572052455454454C204C4C414D532043494C4C495259432C2C44494C4156502C44313530,
  0xD414B205455454C412052455454454C204C4154495041432043494C4C495259432C2C4445574F4C4C415349442C45313530,
  0xD414B205455454C412052455454454C204C4C414D532043494C4C495259432C2C44494C4156502C46313530,
  0xD4B4F4F4820454C4444494D2048544957204C452052455454454C204C4154495041432043494C4C495259432C2C4445574F4C4C415349442C30323530,
  0xD4B4F4F4820454C4444494D2048544957204C452052455454454C204C4C414D532043494C4C495259432C2C44494C4156502C31323530,
  0xD4B4F4F4820454C4444494D2048544957204E452052455454454C204C4154495041432043494C4C495259432C2C4445574F4C4C415349442C32323530,
  0xD4B4F4F4820454C4444494D2048544957204E452052455454454C204C4C414D532043494C4C495259432C2C44494C4156502C33323530,
  0xD5245444E454353454420485449572045502052455454454C204C4154495041432043494C4C495259432C2C4445574F4C4C415349442C34323530,
  0xD5245444E454353454420485449572045502052455454454C204C4C414D532043494C4C495259432C2C44494C4156502C35323530,
  0xD5245444E4543534544204854495720414848532052455454454C204C4154495041432043494C4C495259432C2C4445574F4C4C415349442C36323530,
  0xD5245444E4543534544204854495720414848532052455454454C204C4C414D532043494C4C495259432C2C44494C4156502C37323530,
  0xD4B4F4F48205446454C2048544957204E452052455454454C204C4154495041432043494C4C495259432C2C4445574F4C4C415349442C38323530,
  0xD4B4F4F48205446454C2048544957204E452052455454454C204C4C414D532043494C4C495259432C2C44494C4156502C39323530,
  0xD45485A5A442052455454454C204C4154495041432043494C4C495259432C2C4445574F4C4C415349442C41323530,
  0xD45485A5A442052455454454C204C4C414D532043494C4C495259432C2C44494C4156502C42323530,
  0xD454843442052455454454C204C4154495041432043494C4C495259432C2C4445574F4C4C415349442C43323530,
  0xD454843442052455454454C204C4C414D532043494C4C495259432C2C44494C4156502C44323530,
  0xD5245444E45435345442048544957204C452052455454454C204C4154495041432043494C4C495259432C2C4445574F4C4C415349442C45323530,
  0xD5245444E45435345442048544957204C452052455454454C204C4C414D532043494C4C495259432C2C44494C4156502C46323530,
  0xD3E44455652455345523C2C2C44454E47495353414E552C30333530,
  0xD4845462052455454454C204C415449504143204E41494E454D52412E2E4259412052455454454C204C415449504143204E41494E454D52412C2C4445574F4C4C415349442C363535302D31333530,
  0xD3E44455652455345523C2E2E3E44455652455345523C2C2C44454E47495353414E552C383535302D37353530,
  0xD474E495220464C4148205446454C2052455454454C205245494649444F4D204E41494E454D52412C2C44494C4156502C39353530,
  0xD4B52414D204E4F49544149564552424241204E41494E454D52412E2E4548504F5254534F5041204E41494E454D52412C2C4445574F4C4C415349442C463535302D41353530,
  0xD4845462052455454454C204C4C414D53204E41494E454D52412E2E4259412044454E5255542052455454454C204C4C414D53204E41494E454D52412C2C44494C4156502C363835302D30363530,
  0xD4E5749592048434520455255544147494C204C4C414D53204E41494E454D52412C2C4445574F4C4C415349442C37383530,
  0xD454B4F52545320485449572049592052455454454C204C4C414D53204E41494E454D52412C2C44494C4156502C38383530,
  0xD4E4548505948204E41494E454D52412E2E504F5453204C4C5546204E41494E454D52412C2C4445574F4C4C415349442C413835302D39383530,
  0xD3E44455652455345523C2E2E3E44455652455345523C2C2C44454E47495353414E552C433835302D42383530,
  0xD4E474953204D415244204E41494E454D52412E2E4E474953205954494E52455445204E41494E454D524120474E494341462D54484749522C2C4445574F4C4C415349442C463835302D44383530,
  0xD3E44455652455345523C2C2C44454E47495353414E552C30393530,
  0xD474554454D20544E494F50205745524245482E2E415448414E544520544E45434341205745524245482C2C44494C4156502C444235302D31393530,
  0xD464151414D204E4F4954415554434E5550205745524245482C2C4445574F4C4C415349442C45423530,
  0xD4546415220544E494F50205745524245482C2C44494C4156502C46423530,
  0xD5145534150204E4F4954415554434E5550205745524245482C2C4445574F4C4C415349442C30433530,
  0xD544F44204E495320544E494F50205745524245482E2E544F44204E49485320544E494F50205745524245482C2C44494C4156502C324335302D31433530,
  0xD515553415020464F53204E4F4954415554434E5550205745524245482C2C4445574F4C4C415349442C33433530,
  0xD544F44205245574F4C204B52414D205745524245482E2E544F44205245505055204B52414D205745524245482C2C44494C4156502C354335302D34433530,
  0xD41484B55464148204E554E204E4F4954415554434E5550205745524245482C2C4445574F4C4C415349442C36433530,
  0xD4E41544151205354414D415120544E494F50205745524245482C2C44494C4156502C37433530,
  0xD3E44455652455345523C2E2E3E44455652455345523C2C2C44454E47495353414E552C464335302D38433530,
  0xD5641542052455454454C205745524245482E2E46454C412052455454454C205745524245482C2C44494C4156502C414535302D30443530,
  0xD3E44455652455345523C2E2E3E44455652455345523C2C2C44454E47495353414E552C454535302D42453530,
  0xD444F5920454C42554F44204853494444495920455255544147494C205745524245482E2E454C474E4149525420444F59205745524245482C2C44494C4156502C324635302D46453530,
  0xD4D4959414853524547204E4F4954415554434E5550205745524245482E2E485345524547204E4F4954415554434E5550205745524245482C2C4F545845544E4F432C344635302D33463530,
  0xD3E44455652455345523C2E2E3E44455652455345523C2C2C44454E47495353414E552C464635302D35463530,
  0xD415253494D204E474953204349424152412E2E4E474953205245424D554E204349424152412C2C4445574F4C4C415349442C463036302D30303630,
  0xD415253414B204C4C414D53204349424152412E2E4D414C4C415353415720454859414C4120554F48414C4C414C4C4153204E474953204349424152412C2C44494C4156502C413136302D30313630,
  0xD4B52414D2052455454454C204349424152412E2E4E4F4C4F43494D4553204349424152412C2C4445574F4C4C415349442C433136302D42313630,
  0xD3E44455652455345523C2C2C44454E47495353414E552C44313630,
  0xD4B52414D204E4F495453455551204349424152412E2E4B52414D204E4F4954415554434E555020544F4420454C50495254204349424152412C2C4445574F4C4C415349442C463136302D45313630,
  0xD45564F42412053544F442045455248542048544957204845592049535241462052455454454C204349424152412E2E484559204952494D4853414B2052455454454C204349424152412C2C44494C4156502C463336302D30323630,
  0xD4C454557544154204349424152412C2C4445574F4C4C415349442C30343630,
  0xD574F4C454220415A4D41482059564157204349424152412E2E4845462052455454454C204349424152412C2C44494C4156502C463536302D31343630,
  0xD454E494E205449474944204349444E492D4349424152412E2E4F52455A205449474944204349444E492D4349424152412C2C4F545845544E4F432C393636302D30363630,
  0xD52415453204445544E494F502045564946204349424152412E2E4E47495320544E4543524550204349424152412C2C4445574F4C4C415349442C443636302D41363630,
  0xD415A4D414820484749482052455454454C204349424152412E2E484542205353454C544F442052455454454C204349424152412C2C44494C4156502C343736302D45363630,
  0xD48455920415A4D414820484749482052455454454C204349424152412E2E46454C4120415A4D414820484749482052455454454C204349424152412C2C4445574F4C4C415349442C383736302D35373630,
  0xD45564F424120415A4D4148204854495720454552524142204845592052455454454C204349424152412E2E484554542052455454454C204349424152412C2C44494C4156502C334436302D39373630,
  0xD504F5453204C4C5546204349424152412C2C4445574F4C4C415349442C34443630,
  0xD4E4545532048474948204C4C414D53204349424152412E2E45412052455454454C204349424152412C2C44494C4156502C434436302D35443630,
  0xD425A4948204C452042555220464F205452415453204349424152412E2E4841594120464F20444E45204349424152412C2C4445574F4C4C415349442C454436302D44443630,
  0xD4E4F4F4E2048474948204C4C414D53204349424152412E2E4F52455A204445444E554F522048474948204C4C414D53204349424152412C2C44494C4156502C384536302D46443630,
  0xD4841444A415320464F204543414C50204349424152412C2C4445574F4C4C415349442C39453630,
  0xD56204445545245564E492048544957204845522052455454454C204349424152412E2E504F545320574F4C204552544E4543205954504D45204349424152412C2C44494C4156502C464536302D41453630,
  0xD454E494E205449474944204349444E492D434942415241204445444E455458452E2E4F52455A205449474944204349444E492D434942415241204445444E455458452C2C4F545845544E4F432C394636302D30463630,
  0xD56204445545245564E492048544957204845482052455454454C204349424152412E2E574F4C454220544F442048544957204E454548532052455454454C204349424152412C2C44494C4156502C464636302D41463630,
  0xD53554353495245545341204E41454C4B524148204341495259532E2E48504152474152415020464F20444E45204341495259532C2C4445574F4C4C415349442C443037302D30303730,
  0xD3E44455652455345523C2C2C44454E47495353414E552C45303730,
  0xD4B52414D204E4F49544149564552424241204341495259532C2C4445574F4C4C415349442C46303730,
  0xD484B4552524142204341495259532E2E4850414C412052455454454C204341495259532C2C44494C4156502C413437302D30313730,
  0xD3E44455652455345523C2E2E3E44455652455345523C2C2C44454E47495353414E552C433437302D42343730,
  0xD41414E2052455454454C20414E414148542E2E4E4941485A204E414944474F532052455454454C204341495259532C2C44494C4156502C314237302D44343730,
  0xD3E44455652455345523C2E2E3E44455652455345523C2C2C44454E47495353414E552C464237302D32423730,
  0xD4548504F5254534F504120454E4F5420574F4C204F4B4E2E2E4F52455A205449474944204F4B4E2C2C44494C4156502C354637302D30433730,
  0xD4E414C41594E414A414C204F4B4E2E2E4E454E4E4544204F4F204C4F424D5953204F4B4E2C2C4445574F4C4C415349442C414637302D36463730,
  0xD3E44455652455345523C2E2E3E44455652455345523C2C2C44454E47495353414E552C434637302D42463730,
  0xD4E414C415941544E4144204F4B4E2C2C44494C4156502C44463730,
  0xD4E474953204E414D4154204F4B4E2E2E4E47495320454D4F524F44204F4B4E2C2C4445574F4C4C415349442C464637302D45463730,
  0xD4141445551454E204B52414D204E41544952414D41532E2E46414C412052455454454C204E41544952414D41532C2C44494C4156502C443238302D30303830,
  0xD3E44455652455345523C2E2E3E44455652455345523C2C2C44454E47495353414E552C463238302D45323830,
  0xD5541414E4E41204E4F4954415554434E5550204E41544952414D41532E2E4141445551454E204E4F4954415554434E5550204E41544952414D41532C2C4445574F4C4C415349442C453338302D30333830,
  0xD3E44455652455345523C2C2C44454E47495353414E552C46333830,
  0xD4B52414D204E4F4954414E494D454720434941444E414D2E2E41514C41482052455454454C20434941444E414D2C2C44494C4156502C423538302D30343830,
  0xD3E44455652455345523C2E2E3E44455652455345523C2C2C44454E47495353414E552C443538302D43353830,
  0xD4E4F4954415554434E555020434941444E414D2C2C4445574F4C4C415349442C45353830,
  0xD3E44455652455345523C2C2C44454E47495353414E552C46353830,
  0xD415353204D414C4159414C414D2052455454454C204341495259532E2E41474E204D414C4159414C414D2052455454454C204341495259532C2C44494C4156502C413638302D30363830,
  0xD3E44455652455345523C2E2E3E44455652455345523C2C2C44454E47495353414E552C463938302D42363830,
  0xD574F4C454220544F4420485449572046414B2052455454454C204349424152412E2E574F4C45422056204C4C414D532048544957204845422052455454454C204349424152412C2C44494C4156502C344238302D30413830,
  0xD3E44455652455345523C2C2C44454E47495353414E552C35423830,
  0xD4E4F4F4E204E4143495246412052455454454C204349424152412E2E45564F4241204D45454D204C4C414D532048544957204845422052455454454C204349424152412C2C44494C4156502C444238302D36423830,
  0xD3E44455652455345523C2E2E3E44455652455345523C2C2C44454E47495353414E552C324438302D45423830,
  0xD4148464153204E4749532048474948204C4C414D53204349424152412E2E57415720574F4C204C4C414D53204349424152412C2C44494C4156502C314538302D33443830,
  0xD4841594120464F20444E45204445545550534944204349424152412C2C4445574F4C4C415349442C32453830,
  0xD455555204E474953204C45574F562049524147414E415645442E2E574F4C454220414D4D41442044454E525554204349424152412C2C44494C4156502C373539302D33453830,
  0xD4159592052455454454C2049524147414E415645442E2E41512052455454454C2049524147414E415645442C2C4445574F4C4C415349442C463539302D38353930,
  0xD4C4C2043494C41434F56204E474953204C45574F562049524147414E415645442E2E52522043494C41434F562052455454454C2049524147414E415645442C2C44494C4156502C333639302D30363930,
  0xD41444E414420454C42554F442049524147414E415645442E2E41444E41442049524147414E415645442C2C4445574F4C4C415349442C353639302D34363930,
  0xD454E494E2054494749442049524147414E415645442E2E4F52455A2054494749442049524147414E415645442C2C44494C4156502C463639302D36363930,
  0xD4E474953204E4F495441495645524242412049524147414E415645442C2C4445574F4C4C415349442C30373930,
  0xD41475241534956204E47495320494C41474E45422E2E544F4420474E49434150532048474948204E4749532049524147414E415645442C2C44494C4156502C333839302D31373930,
  0xD3E44455652455345523C2C2C44454E47495353414E552C34383930,
  0xD4C2043494C41434F562052455454454C20494C41474E45422E2E412052455454454C20494C41474E45422C2C44494C4156502C433839302D35383930,
  0xD3E44455652455345523C2E2E3E44455652455345523C2C2C44454E47495353414E552C453839302D44383930,
  0xD49412052455454454C20494C41474E45422E2E452052455454454C20494C41474E45422C2C44494C4156502C303939302D46383930,
  0xD3E44455652455345523C2E2E3E44455652455345523C2C2C44454E47495353414E552C323939302D31393930,
  0xD414E2052455454454C20494C41474E45422E2E4F2052455454454C20494C41474E45422C2C44494C4156502C384139302D33393930,
  0xD3E44455652455345523C2C2C44454E47495353414E552C39413930,
  0xD41522052455454454C20494C41474E45422E2E41502052455454454C20494C41474E45422C2C44494C4156502C304239302D41413930,
  0xD3E44455652455345523C2C2C44454E47495353414E552C31423930,
  0xD414C2052455454454C20494C41474E45422C2C44494C4156502C32423930,
  0xD3E44455652455345523C2E2E3E44455652455345523C2C2C44454E47495353414E552C354239302D33423930,
  0xD41482052455454454C20494C41474E45422E2E4148532052455454454C20494C41474E45422C2C44494C4156502C394239302D36423930,
  0xD3E44455652455345523C2E2E3E44455652455345523C2C2C44454E47495353414E552C424239302D41423930,
  0xD52522043494C41434F56204E474953204C45574F5620494C41474E45422E2E41544B554E204E47495320494C41474E45422C2C44494C4156502C344339302D43423930,
  0xD3E44455652455345523C2E2E3E44455652455345523C2C2C44454E47495353414E552C364339302D35433930,
  0xD4941204E474953204C45574F5620494C41474E45422E2E45204E474953204C45574F5620494C41474E45422C2C44494C4156502C384339302D37433930,
  0xD3E44455652455345523C2E2E3E44455652455345523C2C2C44454E47495353414E552C414339302D39433930,
  0xD41542041444E41484B2052455454454C20494C41474E45422E2E4F204E474953204C45574F5620494C41474E45422C2C44494C4156502C454339302D42433930,
  0xD3E44455652455345523C2E2E3E44455652455345523C2C2C44454E47495353414E552C364439302D46433930,
  0xD4B52414D204854474E454C20554120494C41474E45422C2C44494C4156502C37443930,
  0xD3E44455652455345523C2E2E3E44455652455345523C2C2C44454E47495353414E552C424439302D38443930,
  0xD4148522052455454454C20494C41474E45422E2E4152522052455454454C20494C41474E45422C2C4445574F4C4C415349442C444439302D43443930,
  0xD3E44455652455345523C2C2C44454E47495353414E552C45443930,
  0xD4159592052455454454C20494C41474E45422C2C4445574F4C4C415349442C46443930,
  0xD4C4C2043494C41434F56204E474953204C45574F5620494C41474E45422E2E52522043494C41434F562052455454454C20494C41474E45422C2C44494C4156502C334539302D30453930,
  0xD3E44455652455345523C2E2E3E44455652455345523C2C2C44454E47495353414E552C354539302D34453930,
  0xD4C414E4F47414944205245574F4C20485449572041522052455454454C20494C41474E45422E2E4F52455A20544947494420494C41474E45422C2C44494C4156502C314639302D36453930,
  0xD4B52414D2041444E414720494C41474E45422E2E4B52414D20454550555220494C41474E45422C2C4445574F4C4C415349442C424639302D32463930,
  0xD4152415653554E412043494445562052455454454C20494C41474E45422C2C44494C4156502C43463930,
  0xD4E474953204E4F4954414956455242424120494C41474E45422C2C4445574F4C4C415349442C44463930,
  0xD4B52414D204948444E415320494C41474E45422C2C44494C4156502C45463930,
  0xD3E44455652455345523C2E2E3E44455652455345523C2C2C44454E47495353414E552C303041302D46463930,
  0xD41475241534956204E4749532049484B554D5255472E2E49444E4942204B414441204E4749532049484B554D5255472C2C44494C4156502C333041302D31304130,
  0xD3E44455652455345523C2C2C44454E47495353414E552C34304130,
  0xD55552052455454454C2049484B554D5255472E2E412052455454454C2049484B554D5255472C2C44494C4156502C413041302D35304130,
  0xD3E44455652455345523C2E2E3E44455652455345523C2C2C44454E47495353414E552C453041302D42304130,
  0xD49412052455454454C2049484B554D5255472E2E45452052455454454C2049484B554D5255472C2C44494C4156502C303141302D46304130,
  0xD3E44455652455345523C2E2E3E44455652455345523C2C2C44454E47495353414E552C323141302D31314130,
  0xD414E2052455454454C2049484B554D5255472E2E4F4F2052455454454C2049484B554D5255472C2C44494C4156502C383241302D33314130,
  0xD3E44455652455345523C2C2C44454E47495353414E552C39324130,
  0xD41522052455454454C2049484B554D5255472E2E41502052455454454C2049484B554D5255472C2C44494C4156502C303341302D41324130,
  0xD3E44455652455345523C2C2C44454E47495353414E552C31334130,
  0xD414C2052455454454C2049484B554D5255472C2C44494C4156502C32334130,
  0xD414C4C2052455454454C2049484B554D5255472C2C4445574F4C4C415349442C33334130,
  0xD3E44455652455345523C2C2C44454E47495353414E552C34334130,
  0xD41562052455454454C2049484B554D5255472C2C44494C4156502C35334130,
  0xD4148532052455454454C2049484B554D5255472C2C4445574F4C4C415349442C36334130,
  0xD3E44455652455345523C2C2C44454E47495353414E552C37334130,
  0xD41482052455454454C2049484B554D5255472E2E41532052455454454C2049484B554D5255472C2C44494C4156502C393341302D38334130,
  0xD3E44455652455345523C2E2E3E44455652455345523C2C2C44454E47495353414E552C423341302D41334130,
  0xD41544B554E204E4749532049484B554D5255472C2C44494C4156502C43334130,
  0xD3E44455652455345523C2C2C44454E47495353414E552C44334130,
  0xD5555204E474953204C45574F562049484B554D5255472E2E4141204E474953204C45574F562049484B554D5255472C2C44494C4156502C323441302D45334130,
  0xD3E44455652455345523C2E2E3E44455652455345523C2C2C44454E47495353414E552C363441302D33344130,
  0xD4941204E474953204C45574F562049484B554D5255472E2E4545204E474953204C45574F562049484B554D5255472C2C44494C4156502C383441302D37344130,
  0xD3E44455652455345523C2E2E3E44455652455345523C2C2C44454E47495353414E552C413441302D39344130,
  0xD414D41524956204E4749532049484B554D5255472E2E4F4F204E474953204C45574F562049484B554D5255472C2C44494C4156502C443441302D42344130,
  0xD3E44455652455345523C2E2E3E44455652455345523C2C2C44454E47495353414E552C303541302D45344130,
  0xD5441414455204E4749532049484B554D5255472C2C44494C4156502C31354130,
  0xD3E44455652455345523C2E2E3E44455652455345523C2C2C44454E47495353414E552C383541302D32354130,
  0xD415A2052455454454C2049484B554D5255472E2E4148484B2052455454454C2049484B554D5255472C2C4445574F4C4C415349442C423541302D39354130,
  0xD4152522052455454454C2049484B554D5255472C2C44494C4156502C43354130,
  0xD3E44455652455345523C2C2C44454E47495353414E552C44354130,
  0xD41462052455454454C2049484B554D5255472C2C4445574F4C4C415349442C45354130,
  0xD3E44455652455345523C2E2E3E44455652455345523C2C2C44454E47495353414E552C353641302D46354130,
  0xD4853414B4159204E4749532049484B554D5255472E2E4F52455A2054494749442049484B554D5255472C2C44494C4156502C353741302D36364130,
  0xD4E474953204E4F495441495645524242412049484B554D5255472C2C4445574F4C4C415349442C36374130,
  0xD3E44455652455345523C2E2E3E44455652455345523C2C2C44454E47495353414E552C303841302D37374130,
  0xD41475241534956204E4749532049544152414A55472E2E55444E49424152444E4143204E4749532049544152414A55472C2C44494C4156502C333841302D31384130,
  0xD3E44455652455345523C2C2C44454E47495353414E552C34384130,
  0xD45204152444E4143204C45574F562049544152414A55472E2E412052455454454C2049544152414A55472C2C44494C4156502C443841302D35384130,
  0xD3E44455652455345523C2C2C44454E47495353414E552C45384130,
  0xD4F204152444E4143204C45574F562049544152414A55472E2E452052455454454C2049544152414A55472C2C44494C4156502C313941302D46384130,
  0xD3E44455652455345523C2C2C44454E47495353414E552C32394130,
  0xD414E2052455454454C2049544152414A55472E2E4F2052455454454C2049544152414A55472C2C44494C4156502C384141302D33394130,
  0xD3E44455652455345523C2C2C44454E47495353414E552C39414130,
  0xD41522052455454454C2049544152414A55472E2E41502052455454454C2049544152414A55472C2C44494C4156502C304241302D41414130,
  0xD3E44455652455345523C2C2C44454E47495353414E552C31424130,
  0xD414C4C2052455454454C2049544152414A55472E2E414C2052455454454C2049544152414A55472C2C44494C4156502C334241302D32424130,
  0xD3E44455652455345523C2C2C44454E47495353414E552C34424130,
  0xD41482052455454454C2049544152414A55472E2E41562052455454454C2049544152414A55472C2C44494C4156502C394241302D35424130,
  0xD3E44455652455345523C2E2E3E44455652455345523C2C2C44454E47495353414E552C424241302D41424130,
  0xD45204152444E4143204E474953204C45574F562049544152414A55472E2E41544B554E204E4749532049544152414A55472C2C44494C4156502C354341302D43424130,
  0xD3E44455652455345523C2C2C44454E47495353414E552C36434130,
  0xD4F204152444E4143204E474953204C45574F562049544152414A55472E2E45204E474953204C45574F562049544152414A55472C2C44494C4156502C394341302D37434130,
  0xD3E44455652455345523C2C2C44454E47495353414E552C41434130,
  0xD414D41524956204E4749532049544152414A55472E2E4F204E474953204C45574F562049544152414A55472C2C44494C4156502C444341302D42434130,
  0xD3E44455652455345523C2E2E3E44455652455345523C2C2C44454E47495353414E552C464341302D45434130,
  0xD4D4F2049544152414A55472C2C44494C4156502C30444130,
  0xD3E44455652455345523C2E2E3E44455652455345523C2C2C44454E47495353414E552C464441302D31444130,
  0xD4C4C2043494C41434F56204E474953204C45574F562049544152414A55472E2E52522043494C41434F562052455454454C2049544152414A55472C2C44494C4156502C334541302D30454130,
  0xD3E44455652455345523C2E2E3E44455652455345523C2C2C44454E47495353414E552C354541302D34454130,
  0xD454E494E2054494749442049544152414A55472E2E4F52455A2054494749442049544152414A55472C2C44494C4156502C464541302D36454130,
  0xD4E4749532045455055522049544152414A55472E2E4E474953204E4F495441495645524242412049544152414A55472C2C4445574F4C4C415349442C314641302D30464130,
  0xD3E44455652455345523C2E2E3E44455652455345523C2C2C44454E47495353414E552C384641302D32464130,
  0xD45564F42412041544B554E20454C435249432D4F5754204E4749532049544152414A55472E2E41485A2052455454454C2049544152414A55472C2C44494C4156502C464641302D39464130,
  0xD3E44455652455345523C2C2C44454E47495353414E552C30304230,
  0xD41475241534956204E47495320415949524F2E2E55444E49424152444E4143204E47495320415949524F2C2C44494C4156502C333042302D31304230,
  0xD3E44455652455345523C2C2C44454E47495353414E552C34304230,
  0xD4C2043494C41434F562052455454454C20415949524F2E2E412052455454454C20415949524F2C2C44494C4156502C433042302D35304230,
  0xD3E44455652455345523C2E2E3E44455652455345523C2C2C44454E47495353414E552C453042302D44304230,
  0xD49412052455454454C20415949524F2E2E452052455454454C20415949524F2C2C44494C4156502C303142302D46304230,
  0xD3E44455652455345523C2E2E3E44455652455345523C2C2C44454E47495353414E552C323142302D31314230,
  0xD414E2052455454454C20415949524F2E2E4F2052455454454C20415949524F2C2C44494C4156502C383242302D33314230,
  0xD3E44455652455345523C2C2C44454E47495353414E552C39324230,
  0xD41522052455454454C20415949524F2E2E41502052455454454C20415949524F2C2C44494C4156502C303342302D41324230,
  0xD3E44455652455345523C2C2C44454E47495353414E552C31334230,
  0xD414C4C2052455454454C20415949524F2E2E414C2052455454454C20415949524F2C2C44494C4156502C333342302D32334230,
  0xD3E44455652455345523C2C2C44454E47495353414E552C34334230,
  0xD41482052455454454C20415949524F2E2E41562052455454454C20415949524F2C2C44494C4156502C393342302D35334230]

def csvText3 : List Nat := [
  0xD3E44455652455345523C2E2E3E44455652455345523C2C2C44454E47495353414E552C423342302D41334230,
  0xD52522043494C41434F56204E474953204C45574F5620415949524F2E2E41544B554E204E47495320415949524F2C2C44494C4156502C343442302D43334230,
  0xD3E44455652455345523C2E2E3E44455652455345523C2C2C44454E47495353414E552C363442302D35344230,
  0xD4941204E474953204C45574F5620415949524F2E2E45204E474953204C45574F5620415949524F2C2C44494C4156502C383442302D37344230,
  0xD3E44455652455345523C2E2E3E44455652455345523C2C2C44454E47495353414E552C413442302D39344230,
  0xD414D41524956204E47495320415949524F2E2E4F204E474953204C45574F5620415949524F2C2C44494C4156502C443442302D42344230,
  0xD3E44455652455345523C2E2E3E44455652455345523C2C2C44454E47495353414E552C353542302D45344230,
  0xD4B52414D204854474E454C20554120415949524F2E2E4B52414D204854474E454C20494120415949524F2C2C44494C4156502C373542302D36354230,
  0xD3E44455652455345523C2E2E3E44455652455345523C2C2C44454E47495353414E552C423542302D38354230,
  0xD4148522052455454454C20415949524F2E2E4152522052455454454C20415949524F2C2C4445574F4C4C415349442C443542302D43354230,
  0xD3E44455652455345523C2C2C44454E47495353414E552C45354230,
  0xD4C4C2043494C41434F56204E474953204C45574F5620415949524F2E2E4159592052455454454C20415949524F2C2C44494C4156502C333642302D46354230,
  0xD3E44455652455345523C2E2E3E44455652455345523C2C2C44454E47495353414E552C353642302D34364230,
  0xD454E494E20544947494420415949524F2E2E4F52455A20544947494420415949524F2C2C44494C4156502C463642302D36364230,
  0xD52414853534920415949524F2C2C4445574F4C4C415349442C30374230,
  0xD41572052455454454C20415949524F2C2C44494C4156502C31374230,
  0xD5348544E454554584953204545524854204E4F49544341524620415949524F2E2E5245545241555120454E4F204E4F49544341524620415949524F2C2C4445574F4C4C415349442C373742302D32374230,
  0xD3E44455652455345523C2E2E3E44455652455345523C2C2C44454E47495353414E552C313842302D38374230,
  0xD41475241534956204E474953204C494D41542E2E4152415653554E41204E474953204C494D41542C2C44494C4156502C333842302D32384230,
  0xD3E44455652455345523C2C2C44454E47495353414E552C34384230,
  0xD55552052455454454C204C494D41542E2E412052455454454C204C494D41542C2C44494C4156502C413842302D35384230,
  0xD3E44455652455345523C2E2E3E44455652455345523C2C2C44454E47495353414E552C443842302D42384230,
  0xD49412052455454454C204C494D41542E2E452052455454454C204C494D41542C2C44494C4156502C303942302D45384230,
  0xD3E44455652455345523C2C2C44454E47495353414E552C31394230,
  0xD414B2052455454454C204C494D41542E2E4F2052455454454C204C494D41542C2C44494C4156502C353942302D32394230,
  0xD3E44455652455345523C2E2E3E44455652455345523C2C2C44454E47495353414E552C383942302D36394230,
  0xD41432052455454454C204C494D41542E2E41474E2052455454454C204C494D41542C2C44494C4156502C413942302D39394230,
  0xD3E44455652455345523C2C2C44454E47495353414E552C42394230,
  0xD414A2052455454454C204C494D41542C2C44494C4156502C43394230,
  0xD3E44455652455345523C2C2C44454E47495353414E552C44394230,
  0xD4154542052455454454C204C494D41542E2E41594E2052455454454C204C494D41542C2C44494C4156502C463942302D45394230,
  0xD3E44455652455345523C2E2E3E44455652455345523C2C2C44454E47495353414E552C324142302D30414230,
  0xD41542052455454454C204C494D41542E2E414E4E2052455454454C204C494D41542C2C44494C4156502C344142302D33414230,
  0xD3E44455652455345523C2E2E3E44455652455345523C2C2C44454E47495353414E552C374142302D35414230,
  0xD41502052455454454C204C494D41542E2E414E2052455454454C204C494D41542C2C44494C4156502C414142302D38414230,
  0xD3E44455652455345523C2E2E3E44455652455345523C2C2C44454E47495353414E552C444142302D42414230,
  0xD41482052455454454C204C494D41542E2E414D2052455454454C204C494D41542C2C44494C4156502C394242302D45414230,
  0xD3E44455652455345523C2E2E3E44455652455345523C2C2C44454E47495353414E552C444242302D41424230,
  0xD5555204E474953204C45574F56204C494D41542E2E4141204E474953204C45574F56204C494D41542C2C44494C4156502C324342302D45424230,
  0xD3E44455652455345523C2E2E3E44455652455345523C2C2C44454E47495353414E552C354342302D33434230,
  0xD4941204E474953204C45574F56204C494D41542E2E45204E474953204C45574F56204C494D41542C2C44494C4156502C384342302D36434230,
  0xD3E44455652455345523C2C2C44454E47495353414E552C39434230,
  0xD414D41524956204E474953204C494D41542E2E4F204E474953204C45574F56204C494D41542C2C44494C4156502C444342302D41434230,
  0xD3E44455652455345523C2E2E3E44455652455345523C2C2C44454E47495353414E552C464342302D45434230,
  0xD4D4F204C494D41542C2C44494C4156502C30444230,
  0xD3E44455652455345523C2E2E3E44455652455345523C2C2C44454E47495353414E552C364442302D31444230,
  0xD4B52414D204854474E454C205541204C494D41542C2C44494C4156502C37444230,
  0xD3E44455652455345523C2E2E3E44455652455345523C2C2C44454E47495353414E552C354542302D38444230,
  0xD454E494E205449474944204C494D41542E2E4F52455A205449474944204C494D41542C2C44494C4156502C464542302D36454230,
  0xD4E474953205245424D554E204C494D41542E2E4E4554205245424D554E204C494D41542C2C4445574F4C4C415349442C414642302D30464230,
  0xD3E44455652455345523C2E2E3E44455652455345523C2C2C44454E47495353414E552C464642302D42464230,
  0xD4C2043494C41434F562052455454454C205547554C45542E2E45564F42412055444E49424152444E414320474E494E49424D4F43204E474953205547554C45542C2C44494C4156502C433043302D30304330,
  0xD3E44455652455345523C2C2C44454E47495353414E552C44304330,
  0xD49412052455454454C205547554C45542E2E452052455454454C205547554C45542C2C44494C4156502C303143302D45304330,
  0xD3E44455652455345523C2C2C44454E47495353414E552C31314330,
  0xD414E2052455454454C205547554C45542E2E4F2052455454454C205547554C45542C2C44494C4156502C383243302D32314330,
  0xD3E44455652455345523C2C2C44454E47495353414E552C39324330,
  0xD41482052455454454C205547554C45542E2E41502052455454454C205547554C45542C2C44494C4156502C393343302D41324330,
  0xD3E44455652455345523C2E2E3E44455652455345523C2C2C44454E47495353414E552C433343302D41334330,
  0xD52522043494C41434F56204E474953204C45574F56205547554C45542E2E4148415247415641204E474953205547554C45542C2C44494C4156502C343443302D44334330,
  0xD3E44455652455345523C2C2C44454E47495353414E552C35344330,
  0xD4941204E474953204C45574F56205547554C45542E2E45204E474953204C45574F56205547554C45542C2C44494C4156502C383443302D36344330,
  0xD3E44455652455345523C2C2C44454E47495353414E552C39344330,
  0xD414D41524956204E474953205547554C45542E2E4F204E474953204C45574F56205547554C45542C2C44494C4156502C443443302D41344330,
  0xD3E44455652455345523C2E2E3E44455652455345523C2C2C44454E47495353414E552C343543302D45344330,
  0xD4B52414D204854474E454C204941205547554C45542E2E4B52414D204854474E454C205547554C45542C2C44494C4156502C363543302D35354330,
  0xD3E44455652455345523C2C2C44454E47495353414E552C37354330,
  0xD415252522052455454454C205547554C45542E2E4153542052455454454C205547554C45542C2C44494C4156502C413543302D38354330,
  0xD3E44455652455345523C2E2E3E44455652455345523C2C2C44454E47495353414E552C463543302D42354330,
  0xD4C4C2043494C41434F56204E474953204C45574F56205547554C45542E2E52522043494C41434F562052455454454C205547554C45542C2C44494C4156502C333643302D30364330,
  0xD3E44455652455345523C2E2E3E44455652455345523C2C2C44454E47495353414E552C353643302D34364330,
  0xD454E494E205449474944205547554C45542E2E4F52455A205449474944205547554C45542C2C44494C4156502C463643302D36364330,
  0xD3E44455652455345523C2E2E3E44455652455345523C2C2C44454E47495353414E552C373743302D30374330,
  0xD554D555554204E474953205547554C45542E2E52554F4620464F20535245574F502044444F20524F46204F52455A205449474944204E4F495443415246205547554C45542C2C4445574F4C4C415349442C463743302D38374330,
  0xD41475241534956204E474953204144414E4E414B2E2E55444E49424152444E414320474E4943415053204E474953204144414E4E414B2C2C44494C4156502C333843302D30384330,
  0xD4D414844444953204E474953204144414E4E414B2C2C4445574F4C4C415349442C34384330,
  0xD4C2043494C41434F562052455454454C204144414E4E414B2E2E412052455454454C204144414E4E414B2C2C44494C4156502C433843302D35384330,
  0xD3E44455652455345523C2C2C44454E47495353414E552C44384330,
  0xD49412052455454454C204144414E4E414B2E2E452052455454454C204144414E4E414B2C2C44494C4156502C303943302D45384330,
  0xD3E44455652455345523C2C2C44454E47495353414E552C31394330,
  0xD414E2052455454454C204144414E4E414B2E2E4F2052455454454C204144414E4E414B2C2C44494C4156502C384143302D32394330,
  0xD3E44455652455345523C2C2C44454E47495353414E552C39414330,
  0xD414C4C2052455454454C204144414E4E414B2E2E41502052455454454C204144414E4E414B2C2C44494C4156502C334243302D41414330,
  0xD3E44455652455345523C2C2C44454E47495353414E552C34424330,
  0xD41482052455454454C204144414E4E414B2E2E41562052455454454C204144414E4E414B2C2C44494C4156502C394243302D35424330,
  0xD3E44455652455345523C2E2E3E44455652455345523C2C2C44454E47495353414E552C424243302D41424330,
  0xD52522043494C41434F56204E474953204C45574F56204144414E4E414B2E2E41544B554E204E474953204144414E4E414B2C2C44494C4156502C344343302D43424330,
  0xD3E44455652455345523C2C2C44454E47495353414E552C35434330,
  0xD4941204E474953204C45574F56204144414E4E414B2E2E45204E474953204C45574F56204144414E4E414B2C2C44494C4156502C384343302D36434330,
  0xD3E44455652455345523C2C2C44454E47495353414E552C39434330,
  0xD414D41524956204E474953204144414E4E414B2E2E4F204E474953204C45574F56204144414E4E414B2C2C44494C4156502C444343302D41434330,
  0xD3E44455652455345523C2E2E3E44455652455345523C2C2C44454E47495353414E552C344443302D45434330,
  0xD4B52414D204854474E454C204941204144414E4E414B2E2E4B52414D204854474E454C204144414E4E414B2C2C44494C4156502C364443302D35444330,
  0xD3E44455652455345523C2E2E3E44455652455345523C2C2C44454E47495353414E552C444443302D37444330,
  0xD41462052455454454C204144414E4E414B2C2C44494C4156502C45444330,
  0xD3E44455652455345523C2C2C44454E47495353414E552C46444330,
  0xD4C4C2043494C41434F56204E474953204C45574F56204144414E4E414B2E2E52522043494C41434F562052455454454C204144414E4E414B2C2C44494C4156502C334543302D30454330,
  0xD3E44455652455345523C2E2E3E44455652455345523C2C2C44454E47495353414E552C354543302D34454330,
  0xD454E494E205449474944204144414E4E414B2E2E4F52455A205449474944204144414E4E414B2C2C44494C4156502C464543302D36454330,
  0xD3E44455652455345523C2C2C44454E47495353414E552C30464330,
  0xD4159494E414D4844415055204E474953204144414E4E414B2E2E4159494C554D415648494A204E474953204144414E4E414B2C2C44494C4156502C324643302D31464330,
  0xD3E44455652455345523C2E2E3E44455652455345523C2C2C44454E47495353414E552C464643302D33464330,
  0xD41475241534956204E474953204D414C4159414C414D2E2E45564F4241204152415653554E4120474E494E49424D4F43204E474953204D414C4159414C414D2C2C44494C4156502C333044302D30304430,
  0xD3E44455652455345523C2C2C44454E47495353414E552C34304430,
  0xD4C2043494C41434F562052455454454C204D414C4159414C414D2E2E412052455454454C204D414C4159414C414D2C2C44494C4156502C433044302D35304430,
  0xD3E44455652455345523C2C2C44454E47495353414E552C44304430,
  0xD49412052455454454C204D414C4159414C414D2E2E452052455454454C204D414C4159414C414D2C2C44494C4156502C303144302D45304430,
  0xD3E44455652455345523C2C2C44454E47495353414E552C31314430,
  0xD52522043494C41434F56204E474953204C45574F56204D414C4159414C414D2E2E4F2052455454454C204D414C4159414C414D2C2C44494C4156502C343444302D32314430,
  0xD3E44455652455345523C2C2C44454E47495353414E552C35344430,
  0xD4941204E474953204C45574F56204D414C4159414C414D2E2E45204E474953204C45574F56204D414C4159414C414D2C2C44494C4156502C383444302D36344430,
  0xD3E44455652455345523C2C2C44454E47495353414E552C39344430,
  0xD4850455220544F442052455454454C204D414C4159414C414D2E2E4F204E474953204C45574F56204D414C4159414C414D2C2C44494C4156502C453444302D41344430,
  0xD41524150204E474953204D414C4159414C414D2C2C4445574F4C4C415349442C46344430,
  0xD3E44455652455345523C2E2E3E44455652455345523C2C2C44454E47495353414E552C333544302D30354430,
  0xD4B52414D204854474E454C205541204D414C4159414C414D2E2E4D20554C4C4948432052455454454C204D414C4159414C414D2C2C44494C4156502C373544302D34354430,
  0xD485446494620454E4F204E4F495443415246204D414C4159414C414D2E2E48544549545849532D444E412D444552444E55482D454E4F20454E4F204E4F495443415246204D414C4159414C414D2C2C4445574F4C4C415349442C453544302D38354430,
  0xD4C4C2043494C41434F56204E474953204C45574F56204D414C4159414C414D2E2E494920434941484352412052455454454C204D414C4159414C414D2C2C44494C4156502C333644302D46354430,
  0xD3E44455652455345523C2E2E3E44455652455345523C2C2C44454E47495353414E552C353644302D34364430,
  0xD454E494E205449474944204D414C4159414C414D2E2E4F52455A205449474944204D414C4159414C414D2C2C44494C4156502C463644302D36364430,
  0xD4B52414D2045544144204D414C4159414C414D2E2E4E4554205245424D554E204D414C4159414C414D2C2C4445574F4C4C415349442C393744302D30374430,
  0xD4B20554C4C4948432052455454454C204D414C4159414C414D2E2E4E4E20554C4C4948432052455454454C204D414C4159414C414D2C2C44494C4156502C463744302D41374430,
  0xD3E44455652455345523C2E2E3E44455652455345523C2C2C44454E47495353414E552C313844302D30384430,
  0xD415941475241534956204E47495320414C41484E49532E2E41594152415653554E41204E47495320414C41484E49532C2C44494C4156502C333844302D32384430,
  0xD3E44455652455345523C2C2C44454E47495353414E552C34384430,
  0xD414E4E415955412052455454454C20414C41484E49532E2E414E4E4159412052455454454C20414C41484E49532C2C44494C4156502C363944302D35384430,
  0xD3E44455652455345523C2E2E3E44455652455345523C2C2C44454E47495353414E552C393944302D37394430,
  0xD414E4E4159414E20414A41544E41442052455454454C20414C41484E49532E2E414E4E4159414B20414E4141525041504C412052455454454C20414C41484E49532C2C44494C4156502C314244302D41394430,
  0xD3E44455652455345523C2C2C44454E47495353414E552C32424430,
  0xD414E4E415941522052455454454C20414C41484E49532E2E414E4E4159414420414B41594E41532052455454454C20414C41484E49532C2C44494C4156502C424244302D33424430,
  0xD3E44455652455345523C2C2C44454E47495353414E552C43424430,
  0xD414E4E4159414C20414A41544E41442052455454454C20414C41484E49532C2C44494C4156502C44424430,
  0xD3E44455652455345523C2E2E3E44455652455345523C2C2C44454E47495353414E552C464244302D45424430,
  0xD414E4E415941462052455454454C20414C41484E49532E2E414E4E415941562052455454454C20414C41484E49532C2C44494C4156502C364344302D30434430,
  0xD3E44455652455345523C2E2E3E44455652455345523C2C2C44454E47495353414E552C394344302D37434430,
  0xD414E554B414C2D4C41204E47495320414C41484E49532C2C44494C4156502C41434430,
  0xD3E44455652455345523C2E2E3E44455652455345523C2C2C44454E47495353414E552C454344302D42434430,
  0xD414C4C49502D41415020495454454B204E474953204C45574F5620414C41484E49532E2E414C4C49502D414C4541204E474953204C45574F5620414C41484E49532C2C44494C4156502C344444302D46434430,
  0xD3E44455652455345523C2C2C44454E47495353414E552C35444430,
  0xD414C4C49502D4141502041474944204E474953204C45574F5620414C41484E49532C2C44494C4156502C36444430,
  0xD3E44455652455345523C2C2C44454E47495353414E552C37444430,
  0xD415454494B554E41594147204E474953204C45574F5620414C41484E49532E2E414C4C49502D415454454147204E474953204C45574F5620414C41484E49532C2C44494C4156502C464444302D38444430,
  0xD3E44455652455345523C2E2E3E44455652455345523C2C2C44454E47495353414E552C354544302D30454430,
  0xD454E494E205449474944204854494C20414C41484E49532E2E4F52455A205449474944204854494C20414C41484E49532C2C44494C4156502C464544302D36454430,
  0xD3E44455652455345523C2E2E3E44455652455345523C2C2C44454E47495353414E552C314644302D30464430,
  0xD415454494B554E415941472041474944204E474953204C45574F5620414C41484E49532E2E414C4C49502D4154544541472041474944204E474953204C45574F5620414C41484E49532C2C44494C4156502C334644302D32464430,
  0xD4159494C4144444E554B204E4F4954415554434E555020414C41484E49532C2C4445574F4C4C415349442C34464430,
  0xD3E44455652455345523C2E2E3E44455652455345523C2C2C44454E47495353414E552C303045302D35464430,
  0xD414120415241532052455443415241484320494148542E2E49414B204F4B2052455443415241484320494148542C2C44494C4156502C323345302D31304530,
  0xD4D4120415241532052455443415241484320494148542C2C4445574F4C4C415349442C33334530,
  0xD5548544E4948502052455443415241484320494148542E2E4920415241532052455443415241484320494148542C2C44494C4156502C413345302D34334530,
  0xD3E44455652455345523C2E2E3E44455652455345523C2C2C44454E47495353414E552C453345302D42334530,
  0xD54484142204C4F424D59532059434E455252554320494148542C2C4445574F4C4C415349442C46334530,
  0xD4E414B4B414D41592052455443415241484320494148542E2E4520415241532052455443415241484320494148542C2C44494C4156502C453445302D30344530,
  0xD4E414D474E4F462052455443415241484320494148542C2C4445574F4C4C415349442C46344530,
  0xD454E494E20544947494420494148542E2E4F52455A20544947494420494148542C2C44494C4156502C393545302D30354530,
  0xD54554D4F484B2052455443415241484320494148542E2E55484B4E41484B474E412052455443415241484320494148542C2C4445574F4C4C415349442C423545302D41354530,
  0xD3E44455652455345523C2E2E3E44455652455345523C2C2C44454E47495353414E552C303845302D43354530,
  0xD474E5553204F484B2052455454454C204F414C2E2E4F4B2052455454454C204F414C2C2C44494C4156502C323845302D31384530,
  0xD3E44455652455345523C2C2C44454E47495353414E552C33384530,
  0xD4D4154204F484B2052455454454C204F414C2C2C44494C4156502C34384530,
  0xD3E44455652455345523C2E2E3E44455652455345523C2C2C44454E47495353414E552C363845302D35384530,
  0xD4F432052455454454C204F414C2E2E4F474E2052455454454C204F414C2C2C44494C4156502C383845302D37384530,
  0xD3E44455652455345523C2C2C44454E47495353414E552C39384530,
  0xD4D4154204F532052455454454C204F414C2C2C44494C4156502C41384530,
  0xD3E44455652455345523C2E2E3E44455652455345523C2C2C44454E47495353414E552C433845302D42384530,
  0xD4F594E2052455454454C204F414C2C2C44494C4156502C44384530,
  0xD3E44455652455345523C2E2E3E44455652455345523C2C2C44454E47495353414E552C333945302D45384530,
  0xD4D4154204F48542052455454454C204F414C2E2E4F442052455454454C204F414C2C2C44494C4156502C373945302D34394530,
  0xD3E44455652455345523C2C2C44454E47495353414E552C38394530,
  0xD474E5553204F462052455454454C204F414C2E2E4F4E2052455454454C204F414C2C2C44494C4156502C463945302D39394530,
  0xD3E44455652455345523C2C2C44454E47495353414E552C30414530,
  0xD474E494C204F4C2052455454454C204F414C2E2E4F4D2052455454454C204F414C2C2C44494C4156502C334145302D31414530,
  0xD3E44455652455345523C2C2C44454E47495353414E552C34414530,
  0xD544F4F4C204F4C2052455454454C204F414C2C2C44494C4156502C35414530,
  0xD3E44455652455345523C2C2C44454E47495353414E552C36414530,
  0xD4F572052455454454C204F414C2C2C44494C4156502C37414530,
  0xD3E44455652455345523C2E2E3E44455652455345523C2C2C44454E47495353414E552C394145302D38414530,
  0xD474E5553204F482052455454454C204F414C2E2E474E5553204F532052455454454C204F414C2C2C44494C4156502C424145302D41414530,
  0xD3E44455652455345523C2C2C44454E47495353414E552C43414530,
  0xD4141204E474953204C45574F56204F414C2E2E4F2052455454454C204F414C2C2C44494C4156502C324245302D44414530,
  0xD4D41204E474953204C45574F56204F414C2C2C4445574F4C4C415349442C33424530,
  0xD5555204E474953204C45574F56204F414C2E2E49204E474953204C45574F56204F414C2C2C44494C4156502C394245302D34424530,
  0xD3E44455652455345523C2C2C44454E47495353414E552C41424530,
  0xD4F594E204E474953204C45574F56494D4553204F414C2E2E4E4F4B2049414D204E474953204C45574F56204F414C2C2C44494C4156502C444245302D42424530,
  0xD3E44455652455345523C2E2E3E44455652455345523C2C2C44454E47495353414E552C464245302D45424530,
  0xD4941204E474953204C45574F56204F414C2E2E45204E474953204C45574F56204F414C2C2C44494C4156502C344345302D30434530,
  0xD3E44455652455345523C2C2C44454E47495353414E552C35434530,
  0xD414C204F4B204F414C2C2C44494C4156502C36434530,
  0xD3E44455652455345523C2C2C44454E47495353414E552C37434530,
  0xD41544948414747494E204F414C2E2E4B452049414D20454E4F54204F414C2C2C44494C4156502C444345302D38434530,
  0xD3E44455652455345523C2E2E3E44455652455345523C2C2C44454E47495353414E552C464345302D45434530,
  0xD454E494E205449474944204F414C2E2E4F52455A205449474944204F414C2C2C44494C4156502C394445302D30444530,
  0xD3E44455652455345523C2E2E3E44455652455345523C2C2C44454E47495353414E552C424445302D41444530,
  0xD4F4D204F48204F414C2E2E4F4E204F48204F414C2C2C4445574F4C4C415349442C444445302D43444530,
  0xD4F594E20554D484B2052455454454C204F414C2E2E4F4720554D484B2052455454454C204F414C2C2C44494C4156502C464445302D45444530,
  0xD3E44455652455345523C2E2E3E44455652455345523C2C2C44454E47495353414E552C464645302D30454530,
  0xD4D4F20454C42414C4C5953204E4154454249542C2C44494C4156502C30304630,
  0xD4F474D2047495920474F4853202D414B42204B52414D204E4154454249542E2E412044455441434E555254204F474D204749592052455447204B52414D204E4154454249542C2C4445574F4C4C415349442C413046302D31304630,
  0xD474548535420434942414C4C59535245544E49204B52414D204E4154454249542C2C44494C4156502C42304630,
  0xD534741545220524148432D204E4143472041524753204E474953204C414349474F4C4F52545341204E4154454249542E2E524154534220474548535420524554494D494C4544204B52414D204E4154454249542C2C4445574F4C4C415349442C373146302D43304630,
  0xD53475548535420474E4F4453204E474953204C414349474F4C4F52545341204E4154454249542E2E415020445559484B2D204E474953204C414349474F4C4F52545341204E4154454249542C2C44494C4156502C393146302D38314630,
  0xD47414E204C4544522052414B44204C454452204E474953204E4154454249542E2E474943472052414B44204C454452204E474953204E4154454249542C2C4445574F4C4C415349442C463146302D41314630,
  0xD454E494E205449474944204E4154454249542E2E4F52455A205449474944204E4154454249542C2C44494C4156502C393246302D30324630,
  0xD5347415452205355445342204B52414D204E4154454249542E2E454E4F20464C4148205449474944204E4154454249542C2C4445574F4C4C415349442C343346302D41324630,
  0xD414C5A2049594E20474E555A42205341474E204B52414D204E4154454249542C2C44494C4156502C35334630,
  0xD4E41432047494D2049485A422053474154522044555A442D205445524143204B52414D204E4154454249542C2C4445574F4C4C415349442C36334630,
  0xD534741545220524F475320474E555A42205341474E204B52414D204E4154454249542C2C44494C4156502C37334630,
  0xD4F474D20454843204B52414D204E4154454249542C2C4445574F4C4C415349442C38334630,
  0xD555248502D20415354204B52414D204E4154454249542C2C44494C4156502C39334630,
  0xD5341594720474E41484B20474E41204B52414D204E4154454249542E2E4E4F594720534741545220475547204B52414D204E4154454249542C2C4445574F4C4C415349442C443346302D41334630,
  0xD41472052455454454C204E4154454249542E2E534548535420524159204E474953204E4154454249542C2C44494C4156502C323446302D45334630,
  0xD4148472052455454454C204E4154454249542C2C4445574F4C4C415349442C33344630,
  0xD414A2052455454454C204E4154454249542E2E41474E2052455454454C204E4154454249542C2C44494C4156502C373446302D34344630,
  0xD3E44455652455345523C2C2C44454E47495353414E552C38344630,
  0xD4144442052455454454C204E4154454249542E2E41594E2052455454454C204E4154454249542C2C44494C4156502C433446302D39344630,
  0xD414844442052455454454C204E4154454249542C2C4445574F4C4C415349442C44344630,
  0xD41442052455454454C204E4154454249542E2E414E4E2052455454454C204E4154454249542C2C44494C4156502C313546302D45344630,
  0xD4148442052455454454C204E4154454249542C2C4445574F4C4C415349442C32354630,
  0xD41422052455454454C204E4154454249542E2E414E2052455454454C204E4154454249542C2C44494C4156502C363546302D33354630,
  0xD4148422052455454454C204E4154454249542C2C4445574F4C4C415349442C37354630,
  0xD415A442052455454454C204E4154454249542E2E414D2052455454454C204E4154454249542C2C44494C4156502C423546302D38354630,
  0xD41485A442052455454454C204E4154454249542C2C4445574F4C4C415349442C43354630,
  0xD412052455454454C204E4154454249542E2E41572052455454454C204E4154454249542C2C44494C4156502C383646302D44354630,
  0xD4153534B2052455454454C204E4154454249542C2C4445574F4C4C415349442C39364630,
  0xD4152522052455454454C204E4154454249542E2E4152204D524F462D44455849462052455454454C204E4154454249542C2C44494C4156502C433646302D41364630,
  0xD3E44455652455345523C2E2E3E44455652455345523C2C2C44454E47495353414E552C303746302D44364630,
  0xD49204E474953204C45574F56204E4154454249542E2E4141204E474953204C45574F56204E4154454249542C2C44494C4156502C323746302D31374630,
  0xD4949204E474953204C45574F56204E4154454249542C2C4445574F4C4C415349442C33374630,
  0xD55204E474953204C45574F56204E4154454249542C2C44494C4156502C34374630,
  0xD4C4C2043494C41434F56204E474953204C45574F56204E4154454249542E2E5555204E474953204C45574F56204E4154454249542C2C4445574F4C4C415349442C393746302D35374630,
  0xD49204445535245564552204E474953204C45574F56204E4154454249542E2E45204E474953204C45574F56204E4154454249542C2C44494C4156502C303846302D41374630,
  0xD4949204445535245564552204E474953204C45574F56204E4154454249542C2C4445574F4C4C415349442C31384630,
  0xD41544E414C4148204B52414D204E4154454249542E2E41442041414E20414C5A2049594E204E474953204E4154454249542C2C44494C4156502C343846302D32384630,
  0xD4154554C4150204B52414D204E4154454249542C2C4445574F4C4C415349442C35384630,
  0xD41472052455454454C2044454E494F4A425553204E4154454249542E2E53474154522049434C204E474953204E4154454249542C2C44494C4156502C323946302D36384630,
  0xD4148472052455454454C2044454E494F4A425553204E4154454249542C2C4445574F4C4C415349442C33394630,
  0xD414A2052455454454C2044454E494F4A425553204E4154454249542E2E41474E2052455454454C2044454E494F4A425553204E4154454249542C2C44494C4156502C373946302D34394630,
  0xD3E44455652455345523C2C2C44454E47495353414E552C38394630,
  0xD4144442052455454454C2044454E494F4A425553204E4154454249542E2E41594E2052455454454C2044454E494F4A425553204E4154454249542C2C44494C4156502C433946302D39394630,
  0xD414844442052455454454C2044454E494F4A425553204E4154454249542C2C4445574F4C4C415349442C44394630,
  0xD41442052455454454C2044454E494F4A425553204E4154454249542E2E414E4E2052455454454C2044454E494F4A425553204E4154454249542C2C44494C4156502C314146302D45394630,
  0xD4148442052455454454C2044454E494F4A425553204E4154454249542C2C4445574F4C4C415349442C32414630,
  0xD41422052455454454C2044454E494F4A425553204E4154454249542E2E414E2052455454454C2044454E494F4A425553204E4154454249542C2C44494C4156502C364146302D33414630,
  0xD4148422052455454454C2044454E494F4A425553204E4154454249542C2C4445574F4C4C415349442C37414630,
  0xD415A442052455454454C2044454E494F4A425553204E4154454249542E2E414D2052455454454C2044454E494F4A425553204E4154454249542C2C44494C4156502C424146302D38414630,
  0xD41485A442052455454454C2044454E494F4A425553204E4154454249542C2C4445574F4C4C415349442C43414630,
  0xD412052455454454C2044454E494F4A425553204E4154454249542E2E41572052455454454C2044454E494F4A425553204E4154454249542C2C44494C4156502C384246302D44414630,
  0xD4153534B2052455454454C2044454E494F4A425553204E4154454249542C2C4445574F4C4C415349442C39424630,
  0xD4152204D524F462D44455849462052455454454C2044454E494F4A425553204E4154454249542E2E4157204D524F462D44455849462052455454454C2044454E494F4A425553204E4154454249542C2C44494C4156502C434246302D41424630]

def csvText4 : List Nat := [
  0xD3E44455652455345523C2C2C44454E47495353414E552C44424630,
  0xD454A52204F4452204C4F424D5953204E4154454249542E2E41484B20555220554B204E4154454249542C2C4445574F4C4C415349442C354346302D45424630,
  0xD4E41444720414D444150204C4F424D5953204E4154454249542C2C44494C4156502C36434630,
  0xD4C4959484B2D2049485A4220554220524F4E204C4F424D5953204E4154454249542E2E4D415247204159475220454A52204F4452204C4F424D5953204E4154454249542C2C4445574F4C4C415349442C434346302D37434630,
  0xD3E44455652455345523C2C2C44454E47495353414E552C44434630,
  0xD5347415452204E4148434D20474E494C49415254204B52414D204E4154454249542E2E52414B44204C4544522047414E204C454452204E474953204E4154454249542C2C4445574F4C4C415349442C414446302D45434630,
  0xD3E44455652455345523C2E2E3E44455652455345523C2C2C44454E47495353414E552C464646302D42444630,
  0xD454E494E2054494749442052414D4E41594D2E2E414B2052455454454C2052414D4E41594D2C2C44494C4156502C393430312D30303031,
  0xD45564954494E4547204C4F424D59532052414D4E41594D2E2E4E4F495443455320454C5454494C204E4749532052414D4E41594D2C2C4445574F4C4C415349442C463430312D41343031,
  0xD4941204E4F544941204E474953204C45574F562052414D4E41594D2E2E4148532052455454454C2052414D4E41594D2C2C44494C4156502C443930312D30353031,
  0xD454F482052455454454C204C415449504143204E414947524F45472E2E454E4F204E414853204C4F424D59532052414D4E41594D2C2C4445574F4C4C415349442C354330312D45393031,
  0xD3E44455652455345523C2C2C44454E47495353414E552C36433031,
  0xD4E592052455454454C204C415449504143204E414947524F45472C2C4445574F4C4C415349442C37433031,
  0xD3E44455652455345523C2E2E3E44455652455345523C2C2C44454E47495353414E552C434330312D38433031,
  0xD4E45412052455454454C204C415449504143204E414947524F45472C2C4445574F4C4C415349442C44433031,
  0xD3E44455652455345523C2E2E3E44455652455345523C2C2C44454E47495353414E552C464330312D45433031,
  0xD4E49412052455454454C204E414947524F45472E2E4E412052455454454C204E414947524F45472C2C44494C4156502C414630312D30443031,
  0xD52414E204E414947524F45472052455454454C205245494649444F4D2E2E524F5441524150455320485041524741524150204E414947524F45472C2C4445574F4C4C415349442C434630312D42463031,
  0xD4E474953204C414942414C2052455454454C204E414947524F45472E2E4E45412052455454454C204E414947524F45472C2C44494C4156502C464630312D44463031,
  0xD4E5545494E474E41535320474E4F4553474E4F4A204C55474E41482E2E4B4F4559494B20474E4F45534F4843204C55474E41482C2C4445574F4C4C415349442C464631312D30303131,
  0xD41575120454C42414C4C5953204349504F494854452E2E414820454C42414C4C5953204349504F494854452C2C44494C4156502C383432312D30303231,
  0xD3E44455652455345523C2C2C44454E47495353414E552C39343231,
  0xD45575120454C42414C4C5953204349504F494854452E2E49575120454C42414C4C5953204349504F494854452C2C44494C4156502C443432312D41343231,
  0xD3E44455652455345523C2E2E3E44455652455345523C2C2C44454E47495353414E552C463432312D45343231,
  0xD4F485120454C42414C4C5953204349504F494854452E2E41485120454C42414C4C5953204349504F494854452C2C44494C4156502C363532312D30353231,
  0xD3E44455652455345523C2C2C44454E47495353414E552C37353231,
  0xD4157485120454C42414C4C5953204349504F494854452C2C44494C4156502C38353231,
  0xD3E44455652455345523C2C2C44454E47495353414E552C39353231,
  0xD4557485120454C42414C4C5953204349504F494854452E2E4957485120454C42414C4C5953204349504F494854452C2C44494C4156502C443532312D41353231,
  0xD3E44455652455345523C2E2E3E44455652455345523C2C2C44454E47495353414E552C463532312D45353231,
  0xD41575820454C42414C4C5953204349504F494854452E2E414220454C42414C4C5953204349504F494854452C2C44494C4156502C383832312D30363231,
  0xD3E44455652455345523C2C2C44454E47495353414E552C39383231,
  0xD45575820454C42414C4C5953204349504F494854452E2E49575820454C42414C4C5953204349504F494854452C2C44494C4156502C443832312D41383231,
  0xD3E44455652455345523C2E2E3E44455652455345523C2C2C44454E47495353414E552C463832312D45383231,
  0xD41574B20454C42414C4C5953204349504F494854452E2E414E20454C42414C4C5953204349504F494854452C2C44494C4156502C304232312D30393231,
  0xD3E44455652455345523C2C2C44454E47495353414E552C31423231,
  0xD45574B20454C42414C4C5953204349504F494854452E2E49574B20454C42414C4C5953204349504F494854452C2C44494C4156502C354232312D32423231,
  0xD3E44455652455345523C2E2E3E44455652455345523C2C2C44454E47495353414E552C374232312D36423231,
  0xD4F584B20454C42414C4C5953204349504F494854452E2E41584B20454C42414C4C5953204349504F494854452C2C44494C4156502C454232312D38423231,
  0xD3E44455652455345523C2C2C44454E47495353414E552C46423231,
  0xD4157584B20454C42414C4C5953204349504F494854452C2C44494C4156502C30433231,
  0xD3E44455652455345523C2C2C44454E47495353414E552C31433231,
  0xD4557584B20454C42414C4C5953204349504F494854452E2E4957584B20454C42414C4C5953204349504F494854452C2C44494C4156502C354332312D32433231,
  0xD3E44455652455345523C2E2E3E44455652455345523C2C2C44454E47495353414E552C374332312D36433231,
  0xD4F204C4145474E595241485020454C42414C4C5953204349504F494854452E2E415720454C42414C4C5953204349504F494854452C2C44494C4156502C364432312D38433231,
  0xD3E44455652455345523C2C2C44454E47495353414E552C37443231,
  0xD41574720454C42414C4C5953204349504F494854452E2E415A20454C42414C4C5953204349504F494854452C2C44494C4156502C303133312D38443231,
  0xD3E44455652455345523C2C2C44454E47495353414E552C31313331,
  0xD45574720454C42414C4C5953204349504F494854452E2E49574720454C42414C4C5953204349504F494854452C2C44494C4156502C353133312D32313331,
  0xD3E44455652455345523C2E2E3E44455652455345523C2C2C44454E47495353414E552C373133312D36313331,
  0xD41594620454C42414C4C5953204349504F494854452E2E41474720454C42414C4C5953204349504F494854452C2C44494C4156502C413533312D38313331,
  0xD3E44455652455345523C2E2E3E44455652455345523C2C2C44454E47495353414E552C433533312D42353331,
  0xD4B52414D204E4F4954414E494D454720474E494E49424D4F43204349504F494854452E2E4B52414D204854474E454C204C45574F5620444E41204E4F4954414E494D454720474E494E49424D4F43204349504F494854452C2C44494C4156502C463533312D44353331,
  0xD444E4153554F4854204E4554205245424D554E204349504F494854452E2E4B52414D204E4F4954434553204349504F494854452C2C4445574F4C4C415349442C433733312D30363331,
  0xD3E44455652455345523C2E2E3E44455652455345523C2C2C44454E47495353414E552C463733312D44373331,
  0xD45575020454C42414C4C5953204349504F494854452E2E41574D2054494542544142455320454C42414C4C5953204349504F494854452C2C44494C4156502C463833312D30383331,
  0xD5452554B204B52414D204C414E4F54204349504F494854452E2E54455A4959204B52414D204C414E4F54204349504F494854452C2C4445574F4C4C415349442C393933312D30393331,
  0xD3E44455652455345523C2E2E3E44455652455345523C2C2C44454E47495353414E552C463933312D41393331,
  0xD564D2052455454454C2045454B4F524548432E2E412052455454454C2045454B4F524548432C2C44494C4156502C354633312D30413331,
  0xD3E44455652455345523C2E2E3E44455652455345523C2C2C44454E47495353414E552C374633312D36463331,
  0xD564D2052455454454C204C4C414D532045454B4F524548432E2E45592052455454454C204C4C414D532045454B4F524548432C2C4445574F4C4C415349442C444633312D38463331,
  0xD3E44455652455345523C2E2E3E44455652455345523C2C2C44454E47495353414E552C464633312D45463331,
  0xD4E45485059482053434942414C4C5953204E414944414E41432C2C4445574F4C4C415349442C30303431,
  0xD4153545420524549525241432053434942414C4C5953204E414944414E41432E2E452053434942414C4C5953204E414944414E41432C2C44494C4156502C433636312D31303431,
  0xD504F5453204C4C55462053434942414C4C5953204E414944414E41432E2E4E474953204948432053434942414C4C5953204E414944414E41432C2C4445574F4C4C415349442C453636312D44363631,
  0xD5720544F4F464B43414C422053434942414C4C5953204E414944414E41432E2E4941512053434942414C4C5953204E414944414E41432C2C44494C4156502C463736312D46363631,
  0xD4B52414D204543415053204D4148474F2C2C4445574F4C4C415349442C30383631,
  0xD48544945502052455454454C204D4148474F2E2E48544945422052455454454C204D4148474F2C2C44494C4156502C413936312D31383631,
  0xD4B52414D2052454854414546204445535245564552204D4148474F2E2E4B52414D2052454854414546204D4148474F2C2C4445574F4C4C415349442C433936312D42393631,
  0xD3E44455652455345523C2E2E3E44455652455345523C2C2C44454E47495353414E552C463936312D44393631,
  0xD582052455454454C2043494E55522E2E4620454620484F454620554845462052455454454C2043494E55522C2C44494C4156502C414536312D30413631,
  0xD4C4F424D595320524F4854474C45422043494E55522E2E4E4F4954415554434E555020454C474E49532043494E55522C2C4445574F4C4C415349442C304636312D42453631,
  0xD435345412054454B53414320534B4E4152462052455454454C2043494E55522E2E4B2052455454454C2043494E55522C2C44494C4156502C384636312D31463631,
  0xD3E44455652455345523C2E2E3E44455652455345523C2C2C44454E47495353414E552C464636312D39463631,
  0xD41592052455454454C20474F4C414741542E2E412052455454454C20474F4C414741542C2C44494C4156502C433037312D30303731,
  0xD3E44455652455345523C2C2C44454E47495353414E552C44303731,
  0xD414D41524956204E47495320474F4C414741542E2E414C2052455454454C20474F4C414741542C2C44494C4156502C343137312D45303731,
  0xD3E44455652455345523C2E2E3E44455652455345523C2C2C44454E47495353414E552C463137312D35313731,
  0xD444F5044554D4150204E474953204F4F4E554E41482E2E412052455454454C204F4F4E554E41482C2C44494C4156502C343337312D30323731,
  0xD4E4F4954415554434E555020454C42554F4420454E495050494C4948502E2E4E4F4954415554434E555020454C474E495320454E495050494C4948502C2C4445574F4C4C415349442C363337312D35333731,
  0xD3E44455652455345523C2E2E3E44455652455345523C2C2C44454E47495353414E552C463337312D37333731,
  0xD55204E474953204C45574F562044494855422E2E412052455454454C2044494855422C2C44494C4156502C333537312D30343731,
  0xD3E44455652455345523C2E2E3E44455652455345523C2C2C44454E47495353414E552C463537312D34353731,
  0xD41592052455454454C2041574E41424741542E2E412052455454454C2041574E41424741542C2C44494C4156502C433637312D30363731,
  0xD3E44455652455345523C2C2C44454E47495353414E552C44363731,
  0xD41532052455454454C2041574E41424741542E2E414C2052455454454C2041574E41424741542C2C44494C4156502C303737312D45363731,
  0xD3E44455652455345523C2C2C44454E47495353414E552C31373731,
  0xD55204E474953204C45574F562041574E41424741542E2E49204E474953204C45574F562041574E41424741542C2C44494C4156502C333737312D32373731,
  0xD3E44455652455345523C2E2E3E44455652455345523C2C2C44454E47495353414E552C463737312D34373731,
  0xD554151204C45574F5620544E45444E455045444E492052454D484B2E2E414B2052455454454C2052454D484B2C2C44494C4156502C334237312D30383731,
  0xD414120544E455245484E49204C45574F562052454D484B2E2E514120544E455245484E49204C45574F562052454D484B2C2C4445574F4C4C415349442C354237312D34423731,
  0xD544153414D4148544142204E4749532052454D484B2E2E4141204E474953204C45574F562052454D484B2C2C44494C4156502C334437312D36423731,
  0xD4855554B204949502043554E4D4143204E4749532052454D484B2E2E4E41484B204E4749532052454D484B2C2C4445574F4C4C415349442C364437312D34443731,
  0xD4F4F54204B454C204E4749532052454D484B2C2C44494C4156502C37443731,
  0xD4C454952204C4F424D59532059434E45525255432052454D484B2E2E4C4159594542204E4749532052454D484B2C2C4445574F4C4C415349442C424437312D38443731,
  0xD4E41434148545441204E4749532052454D484B2E2E41594E4153414841524B415641204E4749532052454D484B2C2C44494C4156502C444437312D43443731,
  0xD3E44455652455345523C2E2E3E44455652455345523C2C2C44454E47495353414E552C464437312D45443731,
  0xD454E494E2054494749442052454D484B2E2E4F52455A2054494749442052454D484B2C2C44494C4156502C394537312D30453731,
  0xD3E44455652455345523C2E2E3E44455652455345523C2C2C44454E47495353414E552C464537312D41453731,
  0xD4E4F55422D4D415250204B41545441204B454C204C4F424D59532052454D484B2E2E4E4F53204B41545441204B454C204C4F424D59532052454D484B2C2C4445574F4C4C415349442C394637312D30463731,
  0xD3E44455652455345523C2E2E3E44455652455345523C2C2C44454E47495353414E552C464637312D41463731,
  0xD524F54415241504553204C45574F56204E41494C4F474E4F4D2E2E4147524942204E41494C4F474E4F4D2C2C4445574F4C4C415349442C453038312D30303831,
  0xD3E44455652455345523C2C2C44454E47495353414E552C46303831,
  0xD454E494E205449474944204E41494C4F474E4F4D2E2E4F52455A205449474944204E41494C4F474E4F4D2C2C44494C4156502C393138312D30313831,
  0xD3E44455652455345523C2E2E3E44455652455345523C2C2C44454E47495353414E552C463138312D41313831,
  0xD53544F44204F57542048544957204148432052455454454C204E41494C4F474E4F4D2E2E412052455454454C204E41494C4F474E4F4D2C2C44494C4156502C383738312D30323831,
  0xD3E44455652455345523C2E2E3E44455652455345523C2C2C44454E47495353414E552C463738312D39373831,
  0xD41484C20494C414720494C41205548434E414D2052455454454C204E41494C4F474E4F4D2E2E454E4F204152415653554E4120494C414720494C412052455454454C204E41494C4F474E4F4D2C2C44494C4156502C414138312D30383831,
  0xD3E44455652455345523C2E2E3E44455652455345523C2C2C44454E47495353414E552C464138312D42413831,
  0xD53204C41544E454420524549525241432053434942414C4C5953204E414944414E41432E2E594F2053434942414C4C5953204E414944414E41432C2C44494C4156502C354638312D30423831,
  0xD3E44455652455345523C2E2E3E44455652455345523C2C2C44454E47495353414E552C464638312D36463831,
  0xD4152542052455454454C2055424D494C2E2E52455454454C20524549525241432D4C45574F562055424D494C2C2C44494C4156502C453139312D30303931,
  0xD3E44455652455345523C2C2C44454E47495353414E552C46313931,
  0xD41572052455454454C2044454E494F4A4255532055424D494C2E2E41204E474953204C45574F562055424D494C2C2C44494C4156502C423239312D30323931,
  0xD3E44455652455345523C2E2E3E44455652455345523C2C2C44454E47495353414E552C463239312D43323931,
  0xD492D4153204E4749532055424D494C2E2E414B2052455454454C204C4C414D532055424D494C2C2C44494C4156502C423339312D30333931,
  0xD3E44455652455345523C2E2E3E44455652455345523C2C2C44454E47495353414E552C463339312D43333931,
  0xD4F4F4C204E4749532055424D494C2C2C4445574F4C4C415349442C30343931,
  0xD3E44455652455345523C2E2E3E44455652455345523C2C2C44454E47495353414E552C333439312D31343931,
  0xD4B52414D204E4F4954534555512055424D494C2E2E4B52414D204E4F4954414D414C4358452055424D494C2C2C4445574F4C4C415349442C353439312D34343931,
  0xD49412052455454454C20454C204941542E2E4F52455A2054494749442055424D494C2C2C44494C4156502C443639312D36343931,
  0xD3E44455652455345523C2E2E3E44455652455345523C2C2C44454E47495353414E552C463639312D45363931,
  0xD362D454E4F542052455454454C20454C204941542E2E322D454E4F542052455454454C20454C204941542C2C44494C4156502C343739312D30373931,
  0xD3E44455652455345523C2E2E3E44455652455345523C2C2C44454E47495353414E552C463739312D35373931,
  0xD41555320574F4C2052455454454C2045554C204941542057454E2E2E415120484749482052455454454C2045554C204941542057454E2C2C44494C4156502C424139312D30383931,
  0xD3E44455652455345523C2E2E3E44455652455345523C2C2C44454E47495353414E552C464139312D43413931,
  0xD322D4B52414D20454E4F542045554C204941542057454E2E2E52454E4554524F4853204C45574F56204E474953204C45574F562045554C204941542057454E2C2C44494C4156502C394339312D30423931,
  0xD3E44455652455345523C2E2E3E44455652455345523C2C2C44454E47495353414E552C464339312D41433931,
  0xD454E494E2054494749442045554C204941542057454E2E2E4F52455A2054494749442045554C204941542057454E2C2C44494C4156502C394439312D30443931,
  0xD454E4F205449474944204D4148542045554C204941542057454E2C2C4445574F4C4C415349442C41443931,
  0xD3E44455652455345523C2E2E3E44455652455345523C2C2C44454E47495353414E552C444439312D42443931,
  0xD434F52204D4152502D504144204C4F424D59532052454D484B2E2E45414C204E4749532045554C204941542057454E2C2C4445574F4C4C415349442C464639312D45443931,
  0xD4541204E474953204C45574F56204553454E494755422E2E414B2052455454454C204553454E494755422C2C44494C4156502C423141312D30304131,
  0xD3E44455652455345523C2E2E3E44455652455345523C2C2C44454E47495353414E552C443141312D43314131,
  0xD4E4F495443455320464F20444E45204553454E494755422E2E4157414C4C4150204553454E494755422C2C4445574F4C4C415349442C463141312D45314131,
  0xD4153204E47495320544E414E4F534E4F43204D414854204941542E2E414B20484749482052455454454C204D414854204941542C2C44494C4156502C453541312D30324131,
  0xD3E44455652455345523C2C2C44454E47495353414E552C46354131,
  0xD4E4152414B2045554C2D4E4555484B204E474953204D414854204941542E2E544F4B4153204E474953204D414854204941542C2C44494C4156502C433741312D30364131,
  0xD3E44455652455345523C2E2E3E44455652455345523C2C2C44454E47495353414E552C453741312D44374131,
  0xD454E494E2054494749442041524F48204D414854204941542E2E544F442043494D4D4152474F545059524320474E494E49424D4F43204D414854204941542C2C44494C4156502C393841312D46374131,
  0xD3E44455652455345523C2E2E3E44455652455345523C2C2C44454E47495353414E552C463841312D41384131,
  0xD454E494E205449474944204D414854204D414854204941542E2E4F52455A205449474944204D414854204D414854204941542C2C44494C4156502C393941312D30394131,
  0xD3E44455652455345523C2E2E3E44455652455345523C2C2C44454E47495353414E552C463941312D41394131,
  0xD414E41522044455441544F52204445535245564552204E474953204D414854204941542E2E474E414957204E474953204D414854204941542C2C4445574F4C4C415349442C364141312D30414131,
  0xD4B4F4D41592049414D204E474953204D414854204941542C2C44494C4156502C37414131,
  0xD474E414143204E474953204D414854204941542E2E4E41414B204E474953204D414854204941542C2C4445574F4C4C415349442C444141312D38414131,
  0xD3E44455652455345523C2E2E3E44455652455345523C2C2C44454E47495353414E552C464141312D45414131,
  0xD574F4C4542205345534548544E4552415020474E494E49424D4F432E2E544E454343412058454C464D55435249432044454C42554F4420474E494E49424D4F432C2C44494C4156502C444241312D30424131,
  0xD59414C5245564F205345534548544E4552415020474E494E49424D4F432C2C4445574F4C4C415349442C45424131,
  0xD3E44455652455345523C2E2E3E44455652455345523C2C2C44454E47495353414E552C464641312D46424131,
  0xD4B41534153204152555953412052455454454C204553454E494C41422E2E4D4543495220554C55204E474953204553454E494C41422C2C44494C4156502C423442312D30304231,
  0xD3E44455652455345523C2E2E3E44455652455345523C2C2C44454E47495353414E552C463442312D43344231,
  0xD454E494E205449474944204553454E494C41422E2E4F52455A205449474944204553454E494C41422C2C44494C4156502C393542312D30354231,
  0xD4544454720474E4144204C4F424D5953204C41434953554D204553454E494C41422E2E49544E4150204553454E494C41422C2C4445574F4C4C415349442C413642312D41354231,
  0xD474E4F4720474E494E49424D4F43204C4F424D5953204C41434953554D204553454E494C41422E2E484547455420474E494E49424D4F43204C4F424D5953204C41434953554D204553454E494C41422C2C44494C4156502C333742312D42364231,
  0xD474E4950204E45504F20444E41482D5446454C204C4F424D5953204C41434953554D204553454E494C41422E2E475544204E45504F20444E41482D5448474952204C4F424D5953204C41434953554D204553454E494C41422C2C4445574F4C4C415349442C433742312D34374231,
  0xD3E44455652455345523C2E2E3E44455652455345523C2C2C44454E47495353414E552C463742312D44374231,
  0xD4E414E4F474E4F4E4150204B415441422E2E4B454345594E4150204E474953204553454E41444E55532C2C44494C4156502C334642312D30384231,
  0xD3E44455652455345523C2E2E3E44455652455345523C2C2C44454E47495353414E552C424642312D34464231,
  0xD54414C4F474E41502055444E4942204C4F424D5953204B415441422E2E4B4554454D20414E2055444E4942204C4F424D5953204B415441422C2C4445574F4C4C415349442C464642312D43464231,
  0xD41544B554E204E4749532041484350454C2E2E414B2052455454454C2041484350454C2C2C44494C4156502C373343312D30304331,
  0xD3E44455652455345523C2E2E3E44455652455345523C2C2C44454E47495353414E552C413343312D38334331,
  0xD4B4F4F485354204E4F4954415554434E55502041484350454C2E2E4C4F522D4154204E4F4954415554434E55502041484350454C2C2C4445574F4C4C415349442C463343312D42334331,
  0xD454E494E2054494749442041484350454C2E2E4F52455A2054494749442041484350454C2C2C44494C4156502C393443312D30344331,
  0xD3E44455652455345523C2E2E3E44455652455345523C2C2C44454E47495353414E552C433443312D41344331,
  0xD4441484120494B494843204C4F2E2E4154542052455454454C2041484350454C2C2C44494C4156502C443743312D44344331,
  0xD4B55204445444E454C424E552052455454454C204C4C414D532043494C4C495259432E2E44414143554D204E4F4954415554434E555020494B494843204C4F2C2C4445574F4C4C415349442C383843312D45374331,
  0xD3E44455652455345523C2E2E3E44455652455345523C2C2C44454E47495353414E552C463843312D39384331,
  0xD4E49412052455454454C204C41544950414320494C55525641544D204E414947524F45472E2E4E412052455454454C204C41544950414320494C55525641544D204E414947524F45472C2C4445574F4C4C415349442C414243312D30394331,
  0xD3E44455652455345523C2E2E3E44455652455345523C2C2C44454E47495353414E552C434243312D42424331,
  0xD41474E415441532041422055444E4942204E4F4954415554434E5550204553454E41444E55532E2E4E45412052455454454C204C41544950414320494C55525641544D204E414947524F45472C2C4445574F4C4C415349442C374343312D44424331,
  0xD3E44455652455345523C2E2E3E44455652455345523C2C2C44454E47495353414E552C464343312D38434331,
  0xD41484B4E45525020454E4F542043494445562E2E414E41485352414B20454E4F542043494445562C2C44494C4156502C324443312D30444331,
  0xD41534156485348494E204E4749532043494445562C2C4445574F4C4C415349442C33444331,
  0xD45564F424120474E495220454C42554F4420454E4F542043494445562E2E4154495241565320454E494C44494D20434944455652554A4159204E4749532043494445562C2C44494C4156502C394643312D34444331,
  0xD3E44455652455345523C2E2E3E44455652455345523C2C2C44454E47495353414E552C464643312D41464331,
  0xD4C45204C415449504143204C4C414D532052455454454C2043494C4C495259432E2E41204C415449504143204C4C414D532052455454454C204E4954414C2C2C44494C4156502C423244312D30304431,
  0xD42204C4154495041432052455454454C205245494649444F4D2E2E41204C4154495041432052455454454C205245494649444F4D2C2C4445574F4C4C415349442C453244312D43324431,
  0xD4220444552524142204C4154495041432052455454454C205245494649444F4D2C2C44494C4156502C46324431,
  0xD4E204C4154495041432052455454454C205245494649444F4D2E2E44204C4154495041432052455454454C205245494649444F4D2C2C4445574F4C4C415349442C413344312D30334431,
  0xD4E204445535245564552204C4154495041432052455454454C205245494649444F4D2C2C44494C4156502C42334431,
  0xD47204C4C414D532052455454454C205245494649444F4D2E2E4F204C4154495041432052455454454C205245494649444F4D2C2C4445574F4C4C415349442C443444312D43334431,
  0xD492044454E525554204C4C414D532052455454454C205245494649444F4D2C2C44494C4156502C45344431,
  0xD4948432052455454454C204C4C414D5320545049524353425553204B454552472E2E4B204C4C414D532052455454454C205245494649444F4D2C2C4445574F4C4C415349442C413644312D46344431,
  0xD472044454E5255542052455454454C204C4C414D53204E4954414C2E2E45552052455454454C204C4C414D53204E4954414C2C2C44494C4156502C373744312D42364431,
  0xD4E452043494C4C495259432052455454454C205245494649444F4D2C2C4445574F4C4C415349442C38374431,
  0xD4B4F4F482058454C464F52544552204854495720485A452052455454454C204C4C414D53204E4954414C2E2E472052414C55534E492052455454454C204C4C414D53204E4954414C2C2C44494C4156502C413944312D39374431,
  0xD4154454854204C4C414D532052455454454C205245494649444F4D2E2E4148504C412044454E525554204C4C414D532052455454454C205245494649444F4D2C2C4445574F4C4C415349442C464244312D42394431,
  0xD574F4C454220454744495242204445545245564E49204544495720474E494E49424D4F432E2E544E4543434120455641524720444554544F4420474E494E49424D4F432C2C44494C4156502C394644312D30434431,
  0xD3E44455652455345523C2C2C44454E47495353414E552C41464431,
  0xD574F4C45422044414548574F525241204E574F4420444E412044414548574F52524120544847495220474E494E49424D4F432E2E4B52414D204E4F4954454C454420474E494E49424D4F432C2C44494C4156502C464644312D42464431,
  0xD574F4C454220474E4952204854495720412052455454454C204C415449504143204E4954414C2C2C4445574F4C4C415349442C30304531,
  0xD574F4C454220474E4952204854495720412052455454454C204C4C414D53204E4954414C2C2C44494C4156502C31304531,
  0xD45564F424120544F44204854495720422052455454454C204C415449504143204E4954414C2C2C4445574F4C4C415349442C32304531,
  0xD45564F424120544F44204854495720422052455454454C204C4C414D53204E4954414C2C2C44494C4156502C33304531,
  0xD574F4C454220544F44204854495720422052455454454C204C415449504143204E4954414C2C2C4445574F4C4C415349442C34304531,
  0xD574F4C454220544F44204854495720422052455454454C204C4C414D53204E4954414C2C2C44494C4156502C35304531,
  0xD574F4C454220454E494C204854495720422052455454454C204C415449504143204E4954414C2C2C4445574F4C4C415349442C36304531,
  0xD574F4C454220454E494C204854495720422052455454454C204C4C414D53204E4954414C2C2C44494C4156502C37304531,
  0xD455455434120444E4120414C4C49444543204854495720432052455454454C204C415449504143204E4954414C2C2C4445574F4C4C415349442C38304531,
  0xD455455434120444E4120414C4C49444543204854495720432052455454454C204C4C414D53204E4954414C2C2C44494C4156502C39304531,
  0xD45564F424120544F44204854495720442052455454454C204C415449504143204E4954414C2C2C4445574F4C4C415349442C41304531,
  0xD45564F424120544F44204854495720442052455454454C204C4C414D53204E4954414C2C2C44494C4156502C42304531,
  0xD574F4C454220544F44204854495720442052455454454C204C415449504143204E4954414C2C2C4445574F4C4C415349442C43304531,
  0xD574F4C454220544F44204854495720442052455454454C204C4C414D53204E4954414C2C2C44494C4156502C44304531,
  0xD574F4C454220454E494C204854495720442052455454454C204C415449504143204E4954414C2C2C4445574F4C4C415349442C45304531,
  0xD574F4C454220454E494C204854495720442052455454454C204C4C414D53204E4954414C2C2C44494C4156502C46304531,
  0xD414C4C49444543204854495720442052455454454C204C415449504143204E4954414C2C2C4445574F4C4C415349442C30314531,
  0xD414C4C49444543204854495720442052455454454C204C4C414D53204E4954414C2C2C44494C4156502C31314531,
  0xD574F4C45422058454C464D5543524943204854495720442052455454454C204C415449504143204E4954414C2C2C4445574F4C4C415349442C32314531,
  0xD574F4C45422058454C464D5543524943204854495720442052455454454C204C4C414D53204E4954414C2C2C44494C4156502C33314531,
  0xD455641524720444E41204E4F5243414D204854495720452052455454454C204C415449504143204E4954414C2C2C4445574F4C4C415349442C34314531,
  0xD455641524720444E41204E4F5243414D204854495720452052455454454C204C4C414D53204E4954414C2C2C44494C4156502C35314531,
  0xD455455434120444E41204E4F5243414D204854495720452052455454454C204C415449504143204E4954414C2C2C4445574F4C4C415349442C36314531,
  0xD455455434120444E41204E4F5243414D204854495720452052455454454C204C4C414D53204E4954414C2C2C44494C4156502C37314531,
  0xD574F4C45422058454C464D5543524943204854495720452052455454454C204C415449504143204E4954414C2C2C4445574F4C4C415349442C38314531,
  0xD574F4C45422058454C464D5543524943204854495720452052455454454C204C4C414D53204E4954414C2C2C44494C4156502C39314531,
  0xD574F4C45422045444C4954204854495720452052455454454C204C415449504143204E4954414C2C2C4445574F4C4C415349442C41314531,
  0xD574F4C45422045444C4954204854495720452052455454454C204C4C414D53204E4954414C2C2C44494C4156502C42314531,
  0xD455645524220444E4120414C4C49444543204854495720452052455454454C204C415449504143204E4954414C2C2C4445574F4C4C415349442C43314531,
  0xD455645524220444E4120414C4C49444543204854495720452052455454454C204C4C414D53204E4954414C2C2C44494C4156502C44314531,
  0xD45564F424120544F44204854495720462052455454454C204C415449504143204E4954414C2C2C4445574F4C4C415349442C45314531,
  0xD45564F424120544F44204854495720462052455454454C204C4C414D53204E4954414C2C2C44494C4156502C46314531,
  0xD4E4F5243414D204854495720472052455454454C204C415449504143204E4954414C2C2C4445574F4C4C415349442C30324531,
  0xD4E4F5243414D204854495720472052455454454C204C4C414D53204E4954414C2C2C44494C4156502C31324531,
  0xD45564F424120544F44204854495720482052455454454C204C415449504143204E4954414C2C2C4445574F4C4C415349442C32324531,
  0xD45564F424120544F44204854495720482052455454454C204C4C414D53204E4954414C2C2C44494C4156502C33324531,
  0xD574F4C454220544F44204854495720482052455454454C204C415449504143204E4954414C2C2C4445574F4C4C415349442C34324531,
  0xD574F4C454220544F44204854495720482052455454454C204C4C414D53204E4954414C2C2C44494C4156502C35324531,
  0xD534953455245414944204854495720482052455454454C204C415449504143204E4954414C2C2C4445574F4C4C415349442C36324531,
  0xD534953455245414944204854495720482052455454454C204C4C414D53204E4954414C2C2C44494C4156502C37324531,
  0xD414C4C49444543204854495720482052455454454C204C415449504143204E4954414C2C2C4445574F4C4C415349442C38324531,
  0xD414C4C49444543204854495720482052455454454C204C4C414D53204E4954414C2C2C44494C4156502C39324531,
  0xD574F4C4542204556455242204854495720482052455454454C204C415449504143204E4954414C2C2C4445574F4C4C415349442C41324531,
  0xD574F4C4542204556455242204854495720482052455454454C204C4C414D53204E4954414C2C2C44494C4156502C42324531,
  0xD574F4C45422045444C4954204854495720492052455454454C204C415449504143204E4954414C2C2C4445574F4C4C415349442C43324531,
  0xD574F4C45422045444C4954204854495720492052455454454C204C4C414D53204E4954414C2C2C44494C4156502C44324531,
  0xD455455434120444E4120534953455245414944204854495720492052455454454C204C415449504143204E4954414C2C2C4445574F4C4C415349442C45324531,
  0xD455455434120444E4120534953455245414944204854495720492052455454454C204C4C414D53204E4954414C2C2C44494C4156502C46324531,
  0xD45545543412048544957204B2052455454454C204C415449504143204E4954414C2C2C4445574F4C4C415349442C30334531,
  0xD45545543412048544957204B2052455454454C204C4C414D53204E4954414C2C2C44494C4156502C31334531,
  0xD574F4C454220544F442048544957204B2052455454454C204C415449504143204E4954414C2C2C4445574F4C4C415349442C32334531,
  0xD574F4C454220544F442048544957204B2052455454454C204C4C414D53204E4954414C2C2C44494C4156502C33334531,
  0xD574F4C454220454E494C2048544957204B2052455454454C204C415449504143204E4954414C2C2C4445574F4C4C415349442C34334531,
  0xD574F4C454220454E494C2048544957204B2052455454454C204C4C414D53204E4954414C2C2C44494C4156502C35334531,
  0xD574F4C454220544F442048544957204C2052455454454C204C415449504143204E4954414C2C2C4445574F4C4C415349442C36334531,
  0xD574F4C454220544F442048544957204C2052455454454C204C4C414D53204E4954414C2C2C44494C4156502C37334531,
  0xD4E4F5243414D20444E4120574F4C454220544F442048544957204C2052455454454C204C415449504143204E4954414C2C2C4445574F4C4C415349442C38334531,
  0xD4E4F5243414D20444E4120574F4C454220544F442048544957204C2052455454454C204C4C414D53204E4954414C2C2C44494C4156502C39334531,
  0xD574F4C454220454E494C2048544957204C2052455454454C204C415449504143204E4954414C2C2C4445574F4C4C415349442C41334531]

def csvText5 : List Nat := [
  0xD574F4C454220454E494C2048544957204C2052455454454C204C4C414D53204E4954414C2C2C44494C4156502C42334531,
  0xD574F4C45422058454C464D55435249432048544957204C2052455454454C204C415449504143204E4954414C2C2C4445574F4C4C415349442C43334531,
  0xD574F4C45422058454C464D55435249432048544957204C2052455454454C204C4C414D53204E4954414C2C2C44494C4156502C44334531,
  0xD45545543412048544957204D2052455454454C204C415449504143204E4954414C2C2C4445574F4C4C415349442C45334531,
  0xD45545543412048544957204D2052455454454C204C4C414D53204E4954414C2C2C44494C4156502C46334531,
  0xD45564F424120544F442048544957204D2052455454454C204C415449504143204E4954414C2C2C4445574F4C4C415349442C30344531,
  0xD45564F424120544F442048544957204D2052455454454C204C4C414D53204E4954414C2C2C44494C4156502C31344531,
  0xD574F4C454220544F442048544957204D2052455454454C204C415449504143204E4954414C2C2C4445574F4C4C415349442C32344531,
  0xD574F4C454220544F442048544957204D2052455454454C204C4C414D53204E4954414C2C2C44494C4156502C33344531,
  0xD45564F424120544F442048544957204E2052455454454C204C415449504143204E4954414C2C2C4445574F4C4C415349442C34344531,
  0xD45564F424120544F442048544957204E2052455454454C204C4C414D53204E4954414C2C2C44494C4156502C35344531,
  0xD574F4C454220544F442048544957204E2052455454454C204C415449504143204E4954414C2C2C4445574F4C4C415349442C36344531,
  0xD574F4C454220544F442048544957204E2052455454454C204C4C414D53204E4954414C2C2C44494C4156502C37344531,
  0xD574F4C454220454E494C2048544957204E2052455454454C204C415449504143204E4954414C2C2C4445574F4C4C415349442C38344531,
  0xD574F4C454220454E494C2048544957204E2052455454454C204C4C414D53204E4954414C2C2C44494C4156502C39344531,
  0xD574F4C45422058454C464D55435249432048544957204E2052455454454C204C415449504143204E4954414C2C2C4445574F4C4C415349442C41344531,
  0xD574F4C45422058454C464D55435249432048544957204E2052455454454C204C4C414D53204E4954414C2C2C44494C4156502C42344531,
  0xD455455434120444E412045444C49542048544957204F2052455454454C204C415449504143204E4954414C2C2C4445574F4C4C415349442C43344531,
  0xD455455434120444E412045444C49542048544957204F2052455454454C204C4C414D53204E4954414C2C2C44494C4156502C44344531,
  0xD53495345524541494420444E412045444C49542048544957204F2052455454454C204C415449504143204E4954414C2C2C4445574F4C4C415349442C45344531,
  0xD53495345524541494420444E412045444C49542048544957204F2052455454454C204C4C414D53204E4954414C2C2C44494C4156502C46344531,
  0xD455641524720444E41204E4F5243414D2048544957204F2052455454454C204C415449504143204E4954414C2C2C4445574F4C4C415349442C30354531,
  0xD455641524720444E41204E4F5243414D2048544957204F2052455454454C204C4C414D53204E4954414C2C2C44494C4156502C31354531,
  0xD455455434120444E41204E4F5243414D2048544957204F2052455454454C204C415449504143204E4954414C2C2C4445574F4C4C415349442C32354531,
  0xD455455434120444E41204E4F5243414D2048544957204F2052455454454C204C4C414D53204E4954414C2C2C44494C4156502C33354531,
  0xD4554554341204854495720502052455454454C204C415449504143204E4954414C2C2C4445574F4C4C415349442C34354531,
  0xD4554554341204854495720502052455454454C204C4C414D53204E4954414C2C2C44494C4156502C35354531,
  0xD45564F424120544F44204854495720502052455454454C204C415449504143204E4954414C2C2C4445574F4C4C415349442C36354531,
  0xD45564F424120544F44204854495720502052455454454C204C4C414D53204E4954414C2C2C44494C4156502C37354531,
  0xD45564F424120544F44204854495720522052455454454C204C415449504143204E4954414C2C2C4445574F4C4C415349442C38354531,
  0xD45564F424120544F44204854495720522052455454454C204C4C414D53204E4954414C2C2C44494C4156502C39354531,
  0xD574F4C454220544F44204854495720522052455454454C204C415449504143204E4954414C2C2C4445574F4C4C415349442C41354531,
  0xD574F4C454220544F44204854495720522052455454454C204C4C414D53204E4954414C2C2C44494C4156502C42354531,
  0xD4E4F5243414D20444E4120574F4C454220544F44204854495720522052455454454C204C415449504143204E4954414C2C2C4445574F4C4C415349442C43354531,
  0xD4E4F5243414D20444E4120574F4C454220544F44204854495720522052455454454C204C4C414D53204E4954414C2C2C44494C4156502C44354531,
  0xD574F4C454220454E494C204854495720522052455454454C204C415449504143204E4954414C2C2C4445574F4C4C415349442C45354531,
  0xD574F4C454220454E494C204854495720522052455454454C204C4C414D53204E4954414C2C2C44494C4156502C46354531,
  0xD45564F424120544F44204854495720532052455454454C204C415449504143204E4954414C2C2C4445574F4C4C415349442C30364531,
  0xD45564F424120544F44204854495720532052455454454C204C4C414D53204E4954414C2C2C44494C4156502C31364531,
  0xD574F4C454220544F44204854495720532052455454454C204C415449504143204E4954414C2C2C4445574F4C4C415349442C32364531,
  0xD574F4C454220544F44204854495720532052455454454C204C4C414D53204E4954414C2C2C44494C4156502C33364531,
  0xD45564F424120544F4420444E41204554554341204854495720532052455454454C204C415449504143204E4954414C2C2C4445574F4C4C415349442C34364531,
  0xD45564F424120544F4420444E41204554554341204854495720532052455454454C204C4C414D53204E4954414C2C2C44494C4156502C35364531,
  0xD45564F424120544F4420444E41204E4F524143204854495720532052455454454C204C415449504143204E4954414C2C2C4445574F4C4C415349442C36364531,
  0xD45564F424120544F4420444E41204E4F524143204854495720532052455454454C204C4C414D53204E4954414C2C2C44494C4156502C37364531,
  0xD45564F424120544F4420444E4120574F4C454220544F44204854495720532052455454454C204C415449504143204E4954414C2C2C4445574F4C4C415349442C38364531,
  0xD45564F424120544F4420444E4120574F4C454220544F44204854495720532052455454454C204C4C414D53204E4954414C2C2C44494C4156502C39364531,
  0xD45564F424120544F44204854495720542052455454454C204C415449504143204E4954414C2C2C4445574F4C4C415349442C41364531,
  0xD45564F424120544F44204854495720542052455454454C204C4C414D53204E4954414C2C2C44494C4156502C42364531,
  0xD574F4C454220544F44204854495720542052455454454C204C415449504143204E4954414C2C2C4445574F4C4C415349442C43364531,
  0xD574F4C454220544F44204854495720542052455454454C204C4C414D53204E4954414C2C2C44494C4156502C44364531,
  0xD574F4C454220454E494C204854495720542052455454454C204C415449504143204E4954414C2C2C4445574F4C4C415349442C45364531,
  0xD574F4C454220454E494C204854495720542052455454454C204C4C414D53204E4954414C2C2C44494C4156502C46364531,
  0xD574F4C45422058454C464D5543524943204854495720542052455454454C204C415449504143204E4954414C2C2C4445574F4C4C415349442C30374531,
  0xD574F4C45422058454C464D5543524943204854495720542052455454454C204C4C414D53204E4954414C2C2C44494C4156502C31374531,
  0xD574F4C454220534953455245414944204854495720552052455454454C204C415449504143204E4954414C2C2C4445574F4C4C415349442C32374531,
  0xD574F4C454220534953455245414944204854495720552052455454454C204C4C414D53204E4954414C2C2C44494C4156502C33374531,
  0xD574F4C45422045444C4954204854495720552052455454454C204C415449504143204E4954414C2C2C4445574F4C4C415349442C34374531,
  0xD574F4C45422045444C4954204854495720552052455454454C204C4C414D53204E4954414C2C2C44494C4156502C35374531,
  0xD574F4C45422058454C464D5543524943204854495720552052455454454C204C415449504143204E4954414C2C2C4445574F4C4C415349442C36374531,
  0xD574F4C45422058454C464D5543524943204854495720552052455454454C204C4C414D53204E4954414C2C2C44494C4156502C37374531,
  0xD455455434120444E412045444C4954204854495720552052455454454C204C415449504143204E4954414C2C2C4445574F4C4C415349442C38374531,
  0xD455455434120444E412045444C4954204854495720552052455454454C204C4C414D53204E4954414C2C2C44494C4156502C39374531,
  0xD53495345524541494420444E41204E4F5243414D204854495720552052455454454C204C415449504143204E4954414C2C2C4445574F4C4C415349442C41374531,
  0xD53495345524541494420444E41204E4F5243414D204854495720552052455454454C204C4C414D53204E4954414C2C2C44494C4156502C42374531,
  0xD45444C4954204854495720562052455454454C204C415449504143204E4954414C2C2C4445574F4C4C415349442C43374531,
  0xD45444C4954204854495720562052455454454C204C4C414D53204E4954414C2C2C44494C4156502C44374531,
  0xD574F4C454220544F44204854495720562052455454454C204C415449504143204E4954414C2C2C4445574F4C4C415349442C45374531,
  0xD574F4C454220544F44204854495720562052455454454C204C4C414D53204E4954414C2C2C44494C4156502C46374531,
  0xD4556415247204854495720572052455454454C204C415449504143204E4954414C2C2C4445574F4C4C415349442C30384531,
  0xD4556415247204854495720572052455454454C204C4C414D53204E4954414C2C2C44494C4156502C31384531,
  0xD4554554341204854495720572052455454454C204C415449504143204E4954414C2C2C4445574F4C4C415349442C32384531,
  0xD4554554341204854495720572052455454454C204C4C414D53204E4954414C2C2C44494C4156502C33384531,
  0xD534953455245414944204854495720572052455454454C204C415449504143204E4954414C2C2C4445574F4C4C415349442C34384531,
  0xD534953455245414944204854495720572052455454454C204C4C414D53204E4954414C2C2C44494C4156502C35384531,
  0xD45564F424120544F44204854495720572052455454454C204C415449504143204E4954414C2C2C4445574F4C4C415349442C36384531,
  0xD45564F424120544F44204854495720572052455454454C204C4C414D53204E4954414C2C2C44494C4156502C37384531,
  0xD574F4C454220544F44204854495720572052455454454C204C415449504143204E4954414C2C2C4445574F4C4C415349442C38384531,
  0xD574F4C454220544F44204854495720572052455454454C204C4C414D53204E4954414C2C2C44494C4156502C39384531,
  0xD45564F424120544F44204854495720582052455454454C204C415449504143204E4954414C2C2C4445574F4C4C415349442C41384531,
  0xD45564F424120544F44204854495720582052455454454C204C4C414D53204E4954414C2C2C44494C4156502C42384531,
  0xD534953455245414944204854495720582052455454454C204C415449504143204E4954414C2C2C4445574F4C4C415349442C43384531,
  0xD534953455245414944204854495720582052455454454C204C4C414D53204E4954414C2C2C44494C4156502C44384531,
  0xD45564F424120544F44204854495720592052455454454C204C415449504143204E4954414C2C2C4445574F4C4C415349442C45384531,
  0xD45564F424120544F44204854495720592052455454454C204C4C414D53204E4954414C2C2C44494C4156502C46384531,
  0xD58454C464D55435249432048544957205A2052455454454C204C415449504143204E4954414C2C2C4445574F4C4C415349442C30394531,
  0xD58454C464D55435249432048544957205A2052455454454C204C4C414D53204E4954414C2C2C44494C4156502C31394531,
  0xD574F4C454220544F442048544957205A2052455454454C204C415449504143204E4954414C2C2C4445574F4C4C415349442C32394531,
  0xD574F4C454220544F442048544957205A2052455454454C204C4C414D53204E4954414C2C2C44494C4156502C33394531,
  0xD574F4C454220454E494C2048544957205A2052455454454C204C415449504143204E4954414C2C2C4445574F4C4C415349442C34394531,
  0xD45564F424120474E4952204854495720592052455454454C204C4C414D53204E4954414C2E2E574F4C454220454E494C2048544957205A2052455454454C204C4C414D53204E4954414C2C2C44494C4156502C393945312D35394531,
  0xD45564F424120544F442048544957205320474E4F4C2052455454454C204C4C414D53204E4954414C2E2E474E495220464C4148205448474952204854495720412052455454454C204C4C414D53204E4954414C2C2C4445574F4C4C415349442C423945312D41394531,
  0xD454B4F52545320484749482048544957205320474E4F4C2052455454454C204C4C414D53204E4954414C2E2E454B4F525453204C414E4F474149442048544957205320474E4F4C2052455454454C204C4C414D53204E4954414C2C2C44494C4156502C443945312D43394531,
  0xD532050524148532052455454454C204C415449504143204E4954414C2C2C4445574F4C4C415349442C45394531,
  0xD41544C45442052455454454C204C4C414D53204E4954414C2C2C44494C4156502C46394531,
  0xD574F4C454220544F44204854495720412052455454454C204C415449504143204E4954414C2C2C4445574F4C4C415349442C30414531,
  0xD574F4C454220544F44204854495720412052455454454C204C4C414D53204E4954414C2C2C44494C4156502C31414531,
  0xD45564F4241204B4F4F48204854495720412052455454454C204C415449504143204E4954414C2C2C4445574F4C4C415349442C32414531,
  0xD45564F4241204B4F4F48204854495720412052455454454C204C4C414D53204E4954414C2C2C44494C4156502C33414531,
  0xD455455434120444E412058454C464D5543524943204854495720412052455454454C204C415449504143204E4954414C2C2C4445574F4C4C415349442C34414531,
  0xD455455434120444E412058454C464D5543524943204854495720412052455454454C204C4C414D53204E4954414C2C2C44494C4156502C35414531,
  0xD455641524720444E412058454C464D5543524943204854495720412052455454454C204C415449504143204E4954414C2C2C4445574F4C4C415349442C36414531,
  0xD455641524720444E412058454C464D5543524943204854495720412052455454454C204C4C414D53204E4954414C2C2C44494C4156502C37414531,
  0xD45564F4241204B4F4F4820444E412058454C464D5543524943204854495720412052455454454C204C415449504143204E4954414C2C2C4445574F4C4C415349442C38414531,
  0xD45564F4241204B4F4F4820444E412058454C464D5543524943204854495720412052455454454C204C4C414D53204E4954414C2C2C44494C4156502C39414531,
  0xD45444C495420444E412058454C464D5543524943204854495720412052455454454C204C415449504143204E4954414C2C2C4445574F4C4C415349442C41414531,
  0xD45444C495420444E412058454C464D5543524943204854495720412052455454454C204C4C414D53204E4954414C2C2C44494C4156502C42414531,
  0xD574F4C454220544F4420444E412058454C464D5543524943204854495720412052455454454C204C415449504143204E4954414C2C2C4445574F4C4C415349442C43414531,
  0xD574F4C454220544F4420444E412058454C464D5543524943204854495720412052455454454C204C4C414D53204E4954414C2C2C44494C4156502C44414531,
  0xD455455434120444E41204556455242204854495720412052455454454C204C415449504143204E4954414C2C2C4445574F4C4C415349442C45414531,
  0xD455455434120444E41204556455242204854495720412052455454454C204C4C414D53204E4954414C2C2C44494C4156502C46414531,
  0xD455641524720444E41204556455242204854495720412052455454454C204C415449504143204E4954414C2C2C4445574F4C4C415349442C30424531,
  0xD455641524720444E41204556455242204854495720412052455454454C204C4C414D53204E4954414C2C2C44494C4156502C31424531,
  0xD45564F4241204B4F4F4820444E41204556455242204854495720412052455454454C204C415449504143204E4954414C2C2C4445574F4C4C415349442C32424531,
  0xD45564F4241204B4F4F4820444E41204556455242204854495720412052455454454C204C4C414D53204E4954414C2C2C44494C4156502C33424531,
  0xD45444C495420444E41204556455242204854495720412052455454454C204C415449504143204E4954414C2C2C4445574F4C4C415349442C34424531,
  0xD45444C495420444E41204556455242204854495720412052455454454C204C4C414D53204E4954414C2C2C44494C4156502C35424531,
  0xD574F4C454220544F4420444E41204556455242204854495720412052455454454C204C415449504143204E4954414C2C2C4445574F4C4C415349442C36424531,
  0xD574F4C454220544F4420444E41204556455242204854495720412052455454454C204C4C414D53204E4954414C2C2C44494C4156502C37424531,
  0xD574F4C454220544F44204854495720452052455454454C204C415449504143204E4954414C2C2C4445574F4C4C415349442C38424531,
  0xD574F4C454220544F44204854495720452052455454454C204C4C414D53204E4954414C2C2C44494C4156502C39424531,
  0xD45564F4241204B4F4F48204854495720452052455454454C204C415449504143204E4954414C2C2C4445574F4C4C415349442C41424531,
  0xD45564F4241204B4F4F48204854495720452052455454454C204C4C414D53204E4954414C2C2C44494C4156502C42424531,
  0xD45444C4954204854495720452052455454454C204C415449504143204E4954414C2C2C4445574F4C4C415349442C43424531,
  0xD45444C4954204854495720452052455454454C204C4C414D53204E4954414C2C2C44494C4156502C44424531,
  0xD455455434120444E412058454C464D5543524943204854495720452052455454454C204C415449504143204E4954414C2C2C4445574F4C4C415349442C45424531,
  0xD455455434120444E412058454C464D5543524943204854495720452052455454454C204C4C414D53204E4954414C2C2C44494C4156502C46424531,
  0xD455641524720444E412058454C464D5543524943204854495720452052455454454C204C415449504143204E4954414C2C2C4445574F4C4C415349442C30434531,
  0xD455641524720444E412058454C464D5543524943204854495720452052455454454C204C4C414D53204E4954414C2C2C44494C4156502C31434531,
  0xD45564F4241204B4F4F4820444E412058454C464D5543524943204854495720452052455454454C204C415449504143204E4954414C2C2C4445574F4C4C415349442C32434531,
  0xD45564F4241204B4F4F4820444E412058454C464D5543524943204854495720452052455454454C204C4C414D53204E4954414C2C2C44494C4156502C33434531,
  0xD45444C495420444E412058454C464D5543524943204854495720452052455454454C204C415449504143204E4954414C2C2C4445574F4C4C415349442C34434531,
  0xD45444C495420444E412058454C464D5543524943204854495720452052455454454C204C4C414D53204E4954414C2C2C44494C4156502C35434531,
  0xD574F4C454220544F4420444E412058454C464D5543524943204854495720452052455454454C204C415449504143204E4954414C2C2C4445574F4C4C415349442C36434531,
  0xD574F4C454220544F4420444E412058454C464D5543524943204854495720452052455454454C204C4C414D53204E4954414C2C2C44494C4156502C37434531,
  0xD45564F4241204B4F4F48204854495720492052455454454C204C415449504143204E4954414C2C2C4445574F4C4C415349442C38434531,
  0xD45564F4241204B4F4F48204854495720492052455454454C204C4C414D53204E4954414C2C2C44494C4156502C39434531,
  0xD574F4C454220544F44204854495720492052455454454C204C415449504143204E4954414C2C2C4445574F4C4C415349442C41434531,
  0xD574F4C454220544F44204854495720492052455454454C204C4C414D53204E4954414C2C2C44494C4156502C42434531,
  0xD574F4C454220544F442048544957204F2052455454454C204C415449504143204E4954414C2C2C4445574F4C4C415349442C43434531,
  0xD574F4C454220544F442048544957204F2052455454454C204C4C414D53204E4954414C2C2C44494C4156502C44434531,
  0xD45564F4241204B4F4F482048544957204F2052455454454C204C415449504143204E4954414C2C2C4445574F4C4C415349442C45434531,
  0xD45564F4241204B4F4F482048544957204F2052455454454C204C4C414D53204E4954414C2C2C44494C4156502C46434531,
  0xD455455434120444E412058454C464D55435249432048544957204F2052455454454C204C415449504143204E4954414C2C2C4445574F4C4C415349442C30444531,
  0xD455455434120444E412058454C464D55435249432048544957204F2052455454454C204C4C414D53204E4954414C2C2C44494C4156502C31444531,
  0xD455641524720444E412058454C464D55435249432048544957204F2052455454454C204C415449504143204E4954414C2C2C4445574F4C4C415349442C32444531,
  0xD455641524720444E412058454C464D55435249432048544957204F2052455454454C204C4C414D53204E4954414C2C2C44494C4156502C33444531,
  0xD45564F4241204B4F4F4820444E412058454C464D55435249432048544957204F2052455454454C204C415449504143204E4954414C2C2C4445574F4C4C415349442C34444531,
  0xD45564F4241204B4F4F4820444E412058454C464D55435249432048544957204F2052455454454C204C4C414D53204E4954414C2C2C44494C4156502C35444531,
  0xD45444C495420444E412058454C464D55435249432048544957204F2052455454454C204C415449504143204E4954414C2C2C4445574F4C4C415349442C36444531,
  0xD45444C495420444E412058454C464D55435249432048544957204F2052455454454C204C4C414D53204E4954414C2C2C44494C4156502C37444531,
  0xD574F4C454220544F4420444E412058454C464D55435249432048544957204F2052455454454C204C415449504143204E4954414C2C2C4445574F4C4C415349442C38444531,
  0xD574F4C454220544F4420444E412058454C464D55435249432048544957204F2052455454454C204C4C414D53204E4954414C2C2C44494C4156502C39444531,
  0xD455455434120444E41204E524F482048544957204F2052455454454C204C415449504143204E4954414C2C2C4445574F4C4C415349442C41444531,
  0xD455455434120444E41204E524F482048544957204F2052455454454C204C4C414D53204E4954414C2C2C44494C4156502C42444531,
  0xD455641524720444E41204E524F482048544957204F2052455454454C204C415449504143204E4954414C2C2C4445574F4C4C415349442C43444531,
  0xD455641524720444E41204E524F482048544957204F2052455454454C204C4C414D53204E4954414C2C2C44494C4156502C44444531,
  0xD45564F4241204B4F4F4820444E41204E524F482048544957204F2052455454454C204C415449504143204E4954414C2C2C4445574F4C4C415349442C45444531,
  0xD45564F4241204B4F4F4820444E41204E524F482048544957204F2052455454454C204C4C414D53204E4954414C2C2C44494C4156502C46444531,
  0xD45444C495420444E41204E524F482048544957204F2052455454454C204C415449504143204E4954414C2C2C4445574F4C4C415349442C30454531,
  0xD45444C495420444E41204E524F482048544957204F2052455454454C204C4C414D53204E4954414C2C2C44494C4156502C31454531,
  0xD574F4C454220544F4420444E41204E524F482048544957204F2052455454454C204C415449504143204E4954414C2C2C4445574F4C4C415349442C32454531,
  0xD574F4C454220544F4420444E41204E524F482048544957204F2052455454454C204C4C414D53204E4954414C2C2C44494C4156502C33454531,
  0xD574F4C454220544F44204854495720552052455454454C204C415449504143204E4954414C2C2C4445574F4C4C415349442C34454531,
  0xD574F4C454220544F44204854495720552052455454454C204C4C414D53204E4954414C2C2C44494C4156502C35454531,
  0xD45564F4241204B4F4F48204854495720552052455454454C204C415449504143204E4954414C2C2C4445574F4C4C415349442C36454531,
  0xD45564F4241204B4F4F48204854495720552052455454454C204C4C414D53204E4954414C2C2C44494C4156502C37454531,
  0xD455455434120444E41204E524F48204854495720552052455454454C204C415449504143204E4954414C2C2C4445574F4C4C415349442C38454531,
  0xD455455434120444E41204E524F48204854495720552052455454454C204C4C414D53204E4954414C2C2C44494C4156502C39454531,
  0xD455641524720444E41204E524F48204854495720552052455454454C204C415449504143204E4954414C2C2C4445574F4C4C415349442C41454531,
  0xD455641524720444E41204E524F48204854495720552052455454454C204C4C414D53204E4954414C2C2C44494C4156502C42454531,
  0xD45564F4241204B4F4F4820444E41204E524F48204854495720552052455454454C204C415449504143204E4954414C2C2C4445574F4C4C415349442C43454531,
  0xD45564F4241204B4F4F4820444E41204E524F48204854495720552052455454454C204C4C414D53204E4954414C2C2C44494C4156502C44454531,
  0xD45444C495420444E41204E524F48204854495720552052455454454C204C415449504143204E4954414C2C2C4445574F4C4C415349442C45454531,
  0xD45444C495420444E41204E524F48204854495720552052455454454C204C4C414D53204E4954414C2C2C44494C4156502C46454531,
  0xD574F4C454220544F4420444E41204E524F48204854495720552052455454454C204C415449504143204E4954414C2C2C4445574F4C4C415349442C30464531,
  0xD574F4C454220544F4420444E41204E524F48204854495720552052455454454C204C4C414D53204E4954414C2C2C44494C4156502C31464531,
  0xD4556415247204854495720592052455454454C204C415449504143204E4954414C2C2C4445574F4C4C415349442C32464531,
  0xD4556415247204854495720592052455454454C204C4C414D53204E4954414C2C2C44494C4156502C33464531,
  0xD574F4C454220544F44204854495720592052455454454C204C415449504143204E4954414C2C2C4445574F4C4C415349442C34464531,
  0xD574F4C454220544F44204854495720592052455454454C204C4C414D53204E4954414C2C2C44494C4156502C35464531,
  0xD45564F4241204B4F4F48204854495720592052455454454C204C415449504143204E4954414C2C2C4445574F4C4C415349442C36464531,
  0xD45564F4241204B4F4F48204854495720592052455454454C204C4C414D53204E4954414C2C2C44494C4156502C37464531,
  0xD45444C4954204854495720592052455454454C204C415449504143204E4954414C2C2C4445574F4C4C415349442C38464531,
  0xD45444C4954204854495720592052455454454C204C4C414D53204E4954414C2C2C44494C4156502C39464531,
  0xD4C4C2048534C45572D454C4444494D2052455454454C204C415449504143204E4954414C2C2C4445574F4C4C415349442C41464531,
  0xD4C4C2048534C45572D454C4444494D2052455454454C204C4C414D53204E4954414C2C2C44494C4156502C42464531,
  0xD562048534C45572D454C4444494D2052455454454C204C415449504143204E4954414C2C2C4445574F4C4C415349442C43464531,
  0xD562048534C45572D454C4444494D2052455454454C204C4C414D53204E4954414C2C2C44494C4156502C44464531,
  0xD504F4F4C204854495720592052455454454C204C415449504143204E4954414C2C2C4445574F4C4C415349442C45464531,
  0xD494E454D4F50534952455020444E412041495341442048544957204148504C412052455454454C204C4C414D53204B454552472E2E504F4F4C204854495720592052455454454C204C4C414D53204E4954414C2C2C44494C4156502C373046312D46464531,
  0xD494E454D4F50534952455020444E412041495341442048544957204148504C412052455454454C204C415449504143204B454552472E2E494C4953502048544957204148504C412052455454454C204C415449504143204B454552472C2C4445574F4C4C415349442C463046312D38304631,
  0xD4149584F20444E412041495341442048544957204E4F4C495350452052455454454C204C4C414D53204B454552472E2E494C4953502048544957204E4F4C495350452052455454454C204C4C414D53204B454552472C2C44494C4156502C353146312D30314631,
  0xD3E44455652455345523C2E2E3E44455652455345523C2C2C44454E47495353414E552C373146312D36314631,
  0xD4149584F20444E412041495341442048544957204E4F4C495350452052455454454C204C415449504143204B454552472E2E494C4953502048544957204E4F4C495350452052455454454C204C415449504143204B454552472C2C4445574F4C4C415349442C443146312D38314631,
  0xD3E44455652455345523C2E2E3E44455652455345523C2C2C44454E47495353414E552C463146312D45314631,
  0xD494E454D4F50534952455020444E412041495341442048544957204154452052455454454C204C4C414D53204B454552472E2E494C4953502048544957204154452052455454454C204C4C414D53204B454552472C2C44494C4156502C373246312D30324631,
  0xD494E454D4F50534952455020444E412041495341442048544957204154452052455454454C204C415449504143204B454552472E2E494C4953502048544957204154452052455454454C204C415449504143204B454552472C2C4445574F4C4C415349442C463246312D38324631,
  0xD494E454D4F50534952455020444E4120414953414420485449572041544F492052455454454C204C4C414D53204B454552472E2E494C49535020485449572041544F492052455454454C204C4C414D53204B454552472C2C44494C4156502C373346312D30334631,
  0xD494E454D4F50534952455020444E4120414953414420485449572041544F492052455454454C204C415449504143204B454552472E2E494C49535020485449572041544F492052455454454C204C415449504143204B454552472C2C4445574F4C4C415349442C463346312D38334631,
  0xD4149584F20444E412041495341442048544957204E4F5243494D4F2052455454454C204C4C414D53204B454552472E2E494C4953502048544957204E4F5243494D4F2052455454454C204C4C414D53204B454552472C2C44494C4156502C353446312D30344631,
  0xD3E44455652455345523C2E2E3E44455652455345523C2C2C44454E47495353414E552C373446312D36344631,
  0xD4149584F20444E412041495341442048544957204E4F5243494D4F2052455454454C204C415449504143204B454552472E2E494C4953502048544957204E4F5243494D4F2052455454454C204C415449504143204B454552472C2C4445574F4C4C415349442C443446312D38344631,
  0xD3E44455652455345523C2E2E3E44455652455345523C2C2C44454E47495353414E552C463446312D45344631,
  0xD494E454D4F50534952455020444E412041495341442048544957204E4F4C495350552052455454454C204C4C414D53204B454552472E2E494C4953502048544957204E4F4C495350552052455454454C204C4C414D53204B454552472C2C44494C4156502C373546312D30354631,
  0xD3E44455652455345523C2C2C44454E47495353414E552C38354631,
  0xD41495341442048544957204E4F4C495350552052455454454C204C415449504143204B454552472C2C4445574F4C4C415349442C39354631,
  0xD3E44455652455345523C2C2C44454E47495353414E552C41354631,
  0xD414952415620444E412041495341442048544957204E4F4C495350552052455454454C204C415449504143204B454552472C2C4445574F4C4C415349442C42354631,
  0xD3E44455652455345523C2C2C44454E47495353414E552C43354631,
  0xD4149584F20444E412041495341442048544957204E4F4C495350552052455454454C204C415449504143204B454552472C2C4445574F4C4C415349442C44354631,
  0xD3E44455652455345523C2C2C44454E47495353414E552C45354631,
  0xD494E454D4F50534952455020444E412041495341442048544957204E4F4C495350552052455454454C204C415449504143204B454552472C2C4445574F4C4C415349442C46354631,
  0xD494E454D4F50534952455020444E412041495341442048544957204147454D4F2052455454454C204C4C414D53204B454552472E2E494C4953502048544957204147454D4F2052455454454C204C4C414D53204B454552472C2C44494C4156502C373646312D30364631,
  0xD494E454D4F50534952455020444E412041495341442048544957204147454D4F2052455454454C204C415449504143204B454552472E2E494C4953502048544957204147454D4F2052455454454C204C415449504143204B454552472C2C4445574F4C4C415349442C463646312D38364631,
  0xD41495241562048544957204148504C412052455454454C204C4C414D53204B454552472C2C44494C4156502C30374631,
  0xD4149584F2048544957204148504C412052455454454C204C4C414D53204B454552472C2C4445574F4C4C415349442C31374631,
  0xD41495241562048544957204E4F4C495350452052455454454C204C4C414D53204B454552472C2C44494C4156502C32374631,
  0xD4149584F2048544957204E4F4C495350452052455454454C204C4C414D53204B454552472C2C4445574F4C4C415349442C33374631,
  0xD41495241562048544957204154452052455454454C204C4C414D53204B454552472C2C44494C4156502C34374631,
  0xD4149584F2048544957204154452052455454454C204C4C414D53204B454552472C2C4445574F4C4C415349442C35374631,
  0xD414952415620485449572041544F492052455454454C204C4C414D53204B454552472C2C44494C4156502C36374631,
  0xD4149584F20485449572041544F492052455454454C204C4C414D53204B454552472C2C4445574F4C4C415349442C37374631,
  0xD41495241562048544957204E4F5243494D4F2052455454454C204C4C414D53204B454552472C2C44494C4156502C38374631,
  0xD4149584F2048544957204E4F5243494D4F2052455454454C204C4C414D53204B454552472C2C4445574F4C4C415349442C39374631,
  0xD41495241562048544957204E4F4C495350552052455454454C204C4C414D53204B454552472C2C44494C4156502C41374631,
  0xD4149584F2048544957204E4F4C495350552052455454454C204C4C414D53204B454552472C2C4445574F4C4C415349442C42374631,
  0xD41495241562048544957204147454D4F2052455454454C204C4C414D53204B454552472C2C44494C4156502C43374631,
  0xD4149584F2048544957204147454D4F2052455454454C204C4C414D53204B454552472C2C4445574F4C4C415349442C44374631,
  0xD3E44455652455345523C2E2E3E44455652455345523C2C2C44454E47495353414E552C463746312D45374631,
  0xD494E454D4D4152474547534F525020444E4120494E454D4F50534952455020444E412041495341442048544957204147454D4F2052455454454C204C415449504143204B454552472E2E494E454D4D41524745474F505920444E4120494C4953502048544957204148504C412052455454454C204C4C414D53204B454552472C2C4445574F4C4C415349442C464146312D30384631,
  0xD4E4F5243414D2048544957204148504C412052455454454C204C4C414D53204B454552472E2E5948434152562048544957204148504C412052455454454C204C4C414D53204B454552472C2C44494C4156502C314246312D30424631,
  0xD494E454D4D41524745474F505920444E41204149584F2048544957204148504C412052455454454C204C4C414D53204B454552472E2E494E454D4D41524745474F505920444E412041495241562048544957204148504C412052455454454C204C4C414D53204B454552472C2C4445574F4C4C415349442C344246312D32424631,
  0xD3E44455652455345523C2C2C44454E47495353414E552C35424631,
  0xD494E454D4F5053495245502048544957204148504C412052455454454C204C4C414D53204B454552472C2C44494C4156502C36424631,
  0xD494E454D4D41524745474F505920444E41204149584F2048544957204154452052455454454C204C4C414D53204B454552472E2E494E454D4D41524745474F505920444E4120494E454D4F5053495245502048544957204148504C412052455454454C204C4C414D53204B454552472C2C4445574F4C4C415349442C344346312D37424631,
  0xD3E44455652455345523C2C2C44454E47495353414E552C35434631,
  0xD494E454D4F5053495245502048544957204154452052455454454C204C4C414D53204B454552472C2C44494C4156502C36434631,
  0xD494E454D4F50534952455020444E4120494C495350204B454552472E2E494E454D4D41524745474F505920444E4120494E454D4F5053495245502048544957204154452052455454454C204C4C414D53204B454552472C2C4445574F4C4C415349442C464346312D37434631,
  0xD414952415620444E4120414B4954594C41494420485449572041544F492052455454454C204C4C414D53204B454552472E2E59484341525620485449572041544F492052455454454C204C4C414D53204B454552472C2C44494C4156502C324446312D30444631,
  0xD4149584F20444E4120414B4954594C41494420485449572041544F492052455454454C204C4C414D53204B454552472C2C4445574F4C4C415349442C33444631,
  0xD3E44455652455345523C2E2E3E44455652455345523C2C2C44454E47495353414E552C354446312D34444631,
  0xD494E454D4F50534952455020444E4120414B4954594C41494420485449572041544F492052455454454C204C4C414D53204B454552472E2E494E454D4F50534952455020485449572041544F492052455454454C204C4C414D53204B454552472C2C44494C4156502C374446312D36444631,
  0xD4149584F20485449572041544F492052455454454C204C415449504143204B454552472E2E59484341525620485449572041544F492052455454454C204C415449504143204B454552472C2C4445574F4C4C415349442C424446312D38444631,
  0xD3E44455652455345523C2C2C44454E47495353414E552C43444631,
  0xD494E454D4F50534952455020444E41204149534144204B454552472E2E414952415620444E41204149534144204B454552472C2C4445574F4C4C415349442C464446312D44444631,
  0xD414952415620444E4120414B4954594C4149442048544957204E4F4C495350552052455454454C204C4C414D53204B454552472E2E5948434152562048544957204E4F4C495350552052455454454C204C4C414D53204B454552472C2C44494C4156502C324546312D30454631,
  0xD4149584F20444E4120414B4954594C4149442048544957204E4F4C495350552052455454454C204C4C414D53204B454552472C2C4445574F4C4C415349442C33454631,
  0xD494E454D4F50534952455020444E4120414B4954594C4149442048544957204E4F4C495350552052455454454C204C4C414D53204B454552472E2E494C4953502048544957204F48522052455454454C204C4C414D53204B454552472C2C44494C4156502C374546312D34454631,
  0xD4149524156204B454552472E2E5948434152562048544957204E4F4C495350552052455454454C204C415449504143204B454552472C2C4445574F4C4C415349442C464546312D38454631]

def csvText6 : List Nat := [
  0xD3E44455652455345523C2E2E3E44455652455345523C2C2C44454E47495353414E552C314646312D30464631,
  0xD494E454D4D41524745474F505920444E41204149584F2048544957204147454D4F2052455454454C204C4C414D53204B454552472E2E494E454D4D41524745474F505920444E412041495241562048544957204147454D4F2052455454454C204C4C414D53204B454552472C2C4445574F4C4C415349442C344646312D32464631,
  0xD3E44455652455345523C2C2C44454E47495353414E552C35464631,
  0xD494E454D4F5053495245502048544957204147454D4F2052455454454C204C4C414D53204B454552472C2C44494C4156502C36464631,
  0xD4149534144204B454552472E2E494E454D4D41524745474F505920444E4120494E454D4F5053495245502048544957204147454D4F2052455454454C204C4C414D53204B454552472C2C4445574F4C4C415349442C454646312D37464631,
  0xD3E44455652455345523C2C2C44454E47495353414E552C46464631,
  0xD4543415053204854444957204F52455A2E2E44415551204E452C2C4445574F4C4C415349442C423030322D30303032,
  0xD52454E494F4A204854444957204F52455A2E2E52454E494F4A2D4E4F4E204854444957204F52455A2C2C4A545845544E4F432C443030322D43303032,
  0xD53554C5020454C42495349564E492E2E4B52414D2054484749522D4F542D5446454C2C2C4445574F4C4C415349442C343630322D45303032,
  0xD3E44455652455345523C2C2C44454E47495353414E552C35363032,
  0xD492052455454454C204C4C414D53204E4954414C2054504952435352455055532E2E4554414C4F53492054484749522D4F542D5446454C2C2C4445574F4C4C415349442C313730322D36363032,
  0xD3E44455652455345523C2E2E3E44455652455345523C2C2C44454E47495353414E552C333730322D32373032,
  0xD5349534548544E45524150205448474952205450495243534255532E2E52554F462054504952435352455055532C2C4445574F4C4C415349442C453830322D34373032,
  0xD3E44455652455345523C2C2C44454E47495353414E552C46383032,
  0xD542052455454454C204C4C414D5320545049524353425553204E4954414C2E2E412052455454454C204C4C414D5320545049524353425553204E4954414C2C2C4445574F4C4C415349442C433930322D30393032,
  0xD3E44455652455345523C2E2E3E44455652455345523C2C2C44454E47495353414E552C463930322D44393032,
  0xD4E474953204E494F435449422E2E4E4749532059434E45525255432D4F5255452C2C4445574F4C4C415349442C464230322D30413032,
  0xD3E44455652455345523C2E2E3E44455652455345523C2C2C44454E47495353414E552C464330322D30433032,
  0xD45564F4241204B5349524554534120474E494E49424D4F432E2E45564F4241204E4F4F50524148205446454C20474E494E49424D4F432C2C4445574F4C4C415349442C304630322D30443032,
  0xD3E44455652455345523C2E2E3E44455652455345523C2C2C44454E47495353414E552C464630322D31463032,
  0xD42414B534C45534549544B412E2E464F20544E554F4343412C2C4445574F4C4C415349442C443431322D30303132,
  0xD46204C4C414D532044454E5255542C2C44494C4156502C45343132,
  0xD444552444E554820454E4F204445535245564552204C4152454D554E204E414D4F522E2E454352554F53204E41544952414D415320524F46204C4F424D59532C2C4445574F4C4C415349442C333831322D46343132,
  0xD432044455352455645522052455454454C204C4C414D53204E4954414C2C2C44494C4156502C34383132,
  0xD45455248542054494749442044454E5255542E2E4D524F46204554414C20584953204C4152454D554E204E414D4F522C2C4445574F4C4C415349442C423831322D35383132,
  0xD3E44455652455345523C2E2E3E44455652455345523C2C2C44454E47495353414E552C463831322D43383132,
  0xD4F5754204D524F46204554555449545342555320524F46204C4F424D59532E2E574F5252412053445241575446454C2C2C4445574F4C4C415349442C363234322D30393132,
  0xD3E44455652455345523C2E2E3E44455652455345523C2C2C44454E47495353414E552C463334322D37323432,
  0xD4853414C534B43414220454C42554F442052434F2E2E4B4F4F482052434F2C2C4445574F4C4C415349442C413434322D30343432,
  0xD3E44455652455345523C2E2E3E44455652455345523C2C2C44454E47495353414E552C463534322D42343432,
  0xD524142204F5420574F525241204445444145482D454C474E414952542053445241574E574F442E2E454E4F2054494749442044454C435249432C2C4445574F4C4C415349442C333742322D30363432,
  0xD3E44455652455345523C2E2E3E44455652455345523C2C2C44454E47495353414E552C353742322D34374232,
  0xD574F525241204B43414C4220534452415754484749522E2E524142204F5420574F525241204445444145482D454C474E414952542054534557204854524F4E2C2C4445574F4C4C415349442C353942322D36374232,
  0xD3E44455652455345523C2E2E3E44455652455345523C2C2C44454E47495353414E552C373942322D36394232,
  0xD444552544E454320454C474E4149525420474E49544E494F502D5448474952204D554944454D204B43414C422E2E44414548574F525241204C41524554414C495551452053445241575446454C204445544847494C2D504F5420442D45455248542C2C4445574F4C4C415349442C384342322D38394232,
  0xD3E44455652455345523C2C2C44454E47495353414E552C39434232,
  0xD454C474E412054484749522044455352455645522E2E454C43524943204B43414C4220464C414820504F542C2C4445574F4C4C415349442C454642322D41434232,
  0xD3E44455652455345523C2C2C44454E47495353414E552C46464232,
  0xD4554494C53594D204554414E4954414C2052455454454C204C41544950414320434954494C4F47414C472E2E555A412052455454454C204C41544950414320434954494C4F47414C472C2C4445574F4C4C415349442C453243322D30304332,
  0xD3E44455652455345523C2C2C44454E47495353414E552C46324332,
  0xD4554494C53594D204554414E4954414C2052455454454C204C4C414D5320434954494C4F47414C472E2E555A412052455454454C204C4C414D5320434954494C4F47414C472C2C44494C4156502C453543322D30334332,
  0xD3E44455652455345523C2C2C44454E47495353414E552C46354332,
  0xD52414220454C42554F442048544957204C2052455454454C204C415449504143204E4954414C2C2C4445574F4C4C415349442C30364332,
  0xD52414220454C42554F442048544957204C2052455454454C204C4C414D53204E4954414C2C2C44494C4156502C31364332,
  0xD4C494154204854495720522052455454454C204C415449504143204E4954414C2E2E45444C495420454C4444494D2048544957204C2052455454454C204C415449504143204E4954414C2C2C4445574F4C4C415349442C343643322D32364332,
  0xD454B4F525453204C414E4F47414944204854495720542052455454454C204C4C414D53204E4954414C2E2E454B4F525453204854495720412052455454454C204C4C414D53204E4954414C2C2C44494C4156502C363643322D35364332,
  0xD5245444E4543534544204854495720482052455454454C204C415449504143204E4954414C2C2C4445574F4C4C415349442C37364332,
  0xD5245444E4543534544204854495720482052455454454C204C4C414D53204E4954414C2C2C44494C4156502C38364332,
  0xD5245444E45435345442048544957204B2052455454454C204C415449504143204E4954414C2C2C4445574F4C4C415349442C39364332,
  0xD5245444E45435345442048544957204B2052455454454C204C4C414D53204E4954414C2C2C44494C4156502C41364332,
  0xD5245444E45435345442048544957205A2052455454454C204C415449504143204E4954414C2C2C4445574F4C4C415349442C42364332,
  0xD5245444E45435345442048544957205A2052455454454C204C4C414D53204E4954414C2C2C44494C4156502C43364332,
  0xD4148504C412044454E5255542052455454454C204C415449504143204E4954414C2E2E4148504C412052455454454C204C415449504143204E4954414C2C2C4445574F4C4C415349442C303743322D44364332,
  0xD4B4F4F48205448474952204854495720562052455454454C204C4C414D53204E4954414C2C2C44494C4156502C31374332,
  0xD4B4F4F48204854495720572052455454454C204C415449504143204E4954414C2C2C4445574F4C4C415349442C32374332,
  0xD4C525543204854495720562052455454454C204C4C414D53204E4954414C2E2E4B4F4F48204854495720572052455454454C204C4C414D53204E4954414C2C2C44494C4156502C343743322D33374332,
  0xD4820464C41482052455454454C204C415449504143204E4954414C2C2C4445574F4C4C415349442C35374332,
  0xD452044454E525554204C415449504143204C4C414D532052455454454C204E4954414C2E2E4820464C41482052455454454C204C4C414D53204E4954414C2C2C44494C4156502C423743322D36374332,
  0xD41464C412052455454454C204C41544950414320434954504F432E2E4A2052455454454C204C4C414D5320545049524353425553204E4954414C2C2C4445574F4C4C415349442C303843322D43374332,
  0xD41464C412052455454454C204C4C414D5320434954504F432C2C44494C4156502C31384332,
  0xD414449562052455454454C204C41544950414320434954504F432C2C4445574F4C4C415349442C32384332,
  0xD414449562052455454454C204C4C414D5320434954504F432C2C44494C4156502C33384332,
  0xD414D4D41472052455454454C204C41544950414320434954504F432C2C4445574F4C4C415349442C34384332,
  0xD414D4D41472052455454454C204C4C414D5320434954504F432C2C44494C4156502C35384332,
  0xD41444C41442052455454454C204C41544950414320434954504F432C2C4445574F4C4C415349442C36384332,
  0xD41444C41442052455454454C204C4C414D5320434954504F432C2C44494C4156502C37384332,
  0xD4549452052455454454C204C41544950414320434954504F432C2C4445574F4C4C415349442C38384332,
  0xD4549452052455454454C204C4C414D5320434954504F432C2C44494C4156502C39384332,
  0xD554F532052455454454C204C41544950414320434954504F432C2C4445574F4C4C415349442C41384332,
  0xD554F532052455454454C204C4C414D5320434954504F432C2C44494C4156502C42384332,
  0xD4154415A2052455454454C204C41544950414320434954504F432C2C4445574F4C4C415349442C43384332,
  0xD4154415A2052455454454C204C4C414D5320434954504F432C2C44494C4156502C44384332,
  0xD455441482052455454454C204C41544950414320434954504F432C2C4445574F4C4C415349442C45384332,
  0xD455441482052455454454C204C4C414D5320434954504F432C2C44494C4156502C46384332,
  0xD4548544548542052455454454C204C41544950414320434954504F432C2C4445574F4C4C415349442C30394332,
  0xD4548544548542052455454454C204C4C414D5320434954504F432C2C44494C4156502C31394332,
  0xD41445541492052455454454C204C41544950414320434954504F432C2C4445574F4C4C415349442C32394332,
  0xD41445541492052455454454C204C4C414D5320434954504F432C2C44494C4156502C33394332,
  0xD4150414B2052455454454C204C41544950414320434954504F432C2C4445574F4C4C415349442C34394332,
  0xD4150414B2052455454454C204C4C414D5320434954504F432C2C44494C4156502C35394332,
  0xD414C55414C2052455454454C204C41544950414320434954504F432C2C4445574F4C4C415349442C36394332,
  0xD414C55414C2052455454454C204C4C414D5320434954504F432C2C44494C4156502C37394332,
  0xD494D2052455454454C204C41544950414320434954504F432C2C4445574F4C4C415349442C38394332,
  0xD494D2052455454454C204C4C414D5320434954504F432C2C44494C4156502C39394332,
  0xD494E2052455454454C204C41544950414320434954504F432C2C4445574F4C4C415349442C41394332,
  0xD494E2052455454454C204C4C414D5320434954504F432C2C44494C4156502C42394332,
  0xD49534B2052455454454C204C41544950414320434954504F432C2C4445574F4C4C415349442C43394332,
  0xD49534B2052455454454C204C4C414D5320434954504F432C2C44494C4156502C44394332,
  0xD4F2052455454454C204C41544950414320434954504F432C2C4445574F4C4C415349442C45394332,
  0xD4F2052455454454C204C4C414D5320434954504F432C2C44494C4156502C46394332,
  0xD49502052455454454C204C41544950414320434954504F432C2C4445574F4C4C415349442C30414332,
  0xD49502052455454454C204C4C414D5320434954504F432C2C44494C4156502C31414332,
  0xD4F522052455454454C204C41544950414320434954504F432C2C4445574F4C4C415349442C32414332,
  0xD4F522052455454454C204C4C414D5320434954504F432C2C44494C4156502C33414332,
  0xD414D49532052455454454C204C41544950414320434954504F432C2C4445574F4C4C415349442C34414332,
  0xD414D49532052455454454C204C4C414D5320434954504F432C2C44494C4156502C35414332,
  0xD5541542052455454454C204C41544950414320434954504F432C2C4445574F4C4C415349442C36414332,
  0xD5541542052455454454C204C4C414D5320434954504F432C2C44494C4156502C37414332,
  0xD41552052455454454C204C41544950414320434954504F432C2C4445574F4C4C415349442C38414332,
  0xD41552052455454454C204C4C414D5320434954504F432C2C44494C4156502C39414332,
  0xD49462052455454454C204C41544950414320434954504F432C2C4445574F4C4C415349442C41414332,
  0xD49462052455454454C204C4C414D5320434954504F432C2C44494C4156502C42414332,
  0xD49484B2052455454454C204C41544950414320434954504F432C2C4445574F4C4C415349442C43414332,
  0xD49484B2052455454454C204C4C414D5320434954504F432C2C44494C4156502C44414332,
  0xD4953502052455454454C204C41544950414320434954504F432C2C4445574F4C4C415349442C45414332,
  0xD4953502052455454454C204C4C414D5320434954504F432C2C44494C4156502C46414332,
  0xD554F4F2052455454454C204C41544950414320434954504F432C2C4445574F4C4C415349442C30424332,
  0xD554F4F2052455454454C204C4C414D5320434954504F432C2C44494C4156502C31424332,
  0xD46454C4120502D5443454C4149442052455454454C204C41544950414320434954504F432C2C4445574F4C4C415349442C32424332,
  0xD46454C4120502D5443454C4149442052455454454C204C4C414D5320434954504F432C2C44494C4156502C33424332,
  0xD4E494120434954504F4320444C4F2052455454454C204C41544950414320434954504F432C2C4445574F4C4C415349442C34424332,
  0xD4E494120434954504F4320444C4F2052455454454C204C4C414D5320434954504F432C2C44494C4156502C35424332,
  0xD4549452043494D4D4152474F54505952432052455454454C204C41544950414320434954504F432C2C4445574F4C4C415349442C36424332,
  0xD4549452043494D4D4152474F54505952432052455454454C204C4C414D5320434954504F432C2C44494C4156502C37424332,
  0xD4150414B20502D5443454C4149442052455454454C204C41544950414320434954504F432C2C4445574F4C4C415349442C38424332,
  0xD4150414B20502D5443454C4149442052455454454C204C4C414D5320434954504F432C2C44494C4156502C39424332,
  0xD494E20502D5443454C4149442052455454454C204C41544950414320434954504F432C2C4445574F4C4C415349442C41424332,
  0xD494E20502D5443454C4149442052455454454C204C4C414D5320434954504F432C2C44494C4156502C42424332,
  0xD494E2043494D4D4152474F54505952432052455454454C204C41544950414320434954504F432C2C4445574F4C4C415349442C43424332,
  0xD494E2043494D4D4152474F54505952432052455454454C204C4C414D5320434954504F432C2C44494C4156502C44424332,
  0xD554F4F20434954504F4320444C4F2052455454454C204C41544950414320434954504F432C2C4445574F4C4C415349442C45424332,
  0xD554F4F20434954504F4320444C4F2052455454454C204C4C414D5320434954504F432C2C44494C4156502C46424332,
  0xD49504D41532052455454454C204C41544950414320434954504F432C2C4445574F4C4C415349442C30434332,
  0xD49504D41532052455454454C204C4C414D5320434954504F432C2C44494C4156502C31434332,
  0xD4945485320444553534F52432052455454454C204C41544950414320434954504F432C2C4445574F4C4C415349442C32434332,
  0xD4945485320444553534F52432052455454454C204C4C414D5320434954504F432C2C44494C4156502C33434332,
  0xD4945485320434954504F4320444C4F2052455454454C204C41544950414320434954504F432C2C4445574F4C4C415349442C34434332,
  0xD4945485320434954504F4320444C4F2052455454454C204C4C414D5320434954504F432C2C44494C4156502C35434332,
  0xD48534520434954504F4320444C4F2052455454454C204C41544950414320434954504F432C2C4445574F4C4C415349442C36434332,
  0xD48534520434954504F4320444C4F2052455454454C204C4C414D5320434954504F432C2C44494C4156502C37434332,
  0xD4945484B2043494D494D484B412052455454454C204C41544950414320434954504F432C2C4445574F4C4C415349442C38434332,
  0xD4945484B2043494D494D484B412052455454454C204C4C414D5320434954504F432C2C44494C4156502C39434332,
  0xD49524F4820502D5443454C4149442052455454454C204C41544950414320434954504F432C2C4445574F4C4C415349442C41434332,
  0xD49524F4820502D5443454C4149442052455454454C204C4C414D5320434954504F432C2C44494C4156502C42434332,
  0xD49524F4820434954504F4320444C4F2052455454454C204C41544950414320434954504F432C2C4445574F4C4C415349442C43434332,
  0xD49524F4820434954504F4320444C4F2052455454454C204C4C414D5320434954504F432C2C44494C4156502C44434332,
  0xD414820434954504F4320444C4F2052455454454C204C41544950414320434954504F432C2C4445574F4C4C415349442C45434332,
  0xD414820434954504F4320444C4F2052455454454C204C4C414D5320434954504F432C2C44494C4156502C46434332,
  0xD4148204445504148532D4C2052455454454C204C41544950414320434954504F432C2C4445574F4C4C415349442C30444332,
  0xD4148204445504148532D4C2052455454454C204C4C414D5320434954504F432C2C44494C4156502C31444332,
  0xD49454820434954504F4320444C4F2052455454454C204C41544950414320434954504F432C2C4445574F4C4C415349442C32444332,
  0xD49454820434954504F4320444C4F2052455454454C204C4C414D5320434954504F432C2C44494C4156502C33444332,
  0xD54414820434954504F4320444C4F2052455454454C204C41544950414320434954504F432C2C4445574F4C4C415349442C34444332,
  0xD54414820434954504F4320444C4F2052455454454C204C4C414D5320434954504F432C2C44494C4156502C35444332,
  0xD4149474E414720434954504F4320444C4F2052455454454C204C41544950414320434954504F432C2C4445574F4C4C415349442C36444332,
  0xD4149474E414720434954504F4320444C4F2052455454454C204C4C414D5320434954504F432C2C44494C4156502C37444332,
  0xD414A4420434954504F4320444C4F2052455454454C204C41544950414320434954504F432C2C4445574F4C4C415349442C38444332,
  0xD414A4420434954504F4320444C4F2052455454454C204C4C414D5320434954504F432C2C44494C4156502C39444332,
  0xD414D49485320434954504F4320444C4F2052455454454C204C41544950414320434954504F432C2C4445574F4C4C415349442C41444332,
  0xD414D49485320434954504F4320444C4F2052455454454C204C4C414D5320434954504F432C2C44494C4156502C42444332,
  0xD414D494853204E414942554E20444C4F2052455454454C204C41544950414320434954504F432C2C4445574F4C4C415349442C43444332,
  0xD414D494853204E414942554E20444C4F2052455454454C204C4C414D5320434954504F432C2C44494C4156502C44444332,
  0xD49474E204E414942554E20444C4F2052455454454C204C41544950414320434954504F432C2C4445574F4C4C415349442C45444332,
  0xD49474E204E414942554E20444C4F2052455454454C204C4C414D5320434954504F432C2C44494C4156502C46444332,
  0xD49594E204E414942554E20444C4F2052455454454C204C41544950414320434954504F432C2C4445574F4C4C415349442C30454332,
  0xD49594E204E414942554E20444C4F2052455454454C204C4C414D5320434954504F432C2C44494C4156502C31454332,
  0xD554157204E414942554E20444C4F2052455454454C204C41544950414320434954504F432C2C4445574F4C4C415349442C32454332,
  0xD49414B204C4F424D595320434954504F432E2E554157204E414942554E20444C4F2052455454454C204C4C414D5320434954504F432C2C44494C4156502C344543322D33454332,
  0xD494548532043494D4D4152474F54505952432052455454454C204C41544950414320434954504F432E2E4F5220494D204C4F424D595320434954504F432C2C4445574F4C4C415349442C424543322D35454332,
  0xD494548532043494D4D4152474F54505952432052455454454C204C4C414D5320434954504F432C2C44494C4156502C43454332,
  0xD4149474E41472043494D4D4152474F54505952432052455454454C204C41544950414320434954504F432C2C4445574F4C4C415349442C44454332,
  0xD53494E454C20535554495249505320474E494E49424D4F4320434954504F432E2E4149474E41472043494D4D4152474F54505952432052455454454C204C4C414D5320434954504F432C2C44494C4156502C314643322D45454332,
  0xD4945484B204349524941484F422052455454454C204C41544950414320434954504F432C2C4445574F4C4C415349442C32464332,
  0xD4945484B204349524941484F422052455454454C204C4C414D5320434954504F432C2C44494C4156502C33464332,
  0xD3E44455652455345523C2E2E3E44455652455345523C2C2C44454E47495353414E552C384643322D34464332,
  0xD52454449564944204C414349474F4C4F4850524F4D20434954504F432E2E504F5453204C4C5546204E414942554E20444C4F20434954504F432C2C4445574F4C4C415349442C464643322D39464332,
  0xD454F482052455454454C204C4C414D53204E414947524F45472E2E4E412052455454454C204C4C414D53204E414947524F45472C2C44494C4156502C353244322D30304432,
  0xD3E44455652455345523C2C2C44454E47495353414E552C36324432,
  0xD4E592052455454454C204C4C414D53204E414947524F45472C2C44494C4156502C37324432,
  0xD3E44455652455345523C2E2E3E44455652455345523C2C2C44454E47495353414E552C433244322D38324432,
  0xD4E45412052455454454C204C4C414D53204E414947524F45472C2C44494C4156502C44324432,
  0xD3E44455652455345523C2E2E3E44455652455345523C2C2C44454E47495353414E552C463244322D45324432,
  0xD4F592052455454454C204847414E494649542E2E41592052455454454C204847414E494649542C2C44494C4156502C373644322D30334432,
  0xD3E44455652455345523C2E2E3E44455652455345523C2C2C44454E47495353414E552C453644322D38364432,
  0xD4B52414D20524F54415241504553204847414E494649542E2E4B52414D204E4F4954415A494C414942414C2052455454454C205245494649444F4D204847414E494649542C2C4445574F4C4C415349442C303744322D46364432,
  0xD3E44455652455345523C2E2E3E44455652455345523C2C2C44454E47495353414E552C453744322D31374432,
  0xD4557474720454C42414C4C5953204349504F494854452E2E52454E494F4A20544E414E4F534E4F43204847414E494649542C2C44494C4156502C363944322D46374432,
  0xD3E44455652455345523C2E2E3E44455652455345523C2C2C44454E47495353414E552C463944322D37394432,
  0xD4F535320454C42414C4C5953204349504F494854452E2E41535320454C42414C4C5953204349504F494854452C2C44494C4156502C364144322D30414432,
  0xD3E44455652455345523C2C2C44454E47495353414E552C37414432,
  0xD4F434320454C42414C4C5953204349504F494854452E2E41434320454C42414C4C5953204349504F494854452C2C44494C4156502C454144322D38414432,
  0xD3E44455652455345523C2C2C44454E47495353414E552C46414432,
  0xD4F5A5A20454C42414C4C5953204349504F494854452E2E415A5A20454C42414C4C5953204349504F494854452C2C44494C4156502C364244322D30424432,
  0xD3E44455652455345523C2C2C44454E47495353414E552C37424432,
  0xD4F48434320454C42414C4C5953204349504F494854452E2E4148434320454C42414C4C5953204349504F494854452C2C44494C4156502C454244322D38424432,
  0xD3E44455652455345523C2C2C44454E47495353414E552C46424432,
  0xD4F595120454C42414C4C5953204349504F494854452E2E41595120454C42414C4C5953204349504F494854452C2C44494C4156502C364344322D30434432,
  0xD3E44455652455345523C2C2C44454E47495353414E552C37434432,
  0xD4F594B20454C42414C4C5953204349504F494854452E2E41594B20454C42414C4C5953204349504F494854452C2C44494C4156502C454344322D38434432,
  0xD3E44455652455345523C2C2C44454E47495353414E552C46434432,
  0xD4F595820454C42414C4C5953204349504F494854452E2E41595820454C42414C4C5953204349504F494854452C2C44494C4156502C364444322D30444432,
  0xD3E44455652455345523C2C2C44454E47495353414E552C37444432,
  0xD4F594720454C42414C4C5953204349504F494854452E2E41594720454C42414C4C5953204349504F494854452C2C44494C4156502C454444322D38444432,
  0xD3E44455652455345523C2C2C44454E47495353414E552C46444432,
  0xD53555920474942204445494649544F492052455454454C2043494C4C4952594320474E494E49424D4F432E2E45422052455454454C2043494C4C4952594320474E494E49424D4F432C2C44494C4156502C464644322D30454432,
  0xD4B52414D204E4F4954534555512044455352455645522E2E52454B52414D204E4F4954555449545342555320454C474E412054484749522C2C4445574F4C4C415349442C453245322D30304532,
  0xD45444C4954204C414349545245562C2C44494C4156502C46324532,
  0xD4B52414D205355544156454C4520535554434E55502E2E544E494F5020474E49522C2C4445574F4C4C415349442C453445322D30334532,
  0xD3E44455652455345523C2E2E3E44455652455345523C2C2C44454E47495353414E552C463745322D46344532,
  0xD504152204C414349444152204B4A432E2E544145504552204C414349444152204B4A432C2C4445574F4C4C415349442C393945322D30384532,
  0xD3E44455652455345523C2C2C44454E47495353414E552C41394532,
  0xD454C545255542044454946494C504D49532D43204C414349444152204B4A432E2E454B4F4843204C414349444152204B4A432C2C4445574F4C4C415349442C334645322D42394532,
  0xD3E44455652455345523C2E2E3E44455652455345523C2C2C44454E47495353414E552C464645322D34464532,
  0xD4554554C46204C414349444152204958474E414B2E2E454E4F204C414349444152204958474E414B2C2C4445574F4C4C415349442C354446322D30304632,
  0xD3E44455652455345523C2E2E3E44455652455345523C2C2C44454E47495353414E552C464546322D36444632,
  0xD4449414C5245564F20524554434152414843204E4F49545049524353454420434948504152474F4544492E2E5448474952204F54205446454C20524554434152414843204E4F49545049524353454420434948504152474F4544492C2C4445574F4C4C415349442C424646322D30464632,
  0xD3E44455652455345523C2E2E3E44455652455345523C2C2C44454E47495353414E552C464646322D43464632,
  0xD4C4F424D595320445241444E415453204C414952545355444E49204553454E4150414A2E2E454341505320434948504152474F4544492C2C4445574F4C4C415349442C343030332D30303033,
  0xD4F52455A205245424D554E20434948504152474F4544492E2E4B52414D204E4F4954415245544920434948504152474F4544492C2C44494C4156502C373030332D35303033,
  0xD454E494E204C4152454D554E20554F485A474E41482E2E54454B4341524220454C474E41205446454C2C2C4445574F4C4C415349442C393230332D38303033,
  0xD4B52414D20454E4F5420474E495245544E4520434948504152474F4544492E2E4B52414D20454E4F54204C4556454C20434948504152474F4544492C2C44494C4156502C443230332D41323033,
  0xD4B52414D204E4F4954415245544920434948504152474F454449204C414349545245562E2E4B52414D20454E4F5420544F4420454C474E4953204C55474E41482C2C4445574F4C4C415349442C423330332D45323033,
  0xD4B52414D205553414D2C2C44494C4156502C43333033,
  0xD4543415053204C4C494620464C414820434948504152474F4544492E2E4B52414D204E4F4954414E5245544C4120545241502C2C4445574F4C4C415349442C463330332D44333033,
  0xD3E44455652455345523C2C2C44454E47495353414E552C30343033,
  0xD454B204C4C414D532052455454454C20414E4147415249482E2E41204C4C414D532052455454454C20414E4147415249482C2C44494C4156502C363930332D31343033,
  0xD3E44455652455345523C2E2E3E44455652455345523C2C2C44454E47495353414E552C383930332D37393033,
  0xD4B52414D20444E554F5320444543494F562D494D455320414E4147415249482D414E414B4154414B20474E494E49424D4F432E2E4B52414D20444E554F5320444543494F5620414E4147415249482D414E414B4154414B20474E494E49424D4F432C2C44494C4156502C413930332D39393033,
  0xD4B52414D20444E554F5320444543494F562D494D455320414E4147415249482D414E414B4154414B2E2E4B52414D20444E554F5320444543494F5620414E4147415249482D414E414B4154414B2C2C4445574F4C4C415349442C433930332D42393033,
  0xD4B52414D204E4F4954415245544920444543494F5620414E4147415249482E2E4B52414D204E4F4954415245544920414E4147415249482C2C44494C4156502C453930332D44393033,
  0xD4E454850594820454C42554F4420414E4147415249482D414E414B4154414B2E2E49524F59204850415247494420414E4147415249482C2C4445574F4C4C415349442C304130332D46393033,
  0xD4F562052455454454C20414E414B4154414B2E2E41204C4C414D532052455454454C20414E414B4154414B2C2C44494C4156502C414630332D31413033,
  0xD544F4420454C4444494D20414E414B4154414B2C2C4F545845544E4F432C42463033,
  0xD4B52414D204E4F4954415245544920444543494F5620414E414B4154414B2E2E4B52414D20444E554F53204445474E4F4C4F525020414E4147415249482D414E414B4154414B2C2C44494C4156502C454630332D43463033,
  0xD4F544F4B204850415247494420414E414B4154414B2C2C4445574F4C4C415349442C46463033,
  0xD3E44455652455345523C2E2E3E44455652455345523C2C2C44454E47495353414E552C343031332D30303133,
  0xD4E4E2052455454454C204F464F4D4F504F422E2E422052455454454C204F464F4D4F504F422C2C44494C4156502C463231332D35303133,
  0xD3E44455652455345523C2C2C44454E47495353414E552C30333133,
  0xD4541454152412052455454454C204C55474E41482E2E4B4F4559494B2052455454454C204C55474E41482C2C4445574F4C4C415349442C453831332D31333133,
  0xD3E44455652455345523C2C2C44454E47495353414E552C46383133,
  0xD4B52414D204E414D204E4F495441544F4E4E4120434948504152474F4544492E2E4B52414D20474E494B4E494C204E4F495441544F4E4E4120434948504152474F4544492C2C4445574F4C4C415349442C463931332D30393133,
  0xD595A2052455454454C204F464F4D4F504F422E2E55422052455454454C204F464F4D4F504F422C2C44494C4156502C414231332D30413133,
  0xD3E44455652455345523C2E2E3E44455652455345523C2C2C44454E47495353414E552C464231332D42423133,
  0xD5120454B4F525453204B4A432E2E5420454B4F525453204B4A432C2C4445574F4C4C415349442C334531332D30433133,
  0xD3E44455652455345523C2E2E3E44455652455345523C2C2C44454E47495353414E552C464531332D34453133,
  0xD4F52204C4C414D532052455454454C20414E414B4154414B2E2E554B204C4C414D532052455454454C20414E414B4154414B2C2C44494C4156502C464631332D30463133,
  0xD5548204F20524554434152414843204E4145524F4B2044455A49534548544E455241502E2E4B4F4559494B204C55474E41482044455A49534548544E455241502C2C4445574F4C4C415349442C453132332D30303233,
  0xD3E44455652455345523C2C2C44454E47495353414E552C46313233,
  0xD4F5720414E414B4154414B2044454C435249432E2E454E4F2048504152474F4544492044455A49534548544E455241502C2C4445574F4C4C415349442C454632332D30323233,
  0xD3E44455652455345523C2C2C44454E47495353414E552C46463233,
  0xD4C4147204552415551532E2E4F5441415041204552415551532C2C4445574F4C4C415349442C464633332D30303333,
  0xD223E5453414C202C41204E4F49534E455458452048504152474F454449204B4A433C2E2E3E5453524946202C41204E4F49534E455458452048504152474F454449204B4A433C222C2C44494C4156502C354244342D30303433,
  0xD3E44455652455345523C2E2E3E44455652455345523C2C2C44454E47495353414E552C464244342D36424434,
  0xD4E4F4954454C504D4F432045524F46454220524F46204D415247415845482E2E4E45564145482045564954414552432045485420524F46204D415247415845482C2C4445574F4C4C415349442C464644342D30434434,
  0xD223E5453414C202C48504152474F454449204B4A433C2E2E3E5453524946202C48504152474F454449204B4A433C222C2C44494C4156502C464546392D30304534,
  0xD3E44455652455345523C2E2E3E44455652455345523C2C2C44454E47495353414E552C464646392D30464639,
  0xD52595920454C42414C4C59532049592E2E544920454C42414C4C59532049592C2C44494C4156502C433834412D30303041,
  0xD3E44455652455345523C2E2E3E44455652455345523C2C2C44454E47495353414E552C463834412D44383441,
  0xD454B204C4143494441522049592E2E544F51204C4143494441522049592C2C4445574F4C4C415349442C364334412D30393441,
  0xD3E44455652455345523C2E2E3E44455652455345523C2C2C44454E47495353414E552C464334412D37433441]

def csvText7 : List Nat := [
  0xD55454A2041594D20454E4F542052455454454C205553494C2E2E41422052455454454C205553494C2C2C44494C4156502C444634412D30443441,
  0xD504F5453204C4C5546204E4F4954415554434E5550205553494C2E2E414D4D4F43204E4F4954415554434E5550205553494C2C2C4445574F4C4C415349442C464634412D45463441,
  0xD52454E454854474E454C20454C42414C4C5953204941562E2E454520454C42414C4C5953204941562C2C44494C4156502C433036412D30303541,
  0xD4B52414D204E4F495453455551204941562E2E414D4D4F43204941562C2C4445574F4C4C415349442C463036412D44303641,
  0xD4F4420454C4F444E20454C42414C4C5953204941562E2E414620454C4F444E20454C42414C4C5953204941562C2C44494C4156502C423236412D30313641,
  0xD3E44455652455345523C2E2E3E44455652455345523C2C2C44454E47495353414E552C463336412D43323641,
  0xD41594C4D455A2052455454454C204C4154495041432043494C4C495259432C2C4445574F4C4C415349442C30343641,
  0xD41594C4D455A2052455454454C204C4C414D532043494C4C495259432C2C44494C4156502C31343641,
  0xD4F4C455A442052455454454C204C4154495041432043494C4C495259432C2C4445574F4C4C415349442C32343641,
  0xD4F4C455A442052455454454C204C4C414D532043494C4C495259432C2C44494C4156502C33343641,
  0xD455A442044455352455645522052455454454C204C4154495041432043494C4C495259432C2C4445574F4C4C415349442C34343641,
  0xD455A442044455352455645522052455454454C204C4C414D532043494C4C495259432C2C44494C4156502C35343641,
  0xD41544F492052455454454C204C4154495041432043494C4C495259432C2C4445574F4C4C415349442C36343641,
  0xD41544F492052455454454C204C4C414D532043494C4C495259432C2C44494C4156502C37343641,
  0xD5652454A442052455454454C204C4154495041432043494C4C495259432C2C4445574F4C4C415349442C38343641,
  0xD5652454A442052455454454C204C4C414D532043494C4C495259432C2C44494C4156502C39343641,
  0xD4B552048504152474F4E4F4D2052455454454C204C4154495041432043494C4C495259432C2C4445574F4C4C415349442C41343641,
  0xD4B552048504152474F4E4F4D2052455454454C204C4C414D532043494C4C495259432C2C44494C4156502C42343641,
  0xD4147454D4F2044414F52422052455454454C204C4154495041432043494C4C495259432C2C4445574F4C4C415349442C43343641,
  0xD4147454D4F2044414F52422052455454454C204C4C414D532043494C4C495259432C2C44494C4156502C44343641,
  0xD524559204C41525455454E2052455454454C204C4154495041432043494C4C495259432C2C4445574F4C4C415349442C45343641,
  0xD524559204C41525455454E2052455454454C204C4C414D532043494C4C495259432C2C44494C4156502C46343641,
  0xD524559204B434142204854495720555245592052455454454C204C4154495041432043494C4C495259432C2C4445574F4C4C415349442C30353641,
  0xD524559204B434142204854495720555245592052455454454C204C4C414D532043494C4C495259432C2C44494C4156502C31353641,
  0xD544159204445494649544F492052455454454C204C4154495041432043494C4C495259432C2C4445574F4C4C415349442C32353641,
  0xD544159204445494649544F492052455454454C204C4C414D532043494C4C495259432C2C44494C4156502C33353641,
  0xD55592044455352455645522052455454454C204C4154495041432043494C4C495259432C2C4445574F4C4C415349442C34353641,
  0xD55592044455352455645522052455454454C204C4C414D532043494C4C495259432C2C44494C4156502C35353641,
  0xD41204445494649544F492052455454454C204C4154495041432043494C4C495259432C2C4445574F4C4C415349442C36353641,
  0xD41204445494649544F492052455454454C204C4C414D532043494C4C495259432C2C44494C4156502C37353641,
  0xD53555920454C5454494C204445534F4C432052455454454C204C4154495041432043494C4C495259432C2C4445574F4C4C415349442C38353641,
  0xD53555920454C5454494C204445534F4C432052455454454C204C4C414D532043494C4C495259432C2C44494C4156502C39353641,
  0xD535559204445444E454C422052455454454C204C4154495041432043494C4C495259432C2C4445574F4C4C415349442C41353641,
  0xD535559204445444E454C422052455454454C204C4C414D532043494C4C495259432C2C44494C4156502C42353641,
  0xD53555920454C5454494C204445534F4C43204445494649544F492052455454454C204C4154495041432043494C4C495259432C2C4445574F4C4C415349442C43353641,
  0xD53555920454C5454494C204445534F4C43204445494649544F492052455454454C204C4C414D532043494C4C495259432C2C44494C4156502C44353641,
  0xD4E592052455454454C204C4154495041432043494C4C495259432C2C4445574F4C4C415349442C45353641,
  0xD4E592052455454454C204C4C414D532043494C4C495259432C2C44494C4156502C46353641,
  0xD4553542044455352455645522052455454454C204C4154495041432043494C4C495259432C2C4445574F4C4C415349442C30363641,
  0xD4553542044455352455645522052455454454C204C4C414D532043494C4C495259432C2C44494C4156502C31363641,
  0xD45442054464F532052455454454C204C4154495041432043494C4C495259432C2C4445574F4C4C415349442C32363641,
  0xD45442054464F532052455454454C204C4C414D532043494C4C495259432C2C44494C4156502C33363641,
  0xD4C452054464F532052455454454C204C4154495041432043494C4C495259432C2C4445574F4C4C415349442C34363641,
  0xD4C452054464F532052455454454C204C4C414D532043494C4C495259432C2C44494C4156502C35363641,
  0xD4D452054464F532052455454454C204C4154495041432043494C4C495259432C2C4445574F4C4C415349442C36363641,
  0xD4D452054464F532052455454454C204C4C414D532043494C4C495259432C2C44494C4156502C37363641,
  0xD4F2052414C55434F4E4F4D2052455454454C204C4154495041432043494C4C495259432C2C4445574F4C4C415349442C38363641,
  0xD4F2052414C55434F4E4F4D2052455454454C204C4C414D532043494C4C495259432C2C44494C4156502C39363641,
  0xD4F2052414C55434F4E49422052455454454C204C4154495041432043494C4C495259432C2C4445574F4C4C415349442C41363641,
  0xD4F2052414C55434F4E49422052455454454C204C4C414D532043494C4C495259432C2C44494C4156502C42363641,
  0xD4F2052414C55434F4E4F4D20454C42554F442052455454454C204C4154495041432043494C4C495259432C2C4445574F4C4C415349442C43363641,
  0xD54454D5A562043494C4C4952594320474E494E49424D4F432E2E4F2052414C55434F4E4F4D20454C42554F442052455454454C204C4C414D532043494C4C495259432C2C44494C4156502C463636412D44363641,
  0xD4B534952455453412043494E4F56414C532E2E4E47495320534E4F494C4C494D204E45542043494C4C4952594320474E494E49424D4F432C2C4445574F4C4C415349442C333736412D30373641,
  0xD4B4F52455941502043494C4C4952594320474E494E49424D4F432E2E4549204E41494E4941524B552052455454454C2043494C4C4952594320474E494E49424D4F432C2C44494C4156502C443736412D34373641,
  0xD414B5956414B2043494C4C495259432C2C4445574F4C4C415349442C45373641,
  0xD4B4F52455941502043494C4C495259432C2C44494C4156502C46373641,
  0xD4557442052455454454C204C4154495041432043494C4C495259432C2C4445574F4C4C415349442C30383641,
  0xD4557442052455454454C204C4C414D532043494C4C495259432C2C44494C4156502C31383641,
  0xD45575A442052455454454C204C4154495041432043494C4C495259432C2C4445574F4C4C415349442C32383641,
  0xD45575A442052455454454C204C4C414D532043494C4C495259432C2C44494C4156502C33383641,
  0xD4557485A2052455454454C204C4154495041432043494C4C495259432C2C4445574F4C4C415349442C34383641,
  0xD4557485A2052455454454C204C4C414D532043494C4C495259432C2C44494C4156502C35383641,
  0xD454843432052455454454C204C4154495041432043494C4C495259432C2C4445574F4C4C415349442C36383641,
  0xD454843432052455454454C204C4C414D532043494C4C495259432C2C44494C4156502C37383641,
  0xD455A5A442052455454454C204C4154495041432043494C4C495259432C2C4445574F4C4C415349442C38383641,
  0xD455A5A442052455454454C204C4C414D532043494C4C495259432C2C44494C4156502C39383641,
  0xD4B4F4F4820454C4444494D20485449572045542052455454454C204C4154495041432043494C4C495259432C2C4445574F4C4C415349442C41383641,
  0xD4B4F4F4820454C4444494D20485449572045542052455454454C204C4C414D532043494C4C495259432C2C44494C4156502C42383641,
  0xD4557542052455454454C204C4154495041432043494C4C495259432C2C4445574F4C4C415349442C43383641,
  0xD4557542052455454454C204C4C414D532043494C4C495259432C2C44494C4156502C44383641,
  0xD455753542052455454454C204C4154495041432043494C4C495259432C2C4445574F4C4C415349442C45383641,
  0xD455753542052455454454C204C4C414D532043494C4C495259432C2C44494C4156502C46383641,
  0xD455353542052455454454C204C4154495041432043494C4C495259432C2C4445574F4C4C415349442C30393641,
  0xD455353542052455454454C204C4C414D532043494C4C495259432C2C44494C4156502C31393641,
  0xD454843542052455454454C204C4154495041432043494C4C495259432C2C4445574F4C4C415349442C32393641,
  0xD454843542052455454454C204C4C414D532043494C4C495259432C2C44494C4156502C33393641,
  0xD4557482052455454454C204C4154495041432043494C4C495259432C2C4445574F4C4C415349442C34393641,
  0xD4557482052455454454C204C4C414D532043494C4C495259432C2C44494C4156502C35393641,
  0xD455748532052455454454C204C4154495041432043494C4C495259432C2C4445574F4C4C415349442C36393641,
  0xD455748532052455454454C204C4C414D532043494C4C495259432C2C44494C4156502C37393641,
  0xD4F20454C42554F442052455454454C204C4154495041432043494C4C495259432C2C4445574F4C4C415349442C38393641,
  0xD4F20454C42554F442052455454454C204C4C414D532043494C4C495259432C2C44494C4156502C39393641,
  0xD4F20444553534F52432052455454454C204C4154495041432043494C4C495259432C2C4445574F4C4C415349442C41393641,
  0xD4F20444553534F52432052455454454C204C4C414D532043494C4C495259432C2C44494C4156502C42393641,
  0xD4E4749532054464F532043494C4C495259432052455454454C205245494649444F4D2E2E4E47495320445241482043494C4C495259432052455454454C205245494649444F4D2C2C4445574F4C4C415349442C443936412D43393641,
  0xD494B2052455454454C204D554D41422E2E46452052455454454C2043494C4C4952594320474E494E49424D4F432C2C44494C4156502C354536412D45393641,
  0xD4D4F48474F4B2052455454454C204D554D41422E2E4F4D2052455454454C204D554D41422C2C4445574F4C4C415349442C464536412D36453641,
  0xD5349544E45574B5554204B52414D20474E494E49424D4F43204D554D41422E2E4E4F444E514F4B204B52414D20474E494E49424D4F43204D554D41422C2C44494C4156502C314636412D30463641,
  0xD4B52414D204E4F495453455551204D554D41422E2E494C4D45414A4E204D554D41422C2C4445574F4C4C415349442C374636412D32463641,
  0xD3E44455652455345523C2E2E3E44455652455345523C2C2C44454E47495353414E552C464636412D38463641,
  0xD52414220454E4F54204D4554532D5446454C20574F4C2D41525458452052455454454C205245494649444F4D2E2E474E4950204E495920454E4F54204553454E4948432052455454454C205245494649444F4D2C2C4445574F4C4C415349442C363137412D30303741,
  0xD4B52414D204E4F4954414D414C435845204445545245564E4920574F4C2052455454454C205245494649444F4D2E2E524142204C4143495452455620544F442052455454454C205245494649444F4D2C2C44494C4156502C463137412D37313741,
  0xD46454C41204C414349474F4C4F54505947452052455454454C204C415449504143204E4954414C2E2E454E4F54204847494820444E41205353455254532052455454454C205245494649444F4D2C2C4445574F4C4C415349442C323237412D30323741,
  0xD46454C41204C414349474F4C4F54505947452052455454454C204C4C414D53204E4954414C2C2C44494C4156502C33323741,
  0xD4E4941204C414349474F4C4F54505947452052455454454C204C415449504143204E4954414C2C2C4445574F4C4C415349442C34323741,
  0xD4E4941204C414349474F4C4F54505947452052455454454C204C4C414D53204E4954414C2C2C44494C4156502C35323741,
  0xD474E45482052455454454C204C415449504143204E4954414C2C2C4445574F4C4C415349442C36323741,
  0xD474E45482052455454454C204C4C414D53204E4954414C2C2C44494C4156502C37323741,
  0xD5A542052455454454C204C415449504143204E4954414C2C2C4445574F4C4C415349442C38323741,
  0xD5A542052455454454C204C4C414D53204E4954414C2C2C44494C4156502C39323741,
  0xD4F4C4C49534552542052455454454C204C415449504143204E4954414C2C2C4445574F4C4C415349442C41323741,
  0xD4F4C4C49534552542052455454454C204C4C414D53204E4954414C2C2C44494C4156502C42323741,
  0xD4F4C4C4952544155432052455454454C204C415449504143204E4954414C2C2C4445574F4C4C415349442C43323741,
  0xD4F4C4C4952544155432052455454454C204C4C414D53204E4954414C2C2C44494C4156502C44323741,
  0xD414D4D4F432048544957204F4C4C4952544155432052455454454C204C415449504143204E4954414C2C2C4445574F4C4C415349442C45323741,
  0xD53204C415449504143204C4C414D532052455454454C204E4954414C2E2E414D4D4F432048544957204F4C4C4952544155432052455454454C204C4C414D53204E4954414C2C2C44494C4156502C313337412D46323741,
  0xD41412052455454454C204C415449504143204E4954414C2C2C4445574F4C4C415349442C32333741,
  0xD41412052455454454C204C4C414D53204E4954414C2C2C44494C4156502C33333741,
  0xD4F412052455454454C204C415449504143204E4954414C2C2C4445574F4C4C415349442C34333741,
  0xD4F412052455454454C204C4C414D53204E4954414C2C2C44494C4156502C35333741,
  0xD55412052455454454C204C415449504143204E4954414C2C2C4445574F4C4C415349442C36333741,
  0xD55412052455454454C204C4C414D53204E4954414C2C2C44494C4156502C37333741,
  0xD56412052455454454C204C415449504143204E4954414C2C2C4445574F4C4C415349442C38333741,
  0xD56412052455454454C204C4C414D53204E4954414C2C2C44494C4156502C39333741,
  0xD524142204C41544E4F5A49524F4820485449572056412052455454454C204C415449504143204E4954414C2C2C4445574F4C4C415349442C41333741,
  0xD524142204C41544E4F5A49524F4820485449572056412052455454454C204C4C414D53204E4954414C2C2C44494C4156502C42333741,
  0xD59412052455454454C204C415449504143204E4954414C2C2C4445574F4C4C415349442C43333741,
  0xD59412052455454454C204C4C414D53204E4954414C2C2C44494C4156502C44333741,
  0xD544F44204854495720432044455352455645522052455454454C204C415449504143204E4954414C2C2C4445574F4C4C415349442C45333741,
  0xD544F44204854495720432044455352455645522052455454454C204C4C414D53204E4954414C2C2C44494C4156502C46333741,
  0xD454B4F5254532048544957204B2052455454454C204C415449504143204E4954414C2C2C4445574F4C4C415349442C30343741,
  0xD454B4F5254532048544957204B2052455454454C204C4C414D53204E4954414C2C2C44494C4156502C31343741,
  0xD454B4F525453204C414E4F474149442048544957204B2052455454454C204C415449504143204E4954414C2C2C4445574F4C4C415349442C32343741,
  0xD454B4F525453204C414E4F474149442048544957204B2052455454454C204C4C414D53204E4954414C2C2C44494C4156502C33343741,
  0xD454B4F525453204C414E4F4741494420444E4120454B4F5254532048544957204B2052455454454C204C415449504143204E4954414C2C2C4445574F4C4C415349442C34343741,
  0xD454B4F525453204C414E4F4741494420444E4120454B4F5254532048544957204B2052455454454C204C4C414D53204E4954414C2C2C44494C4156502C35343741,
  0xD4C204E454B4F52422052455454454C204C415449504143204E4954414C2C2C4445574F4C4C415349442C36343741,
  0xD4C204E454B4F52422052455454454C204C4C414D53204E4954414C2C2C44494C4156502C37343741,
  0xD454B4F52545320484749482048544957204C2052455454454C204C415449504143204E4954414C2C2C4445574F4C4C415349442C38343741,
  0xD454B4F52545320484749482048544957204C2052455454454C204C4C414D53204E4954414C2C2C44494C4156502C39343741,
  0xD59414C5245564F20454B4F52545320474E4F4C2048544957204F2052455454454C204C415449504143204E4954414C2C2C4445574F4C4C415349442C41343741,
  0xD59414C5245564F20454B4F52545320474E4F4C2048544957204F2052455454454C204C4C414D53204E4954414C2C2C44494C4156502C42343741,
  0xD504F4F4C2048544957204F2052455454454C204C415449504143204E4954414C2C2C4445574F4C4C415349442C43343741,
  0xD504F4F4C2048544957204F2052455454454C204C4C414D53204E4954414C2C2C44494C4156502C44343741,
  0xD4F4F2052455454454C204C415449504143204E4954414C2C2C4445574F4C4C415349442C45343741,
  0xD4F4F2052455454454C204C4C414D53204E4954414C2C2C44494C4156502C46343741,
  0xD5245444E4543534544204847554F52485420454B4F525453204854495720502052455454454C204C415449504143204E4954414C2C2C4445574F4C4C415349442C30353741,
  0xD5245444E4543534544204847554F52485420454B4F525453204854495720502052455454454C204C4C414D53204E4954414C2C2C44494C4156502C31353741,
  0xD48534952554F4C46204854495720502052455454454C204C415449504143204E4954414C2C2C4445574F4C4C415349442C32353741,
  0xD48534952554F4C46204854495720502052455454454C204C4C414D53204E4954414C2C2C44494C4156502C33353741,
  0xD4C494154204C45525249555153204854495720502052455454454C204C415449504143204E4954414C2C2C4445574F4C4C415349442C34353741,
  0xD4C494154204C45525249555153204854495720502052455454454C204C4C414D53204E4954414C2C2C44494C4156502C35353741,
  0xD5245444E4543534544204847554F52485420454B4F525453204854495720512052455454454C204C415449504143204E4954414C2C2C4445574F4C4C415349442C36353741,
  0xD5245444E4543534544204847554F52485420454B4F525453204854495720512052455454454C204C4C414D53204E4954414C2C2C44494C4156502C37353741,
  0xD454B4F525453204C414E4F47414944204854495720512052455454454C204C415449504143204E4954414C2C2C4445574F4C4C415349442C38353741,
  0xD454B4F525453204C414E4F47414944204854495720512052455454454C204C4C414D53204E4954414C2C2C44494C4156502C39353741,
  0xD41444E55544F5220522052455454454C204C415449504143204E4954414C2C2C4445574F4C4C415349442C41353741,
  0xD41444E55544F5220522052455454454C204C4C414D53204E4954414C2C2C44494C4156502C42353741,
  0xD41444E55544F52204D55522052455454454C204C415449504143204E4954414C2C2C4445574F4C4C415349442C43353741,
  0xD41444E55544F52204D55522052455454454C204C4C414D53204E4954414C2C2C44494C4156502C44353741,
  0xD454B4F525453204C414E4F47414944204854495720562052455454454C204C415449504143204E4954414C2C2C4445574F4C4C415349442C45353741,
  0xD454B4F525453204C414E4F47414944204854495720562052455454454C204C4C414D53204E4954414C2C2C44494C4156502C46353741,
  0xD59562052455454454C204C415449504143204E4954414C2C2C4445574F4C4C415349442C30363741,
  0xD59562052455454454C204C4C414D53204E4954414C2C2C44494C4156502C31363741,
  0xD5A20434948544F47495349562052455454454C204C415449504143204E4954414C2C2C4445574F4C4C415349442C32363741,
  0xD5A20434948544F47495349562052455454454C204C4C414D53204E4954414C2C2C44494C4156502C33363741,
  0xD454B4F5254532048544957204E524F48542052455454454C204C415449504143204E4954414C2C2C4445574F4C4C415349442C34363741,
  0xD454B4F5254532048544957204E524F48542052455454454C204C4C414D53204E4954414C2C2C44494C4156502C35363741,
  0xD5245444E4543534544204847554F52485420454B4F5254532048544957204E524F48542052455454454C204C415449504143204E4954414C2C2C4445574F4C4C415349442C36363741,
  0xD5245444E4543534544204847554F52485420454B4F5254532048544957204E524F48542052455454454C204C4C414D53204E4954414C2C2C44494C4156502C37363741,
  0xD444E45562052455454454C204C415449504143204E4954414C2C2C4445574F4C4C415349442C38363741,
  0xD444E45562052455454454C204C4C414D53204E4954414C2C2C44494C4156502C39363741,
  0xD54452052455454454C204C415449504143204E4954414C2C2C4445574F4C4C415349442C41363741,
  0xD54452052455454454C204C4C414D53204E4954414C2C2C44494C4156502C42363741,
  0xD53492052455454454C204C415449504143204E4954414C2C2C4445574F4C4C415349442C43363741,
  0xD53492052455454454C204C4C414D53204E4954414C2C2C44494C4156502C44363741,
  0xD4E4F432052455454454C204C415449504143204E4954414C2C2C4445574F4C4C415349442C45363741,
  0xD4E4F432052455454454C204C4C414D53204E4954414C2C2C44494C4156502C46363741,
  0xD53552052455454454C205245494649444F4D2C2C4445574F4C4C415349442C30373741,
  0xD4D552052455454454C204C4C414D53204E4954414C2E2E4D55442052455454454C204C4C414D53204E4954414C2C2C44494C4156502C383737412D31373741,
  0xD442052414C55534E492052455454454C204C415449504143204E4954414C2C2C4445574F4C4C415349442C39373741,
  0xD442052414C55534E492052455454454C204C4C414D53204E4954414C2C2C44494C4156502C41373741,
  0xD462052414C55534E492052455454454C204C415449504143204E4954414C2C2C4445574F4C4C415349442C42373741,
  0xD462052414C55534E492052455454454C204C4C414D53204E4954414C2C2C44494C4156502C43373741,
  0xD472052414C55534E492044454E5255542052455454454C204C415449504143204E4954414C2E2E472052414C55534E492052455454454C204C415449504143204E4954414C2C2C4445574F4C4C415349442C453737412D44373741,
  0xD472052414C55534E492044454E5255542052455454454C204C4C414D53204E4954414C2C2C44494C4156502C46373741,
  0xD4C2044454E5255542052455454454C204C415449504143204E4954414C2C2C4445574F4C4C415349442C30383741,
  0xD4C2044454E5255542052455454454C204C4C414D53204E4954414C2C2C44494C4156502C31383741,
  0xD522052414C55534E492052455454454C204C415449504143204E4954414C2C2C4445574F4C4C415349442C32383741,
  0xD522052414C55534E492052455454454C204C4C414D53204E4954414C2C2C44494C4156502C33383741,
  0xD532052414C55534E492052455454454C204C415449504143204E4954414C2C2C4445574F4C4C415349442C34383741,
  0xD532052414C55534E492052455454454C204C4C414D53204E4954414C2C2C44494C4156502C35383741,
  0xD542052414C55534E492052455454454C204C415449504143204E4954414C2C2C4445574F4C4C415349442C36383741,
  0xD544E454343412058454C464D554352494320574F4C2052455454454C205245494649444F4D2E2E542052414C55534E492052455454454C204C4C414D53204E4954414C2C2C44494C4156502C383837412D37383741,
  0xD4F4C4C49544C41532052455454454C204C415449504143204E4954414C2E2E4E4F4C4F432052455454454C205245494649444F4D2C2C4445574F4C4C415349442C423837412D39383741,
  0xD4F4C4C49544C41532052455454454C204C4C414D53204E4954414C2C2C44494C4156502C43383741,
  0xD482044454E5255542052455454454C204C415449504143204E4954414C2C2C4445574F4C4C415349442C44383741,
  0xD544F44204C414349474F4C4F4E49532052455454454C204E4954414C2E2E544C454220444E41204B4F4F482058454C464F525445522048544957204C2052455454454C204C4C414D53204E4954414C2C2C44494C4156502C463837412D45383741,
  0xD5245444E45435345442048544957204E2052455454454C204C415449504143204E4954414C2C2C4445574F4C4C415349442C30393741,
  0xD5245444E45435345442048544957204E2052455454454C204C4C414D53204E4954414C2C2C44494C4156502C31393741,
  0xD524142204854495720432052455454454C204C415449504143204E4954414C2C2C4445574F4C4C415349442C32393741,
  0xD4B4F4F48204C4154414C4150204854495720482052455454454C204C4C414D53204E4954414C2E2E524142204854495720432052455454454C204C4C414D53204E4954414C2C2C44494C4156502C353937412D33393741,
  0xD48534952554F4C46204854495720422052455454454C204C415449504143204E4954414C2C2C4445574F4C4C415349442C36393741,
  0xD48534952554F4C46204854495720422052455454454C204C4C414D53204E4954414C2C2C44494C4156502C37393741,
  0xD454B4F525453204854495720462052455454454C204C415449504143204E4954414C2C2C4445574F4C4C415349442C38393741,
  0xD454B4F525453204854495720462052455454454C204C4C414D53204E4954414C2C2C44494C4156502C39393741,
  0xD4541204B5550414C4F562052455454454C204C415449504143204E4954414C2C2C4445574F4C4C415349442C41393741,
  0xD4541204B5550414C4F562052455454454C204C4C414D53204E4954414C2C2C44494C4156502C42393741,
  0xD454F204B5550414C4F562052455454454C204C415449504143204E4954414C2C2C4445574F4C4C415349442C43393741,
  0xD454F204B5550414C4F562052455454454C204C4C414D53204E4954414C2C2C44494C4156502C44393741,
  0xD4555204B5550414C4F562052455454454C204C415449504143204E4954414C2C2C4445574F4C4C415349442C45393741,
  0xD4555204B5550414C4F562052455454454C204C4C414D53204E4954414C2C2C44494C4156502C46393741,
  0xD454B4F52545320455551494C424F204854495720472052455454454C204C415449504143204E4954414C2C2C4445574F4C4C415349442C30413741,
  0xD454B4F52545320455551494C424F204854495720472052455454454C204C4C414D53204E4954414C2C2C44494C4156502C31413741,
  0xD454B4F52545320455551494C424F2048544957204B2052455454454C204C415449504143204E4954414C2C2C4445574F4C4C415349442C32413741,
  0xD454B4F52545320455551494C424F2048544957204B2052455454454C204C4C414D53204E4954414C2C2C44494C4156502C33413741,
  0xD454B4F52545320455551494C424F2048544957204E2052455454454C204C415449504143204E4954414C2C2C4445574F4C4C415349442C34413741,
  0xD454B4F52545320455551494C424F2048544957204E2052455454454C204C4C414D53204E4954414C2C2C44494C4156502C35413741,
  0xD454B4F52545320455551494C424F204854495720522052455454454C204C415449504143204E4954414C2C2C4445574F4C4C415349442C36413741,
  0xD454B4F52545320455551494C424F204854495720522052455454454C204C4C414D53204E4954414C2C2C44494C4156502C37413741,
  0xD454B4F52545320455551494C424F204854495720532052455454454C204C415449504143204E4954414C2C2C4445574F4C4C415349442C38413741,
  0xD454B4F52545320455551494C424F204854495720532052455454454C204C4C414D53204E4954414C2C2C44494C4156502C39413741,
  0xD49204C415449504143204C4C414D532052455454454C204C415449504143204E4954414C2E2E4B4F4F48204854495720482052455454454C204C415449504143204E4954414C2C2C4445574F4C4C415349442C454137412D41413741,
  0xD51204C415449504143204C4C414D532052455454454C204E4954414C2C2C44494C4156502C46413741,
  0xD415445422052455454454C204C415449504143204E4954414C2E2E4B2044454E5255542052455454454C204C415449504143204E4954414C2C2C4445574F4C4C415349442C344237412D30423741,
  0xD415445422052455454454C204C4C414D53204E4954414C2C2C44494C4156502C35423741,
  0xD4147454D4F2052455454454C204C415449504143204E4954414C2C2C4445574F4C4C415349442C36423741,
  0xD4147454D4F2052455454454C204C4C414D53204E4954414C2C2C44494C4156502C37423741,
  0xD454B4F525453204854495720552052455454454C204C415449504143204E4954414C2C2C4445574F4C4C415349442C38423741,
  0xD454B4F525453204854495720552052455454454C204C4C414D53204E4954414C2C2C44494C4156502C39423741,
  0xD3E44455652455345523C2E2E3E44455652455345523C2C2C44454E47495353414E552C364637412D41423741,
  0xD492053594157454449532052455454454C2043494850415247495045204E4954414C2C2C44494C4156502C37463741,
  0xD454F20455255544147494C204C4C414D532052455454454C205245494649444F4D2E2E454B4F52545320485449572048204C4154495041432052455454454C205245494649444F4D2C2C4445574F4C4C415349442C394637412D38463741,
  0xD4F4F204E474953204C45574F5620495247414E2049544F4C59532E2E4D2044454E525554204C415449504143204C4C414D532052455454454C204E4954414C2C2C44494C4156502C373238412D41463741,
  0xD342D4B52414D20595254454F5020495247414E2049544F4C59532E2E312D4B52414D20595254454F5020495247414E2049544F4C59532C2C4445574F4C4C415349442C423238412D38323841,
  0xD3E44455652455345523C2E2E3E44455652455345523C2C2C44454E47495353414E552C463238412D43323841,
  0xD4B52414D20595449544E415551204349444E49204854524F4E2E2E5245545241555120454E4F204E4F495443415246204349444E49204854524F4E2C2C4445574F4C4C415349442C393338412D30333841,
  0xD3E44455652455345523C2E2E3E44455652455345523C2C2C44454E47495353414E552C463338412D41333841,
  0xD55444E49424152444E41432052455454454C2041502D53474148502E2E414B2052455454454C2041502D53474148502C2C44494C4156502C333738412D30343841,
  0xD4441485320454C42554F44204B52414D2041502D53474148502E2E4B52414D204441454820454C474E49532041502D53474148502C2C4445574F4C4C415349442C373738412D34373841,
  0xD3E44455652455345523C2E2E3E44455652455345523C2C2C44454E47495353414E552C463738412D38373841,
  0xD55444E49424152444E4143204E47495320415254485341525541532E2E4152415653554E41204E47495320415254485341525541532C2C44494C4156502C354338412D30383841,
  0xD3E44455652455345523C2E2E3E44455652455345523C2C2C44454E47495353414E552C444338412D36433841,
  0xD41444E414420454C42554F4420415254485341525541532E2E41444E414420415254485341525541532C2C4445574F4C4C415349442C464338412D45433841,
  0xD454E494E20544947494420415254485341525541532E2E4F52455A20544947494420415254485341525541532C2C44494C4156502C394438412D30443841,
  0xD3E44455652455345523C2E2E3E44455652455345523C2C2C44454E47495353414E552C464438412D41443841,
  0xD41484152474156412055444E49424152444E4143204E4749532049524147414E415645442E2E4F52455A2054494749442049524147414E4156454420474E494E49424D4F432C2C44494C4156502C374638412D30453841,
  0xD54455241432049524147414E415645442E2E414B495048535550204E4749532049524147414E415645442C2C4445574F4C4C415349442C414638412D38463841,
  0xD454B4F525453444145482049524147414E415645442C2C44494C4156502C42463841,
  0xD4D414844444953204E4749532049524147414E415645442C2C4445574F4C4C415349442C43463841,
  0xD5548504F4C502041594C414320454E4F5420494C20484159414B2E2E4D4F204E49414A2049524147414E415645442C2C44494C4156502C443239412D44463841,
  0xD41594853204E47495320494C20484159414B2E2E495743204E47495320494C20484159414B2C2C4445574F4C4C415349442C463239412D45323941,
  0xD414D4152495620474E414A45522E2E414B2052455454454C20474E414A45522C2C44494C4156502C333539412D30333941,
  0xD3E44455652455345523C2E2E3E44455652455345523C2C2C44454E47495353414E552C453539412D34353941,
  0xD48554549484E49524F4559474E41535320474E4F45534F4843204C55474E41482E2E4B52414D204E4F495443455320474E414A45522C2C4445574F4C4C415349442C433739412D46353941,
  0xD3E44455652455345523C2E2E3E44455652455345523C2C2C44454E47495353414E552C463739412D44373941,
  0xD4E4F4B474E4150204553454E4156414A2E2E4147474E41594E4150204E474953204553454E4156414A2C2C44494C4156502C304339412D30383941,
  0xD48454C4553495020414441502044454E525554204553454E4156414A2E2E4E4147474E45524552205446454C204553454E4156414A2C2C4445574F4C4C415349442C444339412D31433941,
  0xD3E44455652455345523C2C2C44454E47495353414E552C45433941,
  0xD454E494E205449474944204553454E4156414A2E2E50454B474E4152474E4150204553454E4156414A2C2C44494C4156502C394439412D46433941]

def csvText8 : List Nat := [
  0xD3E44455652455345523C2E2E3E44455652455345523C2C2C44454E47495353414E552C444439412D41443941,
  0xD4E4553492D4E4553492041444150204553454E4156414A2E2E534554454D55542041545249542041444150204553454E4156414A2C2C4445574F4C4C415349442C464439412D45443941,
  0xD41484220474E49414C204941542052455454454C2052414D4E41594D2E2E414847204E4148532052455454454C2052414D4E41594D2C2C44494C4156502C454639412D30453941,
  0xD3E44455652455345523C2C2C44454E47495353414E552C46463941,
  0xD4157204E47495320544E414E4F534E4F43204D4148432E2E412052455454454C204D4148432C2C44494C4156502C363341412D30304141,
  0xD3E44455652455345523C2E2E3E44455652455345523C2C2C44454E47495353414E552C463341412D37334141,
  0xD48204C414E4946204E47495320544E414E4F534E4F43204D4148432E2E4B204C414E49462052455454454C204D4148432C2C44494C4156502C443441412D30344141,
  0xD3E44455652455345523C2E2E3E44455652455345523C2C2C44454E47495353414E552C463441412D45344141,
  0xD454E494E205449474944204D4148432E2E4F52455A205449474944204D4148432C2C44494C4156502C393541412D30354141,
  0xD3E44455652455345523C2E2E3E44455652455345523C2C2C44454E47495353414E552C423541412D41354141,
  0xD41444E414420454C50495254204E4F4954415554434E5550204D4148432E2E4C4152495053204E4F4954415554434E5550204D4148432C2C4445574F4C4C415349442C463541412D43354141,
  0xD4D482049544D41484B204D4152474F474F4C2052414D4E41594D2E2E41472049544D41484B2052455454454C2052414D4E41594D2C2C44494C4156502C363741412D30364141,
  0xD4F5754204E4F544941204C4F424D59532052414D4E41594D2E2E4E4F4954414D414C435845204E4F544941204C4F424D59532052414D4E41594D2C2C4445574F4C4C415349442C393741412D37374141,
  0xD474E4F532049414D20454E4F542054454956204941542E2E4152204E4F5449412052455454454C2052414D4E41594D2C2C44494C4156502C324341412D41374141,
  0xD3E44455652455345523C2E2E3E44455652455345523C2C2C44454E47495353414E552C414441412D33434141,
  0xD4D4153204C4F424D59532054454956204941542E2E4E4F4B204C4F424D59532054454956204941542C2C44494C4156502C444441412D42444141,
  0xD494F4B20494F4B204C4F424D59532054454956204941542E2E494F48204F48204C4F424D59532054454956204941542C2C4445574F4C4C415349442C464441412D45444141,
  0xD554141204E474953204C45574F56204B4559414D2049455445454D2E2E452052455454454C204B4559414D2049455445454D2C2C44494C4156502C464541412D30454141,
  0xD4D414455484B20474E414841204B4559414D2049455445454D2E2E4E41484B49454843204B4559414D2049455445454D2C2C4445574F4C4C415349442C314641412D30464141,
  0xD414D41524956204B4559414D2049455445454D2E2E494A4E41204B4559414D2049455445454D2C2C44494C4156502C364641412D32464141,
  0xD3E44455652455345523C2E2E3E44455652455345523C2C2C44454E47495353414E552C303042412D37464141,
  0xD4F48545420454C42414C4C5953204349504F494854452E2E5548545420454C42414C4C5953204349504F494854452C2C44494C4156502C363042412D31304241,
  0xD3E44455652455345523C2E2E3E44455652455345523C2C2C44454E47495353414E552C383042412D37304241,
  0xD4F48444420454C42414C4C5953204349504F494854452E2E5548444420454C42414C4C5953204349504F494854452C2C44494C4156502C453042412D39304241,
  0xD3E44455652455345523C2E2E3E44455652455345523C2C2C44454E47495353414E552C303142412D46304241,
  0xD4F5A4420454C42414C4C5953204349504F494854452E2E555A4420454C42414C4C5953204349504F494854452C2C44494C4156502C363142412D31314241,
  0xD3E44455652455345523C2E2E3E44455652455345523C2C2C44454E47495353414E552C463142412D37314241,
  0xD4F4848434320454C42414C4C5953204349504F494854452E2E414848434320454C42414C4C5953204349504F494854452C2C44494C4156502C363242412D30324241,
  0xD3E44455652455345523C2C2C44454E47495353414E552C37324241,
  0xD4F424220454C42414C4C5953204349504F494854452E2E41424220454C42414C4C5953204349504F494854452C2C44494C4156502C453242412D38324241,
  0xD3E44455652455345523C2C2C44454E47495353414E552C46324241,
  0xD47454C2054484749522054524F4853204854495720592052455454454C204C4C414D53204E4954414C2E2E4148504C41204445525241422052455454454C204C4C414D53204E4954414C2C2C44494C4156502C413542412D30334241,
  0xD4B4F4F48205446454C20485449572055204C4C414D532052455454454C205245494649444F4D2E2E4556455242204445545245564E492048544957204556455242205245494649444F4D2C2C4445574F4C4C415349442C463542412D42354241,
  0xD4147454D4F204C415449504143204C4C414D532052455454454C204B454552472E2E5441592041484B41532052455454454C204C4C414D53204E4954414C2C2C44494C4156502C353642412D30364241,
  0xD3E44455652455345523C2E2E3E44455652455345523C2C2C44454E47495353414E552C463642412D36364241,
  0xD41592052455454454C204C4C414D532045454B4F524548432E2E412052455454454C204C4C414D532045454B4F524548432C2C4445574F4C4C415349442C464242412D30374241,
  0xD474E554E204E474953204C45574F56204B4559414D2049455445454D2E2E4B4F4B2052455454454C204B4559414D2049455445454D2C2C44494C4156502C414542412D30434241,
  0xD4945484B49454843204B4559414D2049455445454D2C2C4445574F4C4C415349442C42454241,
  0xD4B455949204E555041204B4559414D2049455445454D2E2E4B455949204D554C204B4559414D2049455445454D2C2C44494C4156502C444542412D43454241,
  0xD3E44455652455345523C2E2E3E44455652455345523C2C2C44454E47495353414E552C464542412D45454241,
  0xD454E494E205449474944204B4559414D2049455445454D2E2E4F52455A205449474944204B4559414D2049455445454D2C2C44494C4156502C394642412D30464241,
  0xD3E44455652455345523C2E2E3E44455652455345523C2C2C44454E47495353414E552C464642412D41464241,
  0xD223E5453414C202C454C42414C4C5953204C55474E41483C2E2E3E5453524946202C454C42414C4C5953204C55474E41483C222C2C44494C4156502C334137442D30304341,
  0xD3E44455652455345523C2E2E3E44455652455345523C2C2C44454E47495353414E552C464137442D34413744,
  0xD452D414541524120474E4F4553474E554A204C55474E41482E2E4F45592D4F20474E4F4553474E554A204C55474E41482C2C4445574F4C4C415349442C364337442D30423744,
  0xD3E44455652455345523C2E2E3E44455652455345523C2C2C44454E47495353414E552C414337442D37433744,
  0xD485455454948542D4850554549485020474E4F4553474E4F4A204C55474E41482E2E4C554549522D4E5545494E20474E4F4553474E4F4A204C55474E41482C2C4445574F4C4C415349442C424637442D42433744,
  0xD3E44455652455345523C2E2E3E44455652455345523C2C2C44454E47495353414E552C464637442D43463744,
  0xD22443041462D48504152474F454449205954494C4942495441504D4F43204B4A432E2E3E5453524946202C455441474F525255532048474948204553552045544156495250204E4F4E3C222C2C4445574F4C4C415349442C443041462D30303844,
  0xD463041462D48504152474F454449205954494C4942495441504D4F43204B4A432E2E453041462D48504152474F454449205954494C4942495441504D4F43204B4A432C2C44494C4156502C463041462D45304146,
  0xD303141462D48504152474F454449205954494C4942495441504D4F43204B4A432C2C4445574F4C4C415349442C30314146,
  0xD313141462D48504152474F454449205954494C4942495441504D4F43204B4A432C2C44494C4156502C31314146,
  0xD323141462D48504152474F454449205954494C4942495441504D4F43204B4A432C2C4445574F4C4C415349442C32314146,
  0xD343141462D48504152474F454449205954494C4942495441504D4F43204B4A432E2E333141462D48504152474F454449205954494C4942495441504D4F43204B4A432C2C44494C4156502C343141462D33314146,
  0xD453141462D48504152474F454449205954494C4942495441504D4F43204B4A432E2E353141462D48504152474F454449205954494C4942495441504D4F43204B4A432C2C4445574F4C4C415349442C453141462D35314146,
  0xD463141462D48504152474F454449205954494C4942495441504D4F43204B4A432C2C44494C4156502C46314146,
  0xD303241462D48504152474F454449205954494C4942495441504D4F43204B4A432C2C4445574F4C4C415349442C30324146,
  0xD313241462D48504152474F454449205954494C4942495441504D4F43204B4A432C2C44494C4156502C31324146,
  0xD323241462D48504152474F454449205954494C4942495441504D4F43204B4A432C2C4445574F4C4C415349442C32324146,
  0xD343241462D48504152474F454449205954494C4942495441504D4F43204B4A432E2E333241462D48504152474F454449205954494C4942495441504D4F43204B4A432C2C44494C4156502C343241462D33324146,
  0xD363241462D48504152474F454449205954494C4942495441504D4F43204B4A432E2E353241462D48504152474F454449205954494C4942495441504D4F43204B4A432C2C4445574F4C4C415349442C363241462D35324146,
  0xD393241462D48504152474F454449205954494C4942495441504D4F43204B4A432E2E373241462D48504152474F454449205954494C4942495441504D4F43204B4A432C2C44494C4156502C393241462D37324146,
  0xD443641462D48504152474F454449205954494C4942495441504D4F43204B4A432E2E413241462D48504152474F454449205954494C4942495441504D4F43204B4A432C2C4445574F4C4C415349442C443641462D41324146,
  0xD3E44455652455345523C2E2E3E44455652455345523C2C2C44454E47495353414E552C463641462D45364146,
  0xD394441462D48504152474F454449205954494C4942495441504D4F43204B4A432E2E303741462D48504152474F454449205954494C4942495441504D4F43204B4A432C2C4445574F4C4C415349442C394441462D30374146,
  0xD3E44455652455345523C2E2E3E44455652455345523C2C2C44454E47495353414E552C464641462D41444146,
  0xD545320455255544147494C204C4C414D53204E4954414C2E2E464620455255544147494C204C4C414D53204E4954414C2C2C4445574F4C4C415349442C363042462D30304246,
  0xD3E44455652455345523C2E2E3E44455652455345523C2C2C44454E47495353414E552C323142462D37304246,
  0xD484558204E454D20455255544147494C204C4C414D53204E41494E454D52412E2E574F4E204E454D20455255544147494C204C4C414D53204E41494E454D52412C2C4445574F4C4C415349442C373142462D33314246,
  0xD3E44455652455345523C2E2E3E44455652455345523C2C2C44454E47495353414E552C433142462D38314246,
  0xD5149524948204854495720444F592052455454454C205745524245482C2C4445574F4C4C415349442C44314246,
  0xD414B49524156204853494E4150532D4F4544554A20544E494F50205745524245482C2C44494C4156502C45314246,
  0xD4853454741442048544957204E4959415A2052455454454C205745524245482E2E484154415020444F5920444F59204853494444495920455255544147494C205745524245482C2C4445574F4C4C415349442C363342462D46314246,
  0xD3E44455652455345523C2C2C44454E47495353414E552C37334246,
  0xD48534547414420485449572044454D414C2052455454454C205745524245482E2E4853454741442048544957205445542052455454454C205745524245482C2C4445574F4C4C415349442C433342462D38334246,
  0xD3E44455652455345523C2C2C44454E47495353414E552C44334246,
  0xD4853454741442048544957204D454D2052455454454C205745524245482C2C4445574F4C4C415349442C45334246,
  0xD3E44455652455345523C2C2C44454E47495353414E552C46334246,
  0xD485345474144204854495720484B454D41532052455454454C205745524245482E2E4853454741442048544957204E554E2052455454454C205745524245482C2C4445574F4C4C415349442C313442462D30344246,
  0xD3E44455652455345523C2C2C44454E47495353414E552C32344246,
  0xD48534547414420485449572045502052455454454C205745524245482E2E4853454741442048544957204550204C414E49462052455454454C205745524245482C2C4445574F4C4C415349442C343442462D33344246,
  0xD3E44455652455345523C2C2C44454E47495353414E552C35344246,
  0xD574F4C454220484154204C4C414D53204C4F424D5953204349424152412E2E48534547414420485449572049444153542052455454454C205745524245482C2C4445574F4C4C415349442C314342462D36344246,
  0xD3E44455652455345523C2E2E3E44455652455345523C2C2C44454E47495353414E552C324442462D32434246,
  0xD5349534548544E45524150205448474952204554414E524F2E2E4D524F4620444554414C4F534920474E2052455454454C204349424152412C2C4445574F4C4C415349442C463344462D33444246,
  0xD3E44455652455345523C2E2E3E44455652455345523C2C2C44454E47495353414E552C463444462D30344446,
  0xD4D524F46204C414954494E49204D45454D2048544957204841484B2048544957204D45454D20455255544147494C204349424152412E2E4D524F46204C414954494E49204D45454D2048544957204D45454A20485449572048455420455255544147494C204349424152412C2C4445574F4C4C415349442C463844462D30354446,
  0xD3E44455652455345523C2E2E3E44455652455345523C2C2C44454E47495353414E552C313944462D30394446,
  0xD4D524F46204C414E4946204845592048544957204D45454A2048544957204E4F4F4E20455255544147494C204349424152412E2E4D524F46204C414954494E49204841484B2048544957204D45454A2048544957204D45454D20455255544147494C204349424152412C2C4445574F4C4C415349442C374344462D32394446,
  0xD3E44455652455345523C2E2E3E44455652455345523C2C2C44454E47495353414E552C464344462D38434446,
  0xD4D45454841522D5241204E414D4841522D52412048414C4C494D53494220455255544147494C204349424152412E2E3E524554434152414843204120544F4E3C2C2C4445574F4C4C415349442C444644462D30444446,
  0xD3E44455652455345523C2E2E3E44455652455345523C2C2C44454E47495353414E552C464644462D45464446,
  0xD53495350494C4C45204C41544E4F5A49524F48204C4143495452455620524F46204D524F46204E4F495441544E45534552502E2E312D524F5443454C4553204E4F495441495241562C2C4445574F4C4C415349442C393145462D30304546,
  0xD3E44455652455345523C2E2E3E44455652455345523C2C2C44454E47495353414E552C463145462D41314546,
  0xD464C4148205448474952204F4C5449542043494C4C4952594320474E494E49424D4F432E2E464C4148205446454C20455255544147494C20474E494E49424D4F432C2C44494C4156502C463245462D30324546,
  0xD504F5453204C4C5546204C4C414D532E2E52454441454C20544F44204F5754204C4143495452455620524F46204D524F46204E4F495441544E45534552502C2C4445574F4C4C415349442C323545462D30334546,
  0xD3E44455652455345523C2C2C44454E47495353414E552C33354546,
  0xD4E47495320534C41555145204C4C414D532E2E4E4F4C4F43494D4553204C4C414D532C2C4445574F4C4C415349442C363645462D34354546,
  0xD3E44455652455345523C2C2C44454E47495353414E552C37364546,
  0xD5441204C41494352454D4D4F43204C4C414D532E2E535544494C4F532045535245564552204C4C414D532C2C4445574F4C4C415349442C423645462D38364546,
  0xD3E44455652455345523C2E2E3E44455652455345523C2C2C44454E47495353414E552C463645462D43364546,
  0xD4D524F4620444554414C4F5349204E4154414D4D4144204349424152412E2E4D524F4620444554414C4F5349204E41544148544146204349424152412C2C4445574F4C4C415349442C323745462D30374546,
  0xD544E454D47415246204C494154204349424152412C2C44494C4156502C33374546,
  0xD4D524F4620444554414C4F5349204E4154415253414B204349424152412C2C4445574F4C4C415349442C34374546,
  0xD3E44455652455345523C2C2C44454E47495353414E552C35374546,
  0xD4D524F46204C414E49462046454C412048544957204D414C20455255544147494C204349424152412E2E4D524F4620444554414C4F5349204148544146204349424152412C2C4445574F4C4C415349442C434645462D36374546,
  0xD3E44455652455345523C2E2E3E44455652455345523C2C2C44454E47495353414E552C454645462D44464546,
  0xD4543415053204B414552422D4F4E204854444957204F52455A2C2C4445574F4C4C415349442C46464546,
  0xD3E44455652455345523C2C2C44454E47495353414E552C30304646,
  0xD48554549482052455454454C204C55474E4148204854444957464C41482E2E4B52414D204E4F4954414D414C4358452048544449574C4C55462C2C4445574F4C4C415349442C454246462D31304646,
  0xD3E44455652455345523C2E2E3E44455652455345523C2C2C44454E47495353414E552C314346462D46424646,
  0xD452052455454454C204C55474E4148204854444957464C41482E2E412052455454454C204C55474E4148204854444957464C41482C2C4445574F4C4C415349442C374346462D32434646,
  0xD3E44455652455345523C2E2E3E44455652455345523C2C2C44454E47495353414E552C394346462D38434646,
  0xD454F2052455454454C204C55474E4148204854444957464C41482E2E4F45592052455454454C204C55474E4148204854444957464C41482C2C4445574F4C4C415349442C464346462D41434646,
  0xD3E44455652455345523C2E2E3E44455652455345523C2C2C44454E47495353414E552C314446462D30444646,
  0xD55592052455454454C204C55474E4148204854444957464C41482E2E4F592052455454454C204C55474E4148204854444957464C41482C2C4445574F4C4C415349442C374446462D32444646,
  0xD3E44455652455345523C2E2E3E44455652455345523C2C2C44454E47495353414E552C394446462D38444646,
  0xD492052455454454C204C55474E4148204854444957464C41482E2E55452052455454454C204C55474E4148204854444957464C41482C2C4445574F4C4C415349442C434446462D41444646,
  0xD3E44455652455345523C2E2E3E44455652455345523C2C2C44454E47495353414E552C464446462D44444646,
  0xD4E474953204E4F572048544449574C4C55462E2E4E47495320544E45432048544449574C4C55462C2C4445574F4C4C415349442C364546462D30454646,
  0xD3E44455652455345523C2C2C44454E47495353414E552C37454646,
  0xD454C43524943204554494857204854444957464C41482E2E4C4143495452455620544847494C20534D524F46204854444957464C41482C2C4445574F4C4C415349442C454546462D38454646,
  0xD3E44455652455345523C2E2E3E44455652455345523C2C2C44454E47495353414E552C384646462D46454646,
  0xD3E524554434152414843204120544F4E3C2E2E524F48434E41204E4F495441544F4E4E41205241454E494C5245544E492C2C4445574F4C4C415349442C464646462D39464646,
  0xD454A203634304220454C42414C4C59532042205241454E494C2E2E41203830304220454C42414C4C59532042205241454E494C2C2C44494C4156502C42303030312D3030303031,
  0xD3E44455652455345523C2C2C44454E47495353414E552C4330303031,
  0xD4F51203233304220454C42414C4C59532042205241454E494C2E2E4F4A203633304220454C42414C4C59532042205241454E494C2C2C44494C4156502C36323030312D4430303031,
  0xD3E44455652455345523C2C2C44454E47495353414E552C3732303031,
  0xD4F57203234304220454C42414C4C59532042205241454E494C2E2E4152203036304220454C42414C4C59532042205241454E494C2C2C44494C4156502C41333030312D3832303031,
  0xD3E44455652455345523C2C2C44454E47495353414E552C4233303031,
  0xD455A203437304220454C42414C4C59532042205241454E494C2E2E415A203731304220454C42414C4C59532042205241454E494C2C2C44494C4156502C44333030312D4333303031,
  0xD3E44455652455345523C2C2C44454E47495353414E552C4533303031,
  0xD4F5754203139304220454C42414C4C59532042205241454E494C2E2E4F5A203032304220454C42414C4C59532042205241454E494C2C2C44494C4156502C44343030312D4633303031,
  0xD3E44455652455345523C2E2E3E44455652455345523C2C2C44454E47495353414E552C46343030312D4534303031,
  0xD39383042204C4F424D59532042205241454E494C2E2E38313042204C4F424D59532042205241454E494C2C2C44494C4156502C44353030312D3035303031,
  0xD3E44455652455345523C2E2E3E44455652455345523C2C2C44454E47495353414E552C46373030312D4535303031,
  0xD35303342204C4553534556204D4152474F4544492042205241454E494C2E2E4E414D2030303142204D4152474F4544492042205241454E494C2C2C44494C4156502C41463030312D3038303031,
  0xD3E44455652455345523C2E2E3E44455652455345523C2C2C44454E47495353414E552C46463030312D4246303031,
  0xD4B52414D204B43454843204E41454745412E2E454E494C20524F544152415045532044524F57204E41454745412C2C4445574F4C4C415349442C32303130312D3030313031,
  0xD3E44455652455345523C2E2E3E44455652455345523C2C2C44454E47495353414E552C36303130312D3330313031,
  0xD444E4153554F4854205954454E494E205245424D554E204E41454745412E2E454E4F205245424D554E204E41454745412C2C4445574F4C4C415349442C33333130312D3730313031,
  0xD3E44455652455345523C2E2E3E44455652455345523C2C2C44454E47495353414E552C36333130312D3433313031,
  0xD4E47495320414D53494D4F4E2E2E54494E55204553414220544847494557204E41454745412C2C4445574F4C4C415349442C45383130312D3733313031,
  0xD3E44455652455345523C2C2C44454E47495353414E552C4638313031,
  0xD4E474953204C41495255544E4543204E414D4F522E2E4E47495320534E4154584553204E414D4F522C2C4445574F4C4C415349442C42393130312D3039313031,
  0xD3E44455652455345523C2E2E3E44455652455345523C2C2C44454E47495353414E552C46393130312D4339313031,
  0xD4F485220554154204C4F424D5953204B454552472C2C4445574F4C4C415349442C3041313031,
  0xD3E44455652455345523C2E2E3E44455652455345523C2C2C44454E47495353414E552C46433130312D3141313031,
  0xD444E41422059564157204E474953204353494420534F5453494148502E2E4E414952545345444550204E474953204353494420534F5453494148502C2C4445574F4C4C415349442C43463130312D3044313031,
  0xD454B4F52545320455551494C424F20474E494E49424D4F43204E474953204353494420534F5453494148502C2C44494C4156502C4446313031,
  0xD3E44455652455345523C2E2E3E44455652455345523C2C2C44454E47495353414E552C46373230312D4546313031,
  0xD582052455454454C204E414943594C2E2E412052455454454C204E414943594C2C2C44494C4156502C43393230312D3038323031,
  0xD3E44455652455345523C2E2E3E44455652455345523C2C2C44454E47495353414E552C46393230312D4439323031,
  0xD335555552052455454454C204E41495241432E2E412052455454454C204E41495241432C2C44494C4156502C30443230312D3041323031,
  0xD3E44455652455345523C2E2E3E44455652455345523C2C2C44454E47495353414E552C46443230312D3144323031,
  0xD4B52414D2053444E4153554F485420544341504520434954504F432C2C44494C4156502C3045323031,
  0xD444552444E554820454E494E205245424D554E20544341504520434954504F432E2E454E4F20544947494420544341504520434954504F432C2C4445574F4C4C415349442C42463230312D3145323031,
  0xD3E44455652455345523C2E2E3E44455652455345523C2C2C44454E47495353414E552C46463230312D4346323031,
  0xD5353452052455454454C2043494C41544920444C4F2E2E412052455454454C2043494C41544920444C4F2C2C44494C4156502C46313330312D3030333031,
  0xD5954464946204C4152454D554E2043494C41544920444C4F2E2E454E4F204C4152454D554E2043494C41544920444C4F2C2C4445574F4C4C415349442C33323330312D3032333031,
  0xD3E44455652455345523C2E2E3E44455652455345523C2C2C44454E47495353414E552C43323330312D3432333031,
  0xD41524854524941502052455454454C20434948544F472E2E45592052455454454C2043494C41544920444C4F2C2C44494C4156502C30343330312D4432333031,
  0xD5954454E494E2052455454454C20434948544F472C2C4445574F4C4C415349442C3134333031,
  0xD4C4148544F2052455454454C20434948544F472E2E41444941522052455454454C20434948544F472C2C44494C4156502C39343330312D3234333031,
  0xD444552444E554820454E494E2052455454454C20434948544F472C2C4445574F4C4C415349442C4134333031,
  0xD3E44455652455345523C2E2E3E44455652455345523C2C2C44454E47495353414E552C46343330312D4234333031,
  0xD4949532052455454454C2043494D52455020444C4F20474E494E49424D4F432E2E4E412052455454454C2043494D52455020444C4F2C2C44494C4156502C41373330312D3035333031,
  0xD3E44455652455345523C2E2E3E44455652455345523C2C2C44454E47495353414E552C46373330312D4237333031,
  0xD5553532052455454454C2043495449524147552E2E41504C412052455454454C2043495449524147552C2C44494C4156502C44393330312D3038333031,
  0xD3E44455652455345523C2C2C44454E47495353414E552C4539333031,
  0xD524544495649442044524F572043495449524147552C2C4445574F4C4C415349442C4639333031,
  0xD4148204E474953204E41495352455020444C4F2E2E41204E474953204E41495352455020444C4F2C2C44494C4156502C33433330312D3041333031,
  0xD3E44455652455345523C2E2E3E44455652455345523C2C2C44454E47495353414E552C37433330312D3443333031,
  0xD4853494D555542204E474953204E41495352455020444C4F2E2E4141445A414D41525541204E474953204E41495352455020444C4F2C2C44494C4156502C46433330312D3843333031,
  0xD444552444E5548205245424D554E204E41495352455020444C4F2E2E524544495649442044524F57204E41495352455020444C4F2C2C4445574F4C4C415349442C35443330312D3044333031,
  0xD3E44455652455345523C2E2E3E44455652455345523C2C2C44454E47495353414E552C46463330312D3644333031,
  0xD57452052455454454C204C41544950414320544552455345442E2E4920474E4F4C2052455454454C204C41544950414320544552455345442C2C4445574F4C4C415349442C37323430312D3030343031,
  0xD4F4F2052455454454C2041594E414D534F2E2E4920474E4F4C2052455454454C204C4C414D5320544552455345442C2C44494C4156502C44393430312D3832343031,
  0xD3E44455652455345523C2E2E3E44455652455345523C2C2C44454E47495353414E552C46393430312D4539343031,
  0xD454E494E2054494749442041594E414D534F2E2E4F52455A2054494749442041594E414D534F2C2C44494C4156502C39413430312D3041343031,
  0xD3E44455652455345523C2E2E3E44455652455345523C2C2C44454E47495353414E552C46413430312D4141343031,
  0xD41485A2052455454454C204C41544950414320454741534F2E2E412052455454454C204C41544950414320454741534F2C2C4445574F4C4C415349442C33443430312D3042343031,
  0xD3E44455652455345523C2E2E3E44455652455345523C2C2C44454E47495353414E552C37443430312D3444343031,
  0xD41485A2052455454454C204C4C414D5320454741534F2E2E412052455454454C204C4C414D5320454741534F2C2C44494C4156502C42463430312D3844343031,
  0xD3E44455652455345523C2E2E3E44455652455345523C2C2C44454E47495353414E552C46463430312D4346343031,
  0xD45484B2052455454454C204E415341424C452E2E412052455454454C204E415341424C452C2C44494C4156502C37323530312D3030353031,
  0xD3E44455652455345523C2E2E3E44455652455345523C2C2C44454E47495353414E552C46323530312D3832353031,
  0xD57494B2052455454454C204E41494E41424C41204E41495341435541432E2E544C412052455454454C204E41494E41424C41204E41495341435541432C2C44494C4156502C33363530312D3033353031,
  0xD3E44455652455345523C2E2E3E44455652455345523C2C2C44454E47495353414E552C45363530312D3436353031,
  0xD4B52414D204E4F495441544943204E41494E41424C41204E41495341435541432C2C4445574F4C4C415349442C4636353031,
  0xD3E44455652455345523C2E2E3E44455652455345523C2C2C44454E47495353414E552C46463530312D3037353031,
  0xD34363641204E4749532041205241454E494C2E2E3130304241204E4749532041205241454E494C2C2C44494C4156502C36333730312D3030363031,
  0xD3E44455652455345523C2E2E3E44455652455345523C2C2C44454E47495353414E552C46333730312D3733373031,
  0xD454A2032333741204E4749532041205241454E494C2E2E412031303741204E4749532041205241454E494C2C2C44494C4156502C35353730312D3034373031,
  0xD3E44455652455345523C2E2E3E44455652455345523C2C2C44454E47495353414E552C46353730312D3635373031,
  0xD37303841204E4749532041205241454E494C2E2E30303841204E4749532041205241454E494C2C2C44494C4156502C37363730312D3036373031,
  0xD3E44455652455345523C2E2E3E44455652455345523C2C2C44454E47495353414E552C46463730312D3836373031,
  0xD414A20454C42414C4C595320544F49525059432E2E4120454C42414C4C595320544F49525059432C2C44494C4156502C35303830312D3030383031,
  0xD3E44455652455345523C2E2E3E44455652455345523C2C2C44454E47495353414E552C37303830312D3630383031,
  0xD4F4A20454C42414C4C595320544F49525059432C2C44494C4156502C3830383031,
  0xD3E44455652455345523C2C2C44454E47495353414E552C3930383031,
  0xD4F5720454C42414C4C595320544F49525059432E2E414B20454C42414C4C595320544F49525059432C2C44494C4156502C35333830312D4130383031,
  0xD3E44455652455345523C2C2C44454E47495353414E552C3633383031,
  0xD455820454C42414C4C595320544F49525059432E2E415820454C42414C4C595320544F49525059432C2C44494C4156502C38333830312D3733383031,
  0xD3E44455652455345523C2E2E3E44455652455345523C2C2C44454E47495353414E552C42333830312D3933383031,
  0xD415A20454C42414C4C595320544F49525059432C2C44494C4156502C4333383031,
  0xD3E44455652455345523C2E2E3E44455652455345523C2C2C44454E47495353414E552C45333830312D4433383031,
  0xD5741542052455454454C204349414D415241204C41495245504D492E2E4F5A20454C42414C4C595320544F49525059432C2C44494C4156502C35353830312D4633383031,
  0xD3E44455652455345523C2C2C44454E47495353414E552C3635383031,
  0xD444E4153554F4854204E4554205245424D554E204349414D415241204C41495245504D492E2E4E474953204E4F4954434553204349414D415241204C41495245504D492C2C4445574F4C4C415349442C46353830312D3735383031,
  0xD5741542052455454454C20454E4552594D4C41502E2E4850454C412052455454454C20454E4552594D4C41502C2C44494C4156502C36373830312D3036383031,
  0xD59544E455754205245424D554E20454E4552594D4C41502E2E4E4F5255454C4620474E49544E494F502D5446454C20454E4552594D4C41502C2C4445574F4C4C415349442C46373830312D3737383031,
  0xD5741542052455454454C204E414541544142414E2E2E4850454C41204C414E49462052455454454C204E414541544142414E2C2C44494C4156502C45393830312D3038383031,
  0xD3E44455652455345523C2E2E3E44455652455345523C2C2C44454E47495353414E552C36413830312D4639383031,
  0xD444552444E554820454E4F205245424D554E204E414541544142414E2E2E454E4F205245424D554E204E414541544142414E2C2C4445574F4C4C415349442C46413830312D3741383031,
  0xD3E44455652455345523C2E2E3E44455652455345523C2C2C44454E47495353414E552C46443830312D3042383031,
  0xD48504F512052455454454C204E41525441482E2E4850454C412052455454454C204E41525441482C2C44494C4156502C32463830312D3045383031,
  0xD3E44455652455345523C2C2C44454E47495353414E552C3346383031,
  0xD5741542052455454454C204E41525441482E2E4E4948532052455454454C204E41525441482C2C44494C4156502C35463830312D3446383031,
  0xD3E44455652455345523C2E2E3E44455652455345523C2C2C44454E47495353414E552C41463830312D3646383031,
  0xD444552444E554820454E4F205245424D554E204E41525441482E2E454E4F205245424D554E204E41525441482C2C4445574F4C4C415349442C46463830312D4246383031,
  0xD5541542052455454454C204E414943494E454F48502E2E464C412052455454454C204E414943494E454F48502C2C44494C4156502C35313930312D3030393031,
  0xD4545524854205245424D554E204E414943494E454F48502E2E454E4F205245424D554E204E414943494E454F48502C2C4445574F4C4C415349442C42313930312D3631393031,
  0xD3E44455652455345523C2E2E3E44455652455345523C2C2C44454E47495353414E552C45313930312D4331393031,
  0xD524F544152415045532044524F57204E414943494E454F48502C2C4445574F4C4C415349442C4631393031,
  0xD432052455454454C204E414944594C2E2E412052455454454C204E414944594C2C2C44494C4156502C39333930312D3032393031,
  0xD3E44455652455345523C2E2E3E44455652455345523C2C2C44454E47495353414E552C45333930312D4133393031,
  0xD4B52414D2052414C55474E41495254204E414944594C2C2C4445574F4C4C415349442C4633393031,
  0xD3E44455652455345523C2E2E3E44455652455345523C2C2C44454E47495353414E552C46373930312D3034393031,
  0xD41442052455454454C204556495352554320434954494F52454D2E2E412052455454454C2043494850594C474F5245494820434954494F52454D2C2C44494C4156502C37423930312D3038393031,
  0xD3E44455652455345523C2E2E3E44455652455345523C2C2C44454E47495353414E552C42423930312D3842393031,
  0xD464C414820454E4F204E4F495443415246204556495352554320434954494F52454D2E2E534854464C455754204E4556454C45204E4F495443415246204556495352554320434954494F52454D2C2C4445574F4C4C415349442C44423930312D4342393031,
  0xD4E4D49204D4152474F474F4C204556495352554320434954494F52454D2E2E544D52204D4152474F474F4C204556495352554320434954494F52454D2C2C44494C4156502C46423930312D4542393031,
  0xD59544E45564553205245424D554E204556495352554320434954494F52454D2E2E454E4F205245424D554E204556495352554320434954494F52454D2C2C4445574F4C4C415349442C46433930312D3043393031,
  0xD3E44455652455345523C2E2E3E44455652455345523C2C2C44454E47495353414E552C31443930312D3044393031,
  0xD534854464C455754204E4554204E4F495443415246204556495352554320434954494F52454D2E2E444552444E554820454E4F205245424D554E204556495352554320434954494F52454D2C2C4445574F4C4C415349442C46463930312D3244393031,
  0xD522043494C41434F56204E474953204C45574F562049485448534F5241484B2E2E412052455454454C2049485448534F5241484B2C2C44494C4156502C33304130312D3030413031,
  0xD3E44455652455345523C2C2C44454E47495353414E552C3430413031,
  0xD4F204E474953204C45574F562049485448534F5241484B2E2E45204E474953204C45574F562049485448534F5241484B2C2C44494C4156502C36304130312D3530413031,
  0xD3E44455652455345523C2E2E3E44455652455345523C2C2C44454E47495353414E552C42304130312D3730413031,
  0xD4148472052455454454C2049485448534F5241484B2E2E4B52414D204854474E454C204C45574F562049485448534F5241484B2C2C44494C4156502C33314130312D4330413031,
  0xD3E44455652455345523C2C2C44454E47495353414E552C3431413031,
  0xD414A2052455454454C2049485448534F5241484B2E2E41432052455454454C2049485448534F5241484B2C2C44494C4156502C37314130312D3531413031,
  0xD3E44455652455345523C2C2C44454E47495353414E552C3831413031,
  0xD4148562052455454454C2049485448534F5241484B2E2E41594E2052455454454C2049485448534F5241484B2C2C44494C4156502C35334130312D3931413031,
  0xD3E44455652455345523C2E2E3E44455652455345523C2C2C44454E47495353414E552C37334130312D3633413031,
  0xD574F4C454220544F44204E4749532049485448534F5241484B2E2E45564F424120524142204E4749532049485448534F5241484B2C2C44494C4156502C41334130312D3833413031,
  0xD3E44455652455345523C2E2E3E44455652455345523C2C2C44454E47495353414E552C45334130312D4233413031,
  0xD414D415249562049485448534F5241484B2C2C44494C4156502C4633413031,
  0xD464C414820454E4F204E4F4954434152462049485448534F5241484B2E2E454E4F2054494749442049485448534F5241484B2C2C4445574F4C4C415349442C38344130312D3034413031]

def csvText9 : List Nat := [
  0xD3E44455652455345523C2E2E3E44455652455345523C2C2C44454E47495353414E552C46344130312D3934413031,
  0xD53454E494C204E4F4954415554434E55502049485448534F5241484B2E2E544F44204E4F4954415554434E55502049485448534F5241484B2C2C4445574F4C4C415349442C38354130312D3035413031,
  0xD3E44455652455345523C2E2E3E44455652455345523C2C2C44454E47495353414E552C46354130312D3935413031,
  0xD48544548542052455454454C204E414942415241204854554F5320444C4F2E2E45482052455454454C204E414942415241204854554F5320444C4F2C2C44494C4156502C43374130312D3036413031,
  0xD524F54414349444E4920434952454D554E204E414942415241204854554F5320444C4F2E2E454E4F205245424D554E204E414942415241204854554F5320444C4F2C2C4445574F4C4C415349442C46374130312D4437413031,
  0xD48415A2052455454454C204E414942415241204854524F4E20444C4F2E2E4845482052455454454C204E414942415241204854524F4E20444C4F2C2C44494C4156502C43394130312D3038413031,
  0xD59544E455754205245424D554E204E414942415241204854524F4E20444C4F2E2E454E4F205245424D554E204E414942415241204854524F4E20444C4F2C2C4445574F4C4C415349442C46394130312D4439413031,
  0xD3E44455652455345523C2E2E3E44455652455345523C2C2C44454E47495353414E552C46424130312D3041413031,
  0xD5741572052455454454C204E4145414843494E414D2E2E4850454C412052455454454C204E4145414843494E414D2C2C44494C4156502C37434130312D3043413031,
  0xD4455204E474953204E4145414843494E414D2C2C4445574F4C4C415349442C3843413031,
  0xD574F4C4542204B52414D204E4F49544149564552424241204E4145414843494E414D2E2E4E4959415A2052455454454C204E4145414843494E414D2C2C44494C4156502C36454130312D3943413031,
  0xD3E44455652455345523C2E2E3E44455652455345523C2C2C44454E47495353414E552C41454130312D3745413031,
  0xD52454C4C494620454E494C204E4F4954415554434E5550204E4145414843494E414D2E2E454E4F205245424D554E204E4145414843494E414D2C2C4445574F4C4C415349442C36464130312D4245413031,
  0xD3E44455652455345523C2E2E3E44455652455345523C2C2C44454E47495353414E552C46464130312D3746413031,
  0xD45482052455454454C204E4154534556412E2E412052455454454C204E4154534556412C2C44494C4156502C35334230312D3030423031,
  0xD3E44455652455345523C2E2E3E44455652455345523C2C2C44454E47495353414E552C38334230312D3633423031,
  0xD4E4F4954415554434E55502053474E4952204F5754205245564F20474E495220454E4F20454752414C2E2E4B52414D204E4F49544149564552424241204E4154534556412C2C4445574F4C4C415349442C46334230312D3933423031,
  0xD5741542052455454454C204E41494854524150204C414E4F495450495243534E492E2E4850454C412052455454454C204E41494854524150204C414E4F495450495243534E492C2C44494C4156502C35354230312D3034423031,
  0xD3E44455652455345523C2E2E3E44455652455345523C2C2C44454E47495353414E552C37354230312D3635423031,
  0xD444E4153554F485420454E4F205245424D554E204E41494854524150204C414E4F495450495243534E492E2E454E4F205245424D554E204E41494854524150204C414E4F495450495243534E492C2C4445574F4C4C415349442C46354230312D3835423031,
  0xD5741542052455454454C204956414C484150204C414E4F495450495243534E492E2E4850454C412052455454454C204956414C484150204C414E4F495450495243534E492C2C44494C4156502C32374230312D3036423031,
  0xD3E44455652455345523C2E2E3E44455652455345523C2C2C44454E47495353414E552C37374230312D3337423031,
  0xD444E4153554F485420454E4F205245424D554E204956414C484150204C414E4F495450495243534E492E2E454E4F205245424D554E204956414C484150204C414E4F495450495243534E492C2C4445574F4C4C415349442C46374230312D3837423031,
  0xD5741542052455454454C204956414C484150205245544C4153502E2E4850454C412052455454454C204956414C484150205245544C4153502C2C44494C4156502C31394230312D3038423031,
  0xD3E44455652455345523C2E2E3E44455652455345523C2C2C44454E47495353414E552C38394230312D3239423031,
  0xD544F4420485449572053544F442052554F46204956414C484150205245544C4153502E2E4B52414D204E4F4954434553204956414C484150205245544C4153502C2C4445574F4C4C415349442C43394230312D3939423031,
  0xD3E44455652455345523C2E2E3E44455652455345523C2C2C44454E47495353414E552C38414230312D4439423031,
  0xD444552444E554820454E4F205245424D554E204956414C484150205245544C4153502E2E454E4F205245424D554E204956414C484150205245544C4153502C2C4445574F4C4C415349442C46414230312D3941423031,
  0xD3E44455652455345523C2E2E3E44455652455345523C2C2C44454E47495353414E552C46464230312D3042423031,
  0xD48534142204E4F484B524F2052455454454C2043494B52555420444C4F2E2E41204E4F484B524F2052455454454C2043494B52555420444C4F2C2C44494C4156502C38344330312D3030433031,
  0xD3E44455652455345523C2E2E3E44455652455345523C2C2C44454E47495353414E552C46374330312D3934433031,
  0xD53552052455454454C204C415449504143204E41495241474E554820444C4F2E2E412052455454454C204C415449504143204E41495241474E554820444C4F2C2C4445574F4C4C415349442C32424330312D3038433031,
  0xD3E44455652455345523C2E2E3E44455652455345523C2C2C44454E47495353414E552C46424330312D3342433031,
  0xD53552052455454454C204C4C414D53204E41495241474E554820444C4F2E2E412052455454454C204C4C414D53204E41495241474E554820444C4F2C2C44494C4156502C32464330312D3043433031,
  0xD3E44455652455345523C2E2E3E44455652455345523C2C2C44454E47495353414E552C39464330312D3346433031,
  0xD444E4153554F485420454E4F205245424D554E204E41495241474E554820444C4F2E2E454E4F205245424D554E204E41495241474E554820444C4F2C2C4445574F4C4C415349442C46464330312D4146433031,
  0xD4953534154204E474953204159474E49484F52204946494E41482E2E412052455454454C204159474E49484F52204946494E41482C2C44494C4156502C37324430312D3030443031,
  0xD3E44455652455345523C2E2E3E44455652455345523C2C2C44454E47495353414E552C46324430312D3832443031,
  0xD454E494E205449474944204159474E49484F52204946494E41482E2E4F52455A205449474944204159474E49484F52204946494E41482C2C44494C4156502C39334430312D3033443031,
  0xD3E44455652455345523C2E2E3E44455652455345523C2C2C44454E47495353414E552C46354530312D4133443031,
  0xD534452494854204F5754204E4F49544341524620494D55522E2E454E4F20544947494420494D55522C2C4445574F4C4C415349442C45374530312D3036453031,
  0xD3E44455652455345523C2E2E3E44455652455345523C2C2C44454E47495353414E552C46464530312D4637453031,
  0xD4C494154204C41434954524556204854495720574154204C414E49462052455454454C204E414944474F5320444C4F2E2E4850454C412052455454454C204E414944474F5320444C4F2C2C44494C4156502C43314630312D3030463031,
  0xD464C414820454E4F204E4F495443415246204E414944474F5320444C4F2E2E454E4F205245424D554E204E414944474F5320444C4F2C2C4445574F4C4C415349442C36324630312D4431463031,
  0xD4854454C41442D4E49594120455255544147494C204E414944474F5320444C4F2C2C44494C4156502C3732463031,
  0xD3E44455652455345523C2E2E3E44455652455345523C2C2C44454E47495353414E552C46324630312D3832463031,
  0xD574F4C454220454B4F52545320474E494E49424D4F43204E414944474F532E2E4850454C412052455454454C204E414944474F532C2C44494C4156502C30354630312D3033463031,
  0xD544F44204854495720454C4352494320464C4148204E4F4954415554434E5550204E414944474F532E2E454E4F205245424D554E204E414944474F532C2C4445574F4C4C415349442C39354630312D3135463031,
  0xD3E44455652455345523C2E2E3E44455652455345523C2C2C44454E47495353414E552C46464630312D4135463031,
  0xD414D4152495620494D484152422E2E55444E49424152444E4143204E47495320494D484152422C2C44494C4156502C36343031312D3030303131,
  0xD5355544F4C204E4F4954415554434E555020494D484152422E2E41444E414420494D484152422C2C4445574F4C4C415349442C44343031312D3734303131,
  0xD3E44455652455345523C2E2E3E44455652455345523C2C2C44454E47495353414E552C31353031312D4534303131,
  0xD444E4153554F485420454E4F205245424D554E20494D484152422E2E454E4F205245424D554E20494D484152422C2C4445574F4C4C415349442C35363031312D3235303131,
  0xD454E494E20544947494420494D484152422E2E4F52455A20544947494420494D484152422C2C44494C4156502C46363031312D3636303131,
  0xD3E44455652455345523C2E2E3E44455652455345523C2C2C44454E47495353414E552C45373031312D3037303131,
  0xD41544B554E204E4749532049485449414B2E2E52454E494F4A205245424D554E20494D484152422C2C44494C4156502C41423031312D4637303131,
  0xD41444E414420454C42554F442049485449414B2E2E4E474953204E4F495441495645524242412049485449414B2C2C4445574F4C4C415349442C31433031312D4242303131,
  0xD3E44455652455345523C2E2E3E44455652455345523C2C2C44454E47495353414E552C43433031312D3243303131,
  0xD45564F4241204E474953205245424D554E2049485449414B2C2C4445574F4C4C415349442C4443303131,
  0xD3E44455652455345523C2E2E3E44455652455345523C2C2C44454E47495353414E552C46433031312D4543303131,
  0xD45414D2052455454454C20474E45504D4F532041524F532E2E4841532052455454454C20474E45504D4F532041524F532C2C44494C4156502C38453031312D3044303131,
  0xD3E44455652455345523C2E2E3E44455652455345523C2C2C44454E47495353414E552C46453031312D3945303131,
  0xD454E494E20544947494420474E45504D4F532041524F532E2E4F52455A20544947494420474E45504D4F532041524F532C2C44494C4156502C39463031312D3046303131,
  0xD3E44455652455345523C2E2E3E44455652455345523C2C2C44454E47495353414E552C46463031312D4146303131,
  0xD4141595941414D20414D4B4148432E2E55444E49424152444E4143204E47495320414D4B4148432C2C44494C4156502C34333131312D3030313131,
  0xD3E44455652455345523C2C2C44454E47495353414E552C3533313131,
  0xD454E494E20544947494420414D4B4148432E2E4F52455A20544947494420414D4B4148432C2C44494C4156502C46333131312D3633313131,
  0xD4B52414D204E4F49545345555120414D4B4148432E2E4B52414D204E4F495443455320414D4B4148432C2C4445574F4C4C415349442C33343131312D3034313131,
  0xD4945204E474953204C45574F5620414D4B4148432E2E4141484C2052455454454C20414D4B4148432C2C44494C4156502C36343131312D3434313131,
  0xD3E44455652455345523C2E2E3E44455652455345523C2C2C44454E47495353414E552C46343131312D3734313131,
  0xD41544B554E204E47495320494E414A4148414D2E2E412052455454454C20494E414A4148414D2C2C44494C4156502C33373131312D3035313131,
  0xD4B52414D204E4F495443455320494E414A4148414D2E2E4E474953204E4F4954414956455242424120494E414A4148414D2C2C4445574F4C4C415349442C35373131312D3437313131,
  0xD4952485320455255544147494C20494E414A4148414D2C2C44494C4156502C3637313131,
  0xD3E44455652455345523C2E2E3E44455652455345523C2C2C44454E47495353414E552C46373131312D3737313131,
  0xD4D4F20414441524148532E2E55444E49424152444E4143204E47495320414441524148532C2C44494C4156502C34433131312D3038313131,
  0xD524F5441524150455320414441524148532E2E41444E414420414441524148532C2C4445574F4C4C415349442C38433131312D3543313131,
  0xD4B52414D204C45574F562054524F485320415254584520414441524148532E2E4B52414D204948444E415320414441524148532C2C44494C4156502C43433131312D3943313131,
  0xD4B52414D20415254555320414441524148532C2C4445574F4C4C415349442C4443313131,
  0xD3E44455652455345523C2E2E3E44455652455345523C2C2C44454E47495353414E552C46433131312D4543313131,
  0xD4D414B4520414441524148532E2E4F52455A20544947494420414441524148532C2C44494C4156502C41443131312D3044313131,
  0xD4D414844444953204E47495320414441524148532C2C4445574F4C4C415349442C4244313131,
  0xD454B4F5254534441454820414441524148532C2C44494C4156502C4344313131,
  0xD322D4B52414D204E4F495443455320414441524148532E2E4E474953204E4F495441554E49544E4F4320414441524148532C2C4445574F4C4C415349442C46443131312D4444313131,
  0xD3E44455652455345523C2C2C44454E47495353414E552C3045313131,
  0xD444E4153554F485420454E4F205245424D554E204349414843524120414C41484E49532E2E454E4F205449474944204349414843524120414C41484E49532C2C4445574F4C4C415349442C34463131312D3145313131,
  0xD3E44455652455345523C2E2E3E44455652455345523C2C2C44454E47495353414E552C46463131312D3546313131,
  0xD414A4A2052455454454C20494B4A4F484B2E2E412052455454454C20494B4A4F484B2C2C44494C4156502C31313231312D3030323131,
  0xD3E44455652455345523C2C2C44454E47495353414E552C3231323131,
  0xD414444414853204E47495320494B4A4F484B2E2E41594E2052455454454C20494B4A4F484B2C2C44494C4156502C37333231312D3331323131,
  0xD4E474953204E4F4954414956455242424120494B4A4F484B2E2E41444E414420494B4A4F484B2C2C4445574F4C4C415349442C44333231312D3833323131,
  0xD4E554B5553204E47495320494B4A4F484B2C2C44494C4156502C4533323131,
  0xD3E44455652455345523C2E2E3E44455652455345523C2C2C44454E47495353414E552C46373231312D4633323131,
  0xD41472052455454454C20494E41544C554D2E2E412052455454454C20494E41544C554D2C2C44494C4156502C36383231312D3038323131,
  0xD3E44455652455345523C2C2C44454E47495353414E552C3738323131,
  0xD4148472052455454454C20494E41544C554D2C2C44494C4156502C3838323131,
  0xD3E44455652455345523C2C2C44454E47495353414E552C3938323131,
  0xD414A4A2052455454454C20494E41544C554D2E2E41432052455454454C20494E41544C554D2C2C44494C4156502C44383231312D4138323131,
  0xD3E44455652455345523C2C2C44454E47495353414E552C4538323131,
  0xD41422052455454454C20494E41544C554D2E2E41594E2052455454454C20494E41544C554D2C2C44494C4156502C44393231312D4638323131,
  0xD3E44455652455345523C2C2C44454E47495353414E552C4539323131,
  0xD4148522052455454454C20494E41544C554D2E2E4148422052455454454C20494E41544C554D2C2C44494C4156502C38413231312D4639323131,
  0xD4B52414D204E4F495443455320494E41544C554D2C2C4445574F4C4C415349442C3941323131,
  0xD3E44455652455345523C2E2E3E44455652455345523C2C2C44454E47495353414E552C46413231312D4141323131,
  0xD414D41524956204E4749532049444157414455484B2E2E412052455454454C2049444157414455484B2C2C44494C4156502C41453231312D3042323131,
  0xD3E44455652455345523C2E2E3E44455652455345523C2C2C44454E47495353414E552C46453231312D4245323131,
  0xD454E494E2054494749442049444157414455484B2E2E4F52455A2054494749442049444157414455484B2C2C44494C4156502C39463231312D3046323131,
  0xD3E44455652455345523C2E2E3E44455652455345523C2C2C44454E47495353414E552C46463231312D4146323131,
  0xD41475241534956204E474953204148544E4152472E2E45564F4241204152415653554E4120474E494E49424D4F43204E474953204148544E4152472C2C44494C4156502C33303331312D3030333131,
  0xD3E44455652455345523C2C2C44454E47495353414E552C3430333131,
  0xD4C2043494C41434F562052455454454C204148544E4152472E2E412052455454454C204148544E4152472C2C44494C4156502C43303331312D3530333131,
  0xD3E44455652455345523C2E2E3E44455652455345523C2C2C44454E47495353414E552C45303331312D4430333131,
  0xD49412052455454454C204148544E4152472E2E45452052455454454C204148544E4152472C2C44494C4156502C30313331312D4630333131,
  0xD3E44455652455345523C2E2E3E44455652455345523C2C2C44454E47495353414E552C32313331312D3131333131,
  0xD414E2052455454454C204148544E4152472E2E4F4F2052455454454C204148544E4152472C2C44494C4156502C38323331312D3331333131,
  0xD3E44455652455345523C2C2C44454E47495353414E552C3932333131,
  0xD41522052455454454C204148544E4152472E2E41502052455454454C204148544E4152472C2C44494C4156502C30333331312D4132333131,
  0xD3E44455652455345523C2C2C44454E47495353414E552C3133333131,
  0xD414C4C2052455454454C204148544E4152472E2E414C2052455454454C204148544E4152472C2C44494C4156502C33333331312D3233333131,
  0xD3E44455652455345523C2C2C44454E47495353414E552C3433333131,
  0xD41482052455454454C204148544E4152472E2E41562052455454454C204148544E4152472C2C44494C4156502C39333331312D3533333131,
  0xD3E44455652455345523C2C2C44454E47495353414E552C4133333131,
  0xD52522043494C41434F56204E474953204C45574F56204148544E4152472E2E574F4C45422055444E494220474E494E49424D4F432C2C44494C4156502C34343331312D4233333131,
  0xD3E44455652455345523C2E2E3E44455652455345523C2C2C44454E47495353414E552C36343331312D3534333131,
  0xD4941204E474953204C45574F56204148544E4152472E2E4545204E474953204C45574F56204148544E4152472C2C44494C4156502C38343331312D3734333131,
  0xD3E44455652455345523C2E2E3E44455652455345523C2C2C44454E47495353414E552C41343331312D3934333131,
  0xD414D41524956204E474953204148544E4152472E2E4F4F204E474953204C45574F56204148544E4152472C2C44494C4156502C44343331312D4234333131,
  0xD3E44455652455345523C2E2E3E44455652455345523C2C2C44454E47495353414E552C46343331312D4534333131,
  0xD4D4F204148544E4152472C2C44494C4156502C3035333131,
  0xD3E44455652455345523C2E2E3E44455652455345523C2C2C44454E47495353414E552C36353331312D3135333131,
  0xD4B52414D204854474E454C205541204148544E4152472C2C44494C4156502C3735333131,
  0xD3E44455652455345523C2E2E3E44455652455345523C2C2C44454E47495353414E552C43353331312D3835333131,
  0xD4C4C2043494C41434F56204E474953204C45574F56204148544E4152472E2E4154554C50204E474953204148544E4152472C2C44494C4156502C33363331312D4435333131,
  0xD3E44455652455345523C2E2E3E44455652455345523C2C2C44454E47495353414E552C35363331312D3436333131,
  0xD584953205449474944204148544E41524720474E494E49424D4F432E2E4F52455A205449474944204148544E41524720474E494E49424D4F432C2C44494C4156502C43363331312D3636333131,
  0xD3E44455652455345523C2E2E3E44455652455345523C2C2C44454E47495353414E552C46363331312D4436333131,
  0xD41502052455454454C204148544E41524720474E494E49424D4F432E2E412052455454454C204148544E41524720474E494E49424D4F432C2C44494C4156502C34373331312D3037333131,
  0xD3E44455652455345523C2E2E3E44455652455345523C2C2C44454E47495353414E552C46463331312D3537333131,
  0xD494844444953204157454E2E2E412052455454454C204157454E2C2C44494C4156502C41343431312D3030343131,
  0xD4E474953204E4F49544149564552424241204157454E2E2E41444E4144204157454E2C2C4445574F4C4C415349442C46343431312D4234343131,
  0xD454E494E205449474944204157454E2E2E4F52455A205449474944204157454E2C2C44494C4156502C39353431312D3035343131,
  0xD3E44455652455345523C2C2C44454E47495353414E552C4135343131,
  0xD4B52414D205245444C4F484543414C50204157454E2C2C4445574F4C4C415349442C4235343131,
  0xD3E44455652455345523C2C2C44454E47495353414E552C4335343131,
  0xD4E474953204E4F49545245534E49204157454E2C2C4445574F4C4C415349442C4435343131,
  0xD4B52414D204948444E4153204157454E2C2C44494C4156502C4535343131,
  0xD3E44455652455345523C2E2E3E44455652455345523C2C2C44454E47495353414E552C46373431312D4635343131,
  0xD474E41564720415455485249542E2E494A4E4120415455485249542C2C44494C4156502C35433431312D3038343131,
  0xD4E474953204E4F4954414956455242424120415455485249542C2C4445574F4C4C415349442C3643343131,
  0xD4D4F20415455485249542C2C44494C4156502C3743343131,
  0xD3E44455652455345523C2E2E3E44455652455345523C2C2C44454E47495353414E552C46433431312D3843343131,
  0xD454E494E20544947494420415455485249542E2E4F52455A20544947494420415455485249542C2C44494C4156502C39443431312D3044343131,
  0xD3E44455652455345523C2E2E3E44455652455345523C2C2C44454E47495353414E552C46373531312D4144343131,
  0xD52522043494C41434F56204E474953204C45574F56204D4148444449532E2E412052455454454C204D4148444449532C2C44494C4156502C35423531312D3038353131,
  0xD3E44455652455345523C2E2E3E44455652455345523C2C2C44454E47495353414E552C37423531312D3642353131,
  0xD41544B554E204E474953204D4148444449532E2E45204E474953204C45574F56204D4148444449532C2C44494C4156502C30433531312D3842353131,
  0xD53455255534F4C434E452052554F4620444E412053454C435249432048544957204B52414D204E4F4954434553204D4148444449532E2E4D414844444953204E474953204D4148444449532C2C4445574F4C4C415349442C37443531312D3143353131,
  0xD5555204554414E5245544C41204E474953204C45574F56204D4148444449532E2E49204554414E5245544C4120454C435249432D45455248542052455454454C204D4148444449532C2C44494C4156502C44443531312D3844353131,
  0xD3E44455652455345523C2E2E3E44455652455345523C2C2C44454E47495353414E552C46463531312D4544353131,
  0xD4152444E41434148445241204E4749532049444F4D2E2E412052455454454C2049444F4D2C2C44494C4156502C30343631312D3030363131,
  0xD4E474953204E4F495441495645524242412049444F4D2E2E41444E41442049444F4D2C2C4445574F4C4C415349442C33343631312D3134363131,
  0xD41565548204E4749532049444F4D2C2C44494C4156502C3434363131,
  0xD3E44455652455345523C2E2E3E44455652455345523C2C2C44454E47495353414E552C46343631312D3534363131,
  0xD454E494E2054494749442049444F4D2E2E4F52455A2054494749442049444F4D2C2C44494C4156502C39353631312D3035363131,
  0xD3E44455652455345523C2E2E3E44455652455345523C2C2C44454E47495353414E552C46353631312D4135363131,
  0xD544E454D414E524F20454C42554F442048544957204147524942204C524957532044454E525554204E41494C4F474E4F4D2E2E544E454D414E524F2048544957204147524942204E41494C4F474E4F4D2C2C4445574F4C4C415349442C43363631312D3036363131,
  0xD3E44455652455345523C2E2E3E44455652455345523C2C2C44454E47495353414E552C46373631312D4436363131,
  0xD41544B554E204E4749532049524B41542E2E412052455454454C2049524B41542C2C44494C4156502C37423631312D3038363131,
  0xD3E44455652455345523C2E2E3E44455652455345523C2C2C44454E47495353414E552C46423631312D3842363131,
  0xD454E494E2054494749442049524B41542E2E4F52455A2054494749442049524B41542C2C44494C4156502C39433631312D3043363131,
  0xD3E44455652455345523C2E2E3E44455652455345523C2C2C44454E47495353414E552C46463631312D4143363131,
  0xD4142204554414E5245544C412052455454454C204D4F48412E2E414B2052455454454C204D4F48412C2C44494C4156502C41313731312D3030373131,
  0xD3E44455652455345523C2E2E3E44455652455345523C2C2C44454E47495353414E552C43313731312D4231373131,
  0xD52454C4C494B204E474953204D4F48412E2E414C204C414944454D204E47495320544E414E4F534E4F43204D4F48412C2C44494C4156502C42323731312D4431373131,
  0xD3E44455652455345523C2E2E3E44455652455345523C2C2C44454E47495353414E552C46323731312D4332373131,
  0xD454E494E205449474944204D4F48412E2E4F52455A205449474944204D4F48412C2C44494C4156502C39333731312D3033373131,
  0xD4956204C4F424D5953204D4F48412E2E4E4554205245424D554E204D4F48412C2C4445574F4C4C415349442C46333731312D4133373131,
  0xD3E44455652455345523C2E2E3E44455652455345523C2C2C44454E47495353414E552C46463731312D3034373131,
  0xD41544B554E204E474953204152474F442E2E412052455454454C204152474F442C2C44494C4156502C41333831312D3030383131,
  0xD4E474953204E4F49544149564552424241204152474F442C2C4445574F4C4C415349442C4233383131,
  0xD3E44455652455345523C2E2E3E44455652455345523C2C2C44454E47495353414E552C46393831312D4333383131,
  0xD4F5949562052455454454C204C415449504143204954494320474E415241572E2E4141474E2052455454454C204C415449504143204954494320474E415241572C2C4445574F4C4C415349442C46423831312D3041383131,
  0xD454E494E205449474944204954494320474E415241572E2E4141474E2052455454454C204C4C414D53204954494320474E415241572C2C44494C4156502C39453831312D3043383131,
  0xD5954454E494E205245424D554E204954494320474E415241572E2E4E4554205245424D554E204954494320474E415241572C2C4445574F4C4C415349442C32463831312D4145383131,
  0xD3E44455652455345523C2E2E3E44455652455345523C2C2C44454E47495353414E552C45463831312D3346383131,
  0xD4D4F204954494320474E415241572C2C44494C4156502C4646383131,
  0xD3E44455652455345523C2E2E3E44455652455345523C2C2C44454E47495353414E552C46463931312D3030393131,
  0xD41562052455454454C204C414E49462D52455453554C43204552415551532052415A4142414E415A2E2E412052455454454C204552415551532052415A4142414E415A2C2C44494C4156502C45334131312D3030413131,
  0xD4B52414D20444145482044454E494C2D454C42554F4420474E49534F4C43204552415551532052415A4142414E415A2E2E4B52414D2044414548204C414954494E49204552415551532052415A4142414E415A2C2C4445574F4C4C415349442C36344131312D4633413131,
  0xD52454E494F4A425553204552415551532052415A4142414E415A2C2C44494C4156502C3734413131,
  0xD3E44455652455345523C2E2E3E44455652455345523C2C2C44454E47495353414E552C46344131312D3834413131,
  0xD4153534B2052455454454C204F424D4F594F532E2E412052455454454C204F424D4F594F532C2C44494C4156502C33384131312D3035413131,
  0xD3E44455652455345523C2E2E3E44455652455345523C2C2C44454E47495353414E552C35384131312D3438413131,
  0xD52454E494F4A425553204F424D4F594F532E2E41522052455454454C204C414954494E492D52455453554C43204F424D4F594F532C2C44494C4156502C39394131312D3638413131,
  0xD4441485320454C42554F44204B52414D204F424D4F594F532E2E4745485354204B52414D204F424D4F594F532C2C4445574F4C4C415349442C43394131312D4139413131,
  0xD4154554C50204B52414D204F424D4F594F532C2C44494C4156502C4439413131,
  0xD322D4B52414D204C414E494D524554204F424D4F594F532E2E454D414C4620454C5049525420444E41204E555320444E41204E4F4F4D2048544957204B52414D2044414548204F424D4F594F532C2C4445574F4C4C415349442C32414131312D4539413131,
  0xD3E44455652455345523C2E2E3E44455652455345523C2C2C44454E47495353414E552C46424131312D3341413131,
  0xD4C414E494620504F5453204C4154544F4C4720554148204E4943205541502E2E41502052455454454C20554148204E4943205541502C2C44494C4156502C38464131312D3043413131,
  0xD3E44455652455345523C2E2E3E44455652455345523C2C2C44454E47495353414E552C46464231312D3946413131,
  0xD4C2043494C41434F562052455454454C20494B55534B494148422E2E412052455454454C20494B55534B494148422C2C44494C4156502C38304331312D3030433131,
  0xD3E44455652455345523C2C2C44454E47495353414E552C3930433131,
  0xD4C2043494C41434F56204E474953204C45574F5620494B55534B494148422E2E452052455454454C20494B55534B494148422C2C44494C4156502C36334331312D4130433131,
  0xD3E44455652455345523C2C2C44454E47495353414E552C3733433131,
  0xD4148415247415641204E47495320494B55534B494148422E2E45204E474953204C45574F5620494B55534B494148422C2C44494C4156502C30344331312D3833433131,
  0xD322D52454C4C49462050414720494B55534B494148422E2E41444E414420494B55534B494148422C2C4445574F4C4C415349442C35344331312D3134433131,
  0xD3E44455652455345523C2E2E3E44455652455345523C2C2C44454E47495353414E552C46344331312D3634433131,
  0xD454E494E20544947494420494B55534B494148422E2E4F52455A20544947494420494B55534B494148422C2C44494C4156502C39354331312D3035433131,
  0xD4B52414D2054494E552053444552444E554820494B55534B494148422E2E454E4F205245424D554E20494B55534B494148422C2C4445574F4C4C415349442C43364331312D4135433131,
  0xD3E44455652455345523C2E2E3E44455652455345523C2C2C44454E47495353414E552C46364331312D4436433131,
  0xD44414853204B52414D204E45484352414D2E2E4B52414D2044414548204E45484352414D2C2C4445574F4C4C415349442C31374331312D3037433131,
  0xD412052455454454C204E45484352414D2E2E414B2052455454454C204E45484352414D2C2C44494C4156502C46384331312D3237433131,
  0xD3E44455652455345523C2E2E3E44455652455345523C2C2C44454E47495353414E552C31394331312D3039433131,
  0xD415A2052455454454C2044454E494F4A425553204E45484352414D2E2E414B2052455454454C2044454E494F4A425553204E45484352414D2C2C44494C4156502C37414331312D3239433131,
  0xD3E44455652455345523C2C2C44454E47495353414E552C3841433131,
  0xD55444E49424152444E4143204E474953204E45484352414D2E2E41592052455454454C2044454E494F4A425553204E45484352414D2C2C44494C4156502C36424331312D3941433131,
  0xD3E44455652455345523C2E2E3E44455652455345523C2C2C44454E47495353414E552C46464331312D3742433131,
  0xD452052455454454C2049444E4F47204D41524153414D2E2E412052455454454C2049444E4F47204D41524153414D2C2C44494C4156502C36304431312D3030443131,
  0xD3E44455652455345523C2C2C44454E47495353414E552C3730443131,
  0xD4F2052455454454C2049444E4F47204D41524153414D2E2E49412052455454454C2049444E4F47204D41524153414D2C2C44494C4156502C39304431312D3830443131,
  0xD3E44455652455345523C2C2C44454E47495353414E552C4130443131,
  0xD522043494C41434F56204E474953204C45574F562049444E4F47204D41524153414D2E2E55412052455454454C2049444E4F47204D41524153414D2C2C44494C4156502C36334431312D4230443131,
  0xD3E44455652455345523C2E2E3E44455652455345523C2C2C44454E47495353414E552C39334431312D3733443131,
  0xD45204E474953204C45574F562049444E4F47204D41524153414D2C2C44494C4156502C4133443131,
  0xD3E44455652455345523C2C2C44454E47495353414E552C4233443131,
  0xD4F204E474953204C45574F562049444E4F47204D41524153414D2E2E4941204E474953204C45574F562049444E4F47204D41524153414D2C2C44494C4156502C44334431312D4333443131,
  0xD3E44455652455345523C2C2C44454E47495353414E552C4533443131,
  0xD4152414B2D41522049444E4F47204D41524153414D2E2E5541204E474953204C45574F562049444E4F47204D41524153414D2C2C44494C4156502C37344431312D4633443131,
  0xD3E44455652455345523C2E2E3E44455652455345523C2C2C44454E47495353414E552C46344431312D3834443131,
  0xD454E494E2054494749442049444E4F47204D41524153414D2E2E4F52455A2054494749442049444E4F47204D41524153414D2C2C44494C4156502C39354431312D3035443131,
  0xD3E44455652455345523C2E2E3E44455652455345523C2C2C44454E47495353414E552C46354431312D4135443131,
  0xD55552052455454454C2049444E4F4720414C414A4E55472E2E412052455454454C2049444E4F4720414C414A4E55472C2C44494C4156502C35364431312D3036443131,
  0xD3E44455652455345523C2C2C44454E47495353414E552C3636443131,
  0xD49412052455454454C2049444E4F4720414C414A4E55472E2E45452052455454454C2049444E4F4720414C414A4E55472C2C44494C4156502C38364431312D3736443131,
  0xD3E44455652455345523C2C2C44454E47495353414E552C3936443131,
  0xD5555204E474953204C45574F562049444E4F4720414C414A4E55472E2E4F4F2052455454454C2049444E4F4720414C414A4E55472C2C44494C4156502C45384431312D4136443131,
  0xD3E44455652455345523C2C2C44454E47495353414E552C4638443131,
  0xD4941204E474953204C45574F562049444E4F4720414C414A4E55472E2E4545204E474953204C45574F562049444E4F4720414C414A4E55472C2C44494C4156502C31394431312D3039443131,
  0xD3E44455652455345523C2C2C44454E47495353414E552C3239443131,
  0xD4D4F2049444E4F4720414C414A4E55472E2E4F4F204E474953204C45574F562049444E4F4720414C414A4E55472C2C44494C4156502C38394431312D3339443131,
  0xD3E44455652455345523C2E2E3E44455652455345523C2C2C44454E47495353414E552C46394431312D3939443131,
  0xD454E494E2054494749442049444E4F4720414C414A4E55472E2E4F52455A2054494749442049444E4F4720414C414A4E55472C2C44494C4156502C39414431312D3041443131,
  0xD3E44455652455345523C2E2E3E44455652455345523C2C2C44454E47495353414E552C46444531312D4141443131,
  0xD4F204E474953204C45574F5620524153414B414D2E2E414B2052455454454C20524153414B414D2C2C44494C4156502C36464531312D3045453131,
  0xD4E4F495443455320464F20444E4520524153414B414D2E2E474E41424D495353415020524153414B414D2C2C4445574F4C4C415349442C38464531312D3746453131,
  0xD3E44455652455345523C2E2E3E44455652455345523C2C2C44454E47495353414E552C46464631312D3946453131,
  0xD552055204E474953204D524F4649454E55432E2E41204E474953204D524F4649454E55432C2C44494C4156502C39393332312D3030303231,
  0xD3E44455652455345523C2E2E3E44455652455345523C2C2C44454E47495353414E552C46463332312D4139333231,
  0xD4D524F4620544E4149524156205520454E494E204E47495320434952454D554E204D524F4649454E55432E2E485341204F5754204E47495320434952454D554E204D524F4649454E55432C2C4445574F4C4C415349442C45363432312D3030343231,
  0xD3E44455652455345523C2C2C44454E47495353414E552C4636343231,
  0xD4E4F4C4F4344415551204C414E4F47414944204E474953204E4F4954415554434E5550204D524F4649454E55432E2E524544495649442044524F57204E4149525953534120444C4F204E474953204E4F4954415554434E5550204D524F4649454E55432C2C4445574F4C4C415349442C34373432312D3037343231]

def csvText10 : List Nat := [
  0xD3E44455652455345523C2E2E3E44455652455345523C2C2C44454E47495353414E552C46373432312D3537343231,
  0xD554E455420485349442045455248542053454D49542035555A204E474953204D524F4649454E55432E2E554E4554204E554E2053454D4954204241204E474953204D524F4649454E55432C2C44494C4156502C33343532312D3038343231,
  0xD3E44455652455345523C2E2E3E44455652455345523C2C2C44454E47495353414E552C46464632312D3434353231,
  0xD3233304141204850594C474F52454948204E414954505947452E2E31303041204850594C474F52454948204E414954505947452C2C44494C4156502C45323433312D3030303331,
  0xD3E44455652455345523C2E2E3E44455652455345523C2C2C44454E47495353414E552C46463334312D4632343331,
  0xD30333541204850594C474F52454948204E41494C4F54414E412E2E31303041204850594C474F52454948204E41494C4F54414E412C2C44494C4156502C36343634312D3030343431,
  0xD3E44455652455345523C2E2E3E44455652455345523C2C2C44454E47495353414E552C46463736312D3734363431,
  0xD5145555620462D45534148502052455454454C204D554D41422E2E4E4F464D2045554B474E20412D45534148502052455454454C204D554D41422C2C44494C4156502C38334136312D3030383631,
  0xD3E44455652455345523C2E2E3E44455652455345523C2C2C44454E47495353414E552C46334136312D3933413631,
  0xD4B45542052455454454C204F524D2E2E41542052455454454C204F524D2C2C44494C4156502C45354136312D3034413631,
  0xD3E44455652455345523C2C2C44454E47495353414E552C4635413631,
  0xD454E494E205449474944204F524D2E2E4F52455A205449474944204F524D2C2C44494C4156502C39364136312D3036413631,
  0xD3E44455652455345523C2E2E3E44455652455345523C2C2C44454E47495353414E552C44364136312D4136413631,
  0xD41444E414420454C42554F44204F524D2E2E41444E4144204F524D2C2C4445574F4C4C415349442C46364136312D4536413631,
  0xD3E44455652455345523C2E2E3E44455652455345523C2C2C44454E47495353414E552C46434136312D3037413631,
  0xD492052455454454C204841562041535341422E2E494E4E452052455454454C204841562041535341422C2C44494C4156502C44454136312D3044413631,
  0xD3E44455652455345523C2E2E3E44455652455345523C2C2C44454E47495353414E552C46454136312D4545413631,
  0xD454E4F5420574F4C2D4847494820474E494E49424D4F43204841562041535341422E2E454E4F54204847494820474E494E49424D4F43204841562041535341422C2C44494C4156502C34464136312D3046413631,
  0xD504F5453204C4C5546204841562041535341422C2C4445574F4C4C415349442C3546413631,
  0xD3E44455652455345523C2E2E3E44455652455345523C2C2C44454E47495353414E552C46464136312D3646413631,
  0xD4D554154204D4943204B52414D20474E4F4D48204857414841502E2E4245454B204C45574F5620474E4F4D48204857414841502C2C44494C4156502C36334236312D3030423631,
  0xD42494146204D45455958204E47495320474E4F4D48204857414841502E2E4D4F485420534F56204E47495320474E4F4D48204857414841502C2C4445574F4C4C415349442C46334236312D3733423631,
  0xD4D4159204249204E47495320474E4F4D48204857414841502E2E5645455320534F56204E47495320474E4F4D48204857414841502C2C44494C4156502C33344236312D3034423631,
  0xD474F5220564F5354204D4943204E47495320474E4F4D48204857414841502E2E53554158204E47495320474E4F4D48204857414841502C2C4445574F4C4C415349442C35344236312D3434423631,
  0xD3E44455652455345523C2E2E3E44455652455345523C2C2C44454E47495353414E552C46344236312D3634423631,
  0xD454E494E20544947494420474E4F4D48204857414841502E2E4F52455A20544947494420474E4F4D48204857414841502C2C44494C4156502C39354236312D3035423631,
  0xD3E44455652455345523C2C2C44454E47495353414E552C4135423631,
  0xD534E4F494C4C495254205245424D554E20474E4F4D48204857414841502E2E534E4554205245424D554E20474E4F4D48204857414841502C2C4445574F4C4C415349442C31364236312D4235423631,
  0xD3E44455652455345523C2C2C44454E47495353414E552C3236423631,
  0xD534F54205345524E204D4943204E47495320474E4F4D48204857414841502E2E42554C20534F56204E47495320474E4F4D48204857414841502C2C44494C4156502C37374236312D3336423631,
  0xD3E44455652455345523C2E2E3E44455652455345523C2C2C44454E47495353414E552C43374236312D3837423631,
  0xD4A5756204E474953204E414C4320474E4F4D48204857414841502E2E4A4545485354204E474953204E414C4320474E4F4D48204857414841502C2C44494C4156502C46384236312D4437423631,
  0xD3E44455652455345523C2E2E3E44455652455345523C2C2C44454E47495353414E552C46334536312D3039423631,
  0xD592052455454454C204C415449504143204E4952444941464544454D2E2E4D2052455454454C204C415449504143204E4952444941464544454D2C2C4445574F4C4C415349442C46354536312D3034453631,
  0xD592052455454454C204C4C414D53204E4952444941464544454D2E2E4D2052455454454C204C4C414D53204E4952444941464544454D2C2C44494C4156502C46374536312D3036453631,
  0xD484F204E4F4954414D414C435845204E4952444941464544454D2E2E4F52455A205449474944204E4952444941464544454D2C2C4445574F4C4C415349442C41394536312D3038453631,
  0xD3E44455652455345523C2E2E3E44455652455345523C2C2C44454E47495353414E552C46464536312D4239453631,
  0xD4148482052455454454C204F41494D2E2E41502052455454454C204F41494D2C2C44494C4156502C34344636312D3030463631,
  0xD3E44455652455345523C2E2E3E44455652455345523C2C2C44454E47495353414E552C46344636312D3534463631,
  0xD474E204E474953204C45574F56204F41494D2E2E4E4F4954415A494C4153414E2052455454454C204F41494D2C2C44494C4156502C45374636312D3035463631,
  0xD3E44455652455345523C2E2E3E44455652455345523C2C2C44454E47495353414E552C45384636312D4637463631,
  0xD382D454E4F542044454D524F4645522052455454454C204F41494D2E2E544847495220454E4F54204F41494D2C2C44494C4156502C46394636312D4638463631,
  0xD3E44455652455345523C2E2E3E44455652455345523C2C2C44454E47495353414E552C46444636312D3041463631,
  0xD4B52414D204E4F4954415245544920554853554E2E2E4B52414D204E4F49544152455449205455474E41542C2C44494C4156502C31454636312D3045463631,
  0xD3E44455652455345523C2E2E3E44455652455345523C2C2C44454E47495353414E552C46464636312D3245463631,
  0xD223E5453414C202C48504152474F454449205455474E41543C2E2E3E5453524946202C48504152474F454449205455474E41543C222C2C44494C4156502C31463738312D3030303731,
  0xD3E44455652455345523C2E2E3E44455652455345523C2C2C44454E47495353414E552C46463738312D3246373831,
  0xD3535372D544E454E4F504D4F43205455474E41542E2E3130302D544E454E4F504D4F43205455474E41542C2C44494C4156502C32464138312D3030383831,
  0xD3E44455652455345523C2E2E3E44455652455345523C2C2C44454E47495353414E552C46464641312D3346413831,
  0xD322D4F4D2D554D2D4E2052455454454C20414E41474941544E45482E2E4520434941484352412052455454454C20414E414B4154414B2C2C44494C4156502C45313142312D3030304231,
  0xD3E44455652455345523C2E2E3E44455652455345523C2C2C44454E47495353414E552C46363142312D4631314231,
  0xD42463242312D52455443415241484320554853554E2E2E30373142312D52455443415241484320554853554E2C2C44494C4156502C42463242312D3037314231,
  0xD3E44455652455345523C2E2E3E44455652455345523C2C2C44454E47495353414E552C46464242312D4346324231,
  0xD4D2043494C41434F562052455454454C204E41594F4C5055442E2E482052455454454C204E41594F4C5055442C2C44494C4156502C41364342312D3030434231,
  0xD3E44455652455345523C2E2E3E44455652455345523C2C2C44454E47495353414E552C46364342312D4236434231,
  0xD4B4F4F4820544E45474E4154204445484341545441205849464641204E41594F4C5055442E2E544E41434553204C41544E4F5A49524F48205446454C205849464641204E41594F4C5055442C2C44494C4156502C43374342312D3037434231,
  0xD3E44455652455345523C2E2E3E44455652455345523C2C2C44454E47495353414E552C46374342312D4437434231,
  0xD4C414349545245562048474948205849464641204E41594F4C5055442E2E45545543412048474948205849464641204E41594F4C5055442C2C44494C4156502C38384342312D3038434231,
  0xD3E44455652455345523C2E2E3E44455652455345523C2C2C44454E47495353414E552C46384342312D3938434231,
  0xD574F52524120574F4C205849464641204E41594F4C5055442E2E455455434120574F4C205849464641204E41594F4C5055442C2C44494C4156502C39394342312D3039434231,
  0xD3E44455652455345523C2E2E3E44455652455345523C2C2C44454E47495353414E552C42394342312D4139434231,
  0xD53534F52432048544957204F204E474953204E41594F4C5055442C2C4445574F4C4C415349442C4339434231,
  0xD4B52414D20454C42554F44204E41594F4C5055442E2E524F5443454C45532052455454454C204B43494854204E41594F4C5055442C2C44494C4156502C45394342312D4439434231,
  0xD504554532050552054414D524F4620444E414854524F48532E2E504F5453204C4C5546204B4F4F4E494843204E4F4954415554434E5550204E41594F4C5055442C2C4445574F4C4C415349442C33414342312D4639434231,
  0xD3E44455652455345523C2E2E3E44455652455345523C2C2C44454E47495353414E552C46464643312D3441434231,
  0xD4F54414B204F454E204E4F47524F47204C4F424D5953204C41434953554D20454E49544E415A59422E2E494C495350204C4F424D5953204C41434953554D20454E49544E415A59422C2C4445574F4C4C415349442C35463044312D3030304431,
  0xD3E44455652455345523C2E2E3E44455652455345523C2C2C44454E47495353414E552C46463044312D3646304431,
  0xD322D46454C43204D555244204C4F424D5953204C41434953554D2E2E454E494C52414220454C474E4953204C4F424D5953204C41434953554D2C2C4445574F4C4C415349442C36323144312D3030314431,
  0xD3E44455652455345523C2E2E3E44455652455345523C2C2C44454E47495353414E552C38323144312D3732314431,
  0xD4E4749532054414C46204E415645494B204C4F424D5953204C41434953554D2E2E54534552204552555341454D20454C5049544C554D204C4F424D5953204C41434953554D2C2C4445574F4C4C415349442C38453144312D3932314431,
  0xD3E44455652455345523C2E2E3E44455652455345523C2C2C44454E47495353414E552C46463144312D3945314431,
  0xD414D4D49454C204C41434953554D204B454552472E2E312D4C4F424D5953204E4F495441544F4E204C41434F56204B454552472C2C4445574F4C4C415349442C35343244312D3030324431,
  0xD3E44455652455345523C2E2E3E44455652455345523C2C2C44454E47495353414E552C46443244312D3634324431,
  0xD4E454554454E494E204C4152454D554E204E4159414D2E2E4F52455A204C4152454D554E204E4159414D2C2C4445574F4C4C415349442C33463244312D3045324431,
  0xD3E44455652455345523C2E2E3E44455652455345523C2C2C44454E47495353414E552C46463244312D3446324431,
  0xD474E49524554534F4620524F46204D41524741525445542E2E485452414520524F46204D4152474F4E4F4D2C2C4445574F4C4C415349442C36353344312D3030334431,
  0xD3E44455652455345523C2E2E3E44455652455345523C2C2C44454E47495353414E552C46353344312D3735334431,
  0xD45564946204B52414D20594C4C41542E2E454E4F2054494749442054494E5520444F5220474E49544E554F432C2C4445574F4C4C415349442C38373344312D3036334431,
  0xD3E44455652455345523C2E2E3E44455652455345523C2C2C44454E47495353414E552C46463344312D3937334431,
  0xD47204C4C414D532043494C415449204C41434954414D454854414D2E2E41204C41544950414320444C4F42204C41434954414D454854414D2C2C4445574F4C4C415349442C34353444312D3030344431,
  0xD3E44455652455345523C2C2C44454E47495353414E552C3535344431,
  0xD41204C41544950414320545049524353204C41434954414D454854414D2E2E49204C4C414D532043494C415449204C41434954414D454854414D2C2C4445574F4C4C415349442C43393444312D3635344431,
  0xD3E44455652455345523C2C2C44454E47495353414E552C4439344431,
  0xD44204C41544950414320545049524353204C41434954414D454854414D2E2E43204C41544950414320545049524353204C41434954414D454854414D2C2C4445574F4C4C415349442C46393444312D4539344431,
  0xD3E44455652455345523C2E2E3E44455652455345523C2C2C44454E47495353414E552C31413444312D3041344431,
  0xD47204C41544950414320545049524353204C41434954414D454854414D2C2C4445574F4C4C415349442C3241344431,
  0xD3E44455652455345523C2E2E3E44455652455345523C2C2C44454E47495353414E552C34413444312D3341344431,
  0xD4B204C41544950414320545049524353204C41434954414D454854414D2E2E4A204C41544950414320545049524353204C41434954414D454854414D2C2C4445574F4C4C415349442C36413444312D3541344431,
  0xD3E44455652455345523C2E2E3E44455652455345523C2C2C44454E47495353414E552C38413444312D3741344431,
  0xD51204C41544950414320545049524353204C41434954414D454854414D2E2E4E204C41544950414320545049524353204C41434954414D454854414D2C2C4445574F4C4C415349442C43413444312D3941344431,
  0xD3E44455652455345523C2C2C44454E47495353414E552C4441344431,
  0xD44204C4C414D5320545049524353204C41434954414D454854414D2E2E53204C41544950414320545049524353204C41434954414D454854414D2C2C4445574F4C4C415349442C39423444312D4541344431,
  0xD3E44455652455345523C2C2C44454E47495353414E552C4142344431,
  0xD46204C4C414D5320545049524353204C41434954414D454854414D2C2C4445574F4C4C415349442C4242344431,
  0xD3E44455652455345523C2C2C44454E47495353414E552C4342344431,
  0xD4E204C4C414D5320545049524353204C41434954414D454854414D2E2E48204C4C414D5320545049524353204C41434954414D454854414D2C2C4445574F4C4C415349442C33433444312D4442344431,
  0xD3E44455652455345523C2C2C44454E47495353414E552C3443344431,
  0xD42204C415449504143205255544B415246204C41434954414D454854414D2E2E50204C4C414D5320545049524353204C41434954414D454854414D2C2C4445574F4C4C415349442C35303544312D3543344431,
  0xD3E44455652455345523C2C2C44454E47495353414E552C3630354431,
  0xD47204C415449504143205255544B415246204C41434954414D454854414D2E2E44204C415449504143205255544B415246204C41434954414D454854414D2C2C4445574F4C4C415349442C41303544312D3730354431,
  0xD3E44455652455345523C2E2E3E44455652455345523C2C2C44454E47495353414E552C43303544312D4230354431,
  0xD51204C415449504143205255544B415246204C41434954414D454854414D2E2E4A204C415449504143205255544B415246204C41434954414D454854414D2C2C4445574F4C4C415349442C34313544312D4430354431,
  0xD3E44455652455345523C2C2C44454E47495353414E552C3531354431,
  0xD59204C415449504143205255544B415246204C41434954414D454854414D2E2E53204C415449504143205255544B415246204C41434954414D454854414D2C2C4445574F4C4C415349442C43313544312D3631354431,
  0xD3E44455652455345523C2C2C44454E47495353414E552C4431354431,
  0xD42204C415449504143204B43555254532D454C42554F44204C41434954414D454854414D2E2E41204C4C414D53205255544B415246204C41434954414D454854414D2C2C4445574F4C4C415349442C39333544312D4531354431,
  0xD3E44455652455345523C2C2C44454E47495353414E552C4133354431,
  0xD47204C415449504143204B43555254532D454C42554F44204C41434954414D454854414D2E2E44204C415449504143204B43555254532D454C42554F44204C41434954414D454854414D2C2C4445574F4C4C415349442C45333544312D4233354431,
  0xD3E44455652455345523C2C2C44454E47495353414E552C4633354431,
  0xD4D204C415449504143204B43555254532D454C42554F44204C41434954414D454854414D2E2E49204C415449504143204B43555254532D454C42554F44204C41434954414D454854414D2C2C4445574F4C4C415349442C34343544312D3034354431,
  0xD3E44455652455345523C2C2C44454E47495353414E552C3534354431,
  0xD4F204C415449504143204B43555254532D454C42554F44204C41434954414D454854414D2C2C4445574F4C4C415349442C3634354431,
  0xD3E44455652455345523C2E2E3E44455652455345523C2C2C44454E47495353414E552C39343544312D3734354431,
  0xD59204C415449504143204B43555254532D454C42554F44204C41434954414D454854414D2E2E53204C415449504143204B43555254532D454C42554F44204C41434954414D454854414D2C2C4445574F4C4C415349442C30353544312D4134354431,
  0xD3E44455652455345523C2C2C44454E47495353414E552C3135354431,
  0xD4A205353454C544F44204C4C414D532043494C415449204C41434954414D454854414D2E2E41204C4C414D53204B43555254532D454C42554F44204C41434954414D454854414D2C2C4445574F4C4C415349442C35413644312D3235354431,
  0xD3E44455652455345523C2E2E3E44455652455345523C2C2C44454E47495353414E552C37413644312D3641364431,
  0xD414D4D41474944204C4C414D5320444C4F42204C41434954414D454854414D2E2E4148504C41204C41544950414320444C4F42204C41434954414D454854414D2C2C4445574F4C4C415349442C42433744312D3841364431,
  0xD3E44455652455345523C2E2E3E44455652455345523C2C2C44454E47495353414E552C44433744312D4343374431,
  0xD4441454820474E49544952574E4749532E2E4F52455A20544947494420444C4F42204C41434954414D454854414D2C2C4445574F4C4C415349442C46463944312D4543374431,
  0xD4E4920474E494B4355532052494120474E49544952574E4749532E2E4D4952204441454820474E49544952574E4749532C2C44494C4156502C36334144312D3030414431,
  0xD454C414858452048544145524220474E49544952574E4749532E2E534E4F495441544F52204C4C414D5320574F4C422052494120474E49544952574E4749532C2C4445574F4C4C415349442C41334144312D3733414431,
  0xD544E454D45544943584520474E49544952574E4749532E2E4C41525455454E204445534F4C43204854554F4D20474E49544952574E4749532C2C44494C4156502C43364144312D4233414431,
  0xD474E49545349575420454E414C50524F4F4C462D4F53524F5420474E49544952574E4749532E2E454E49505320504948205245444C554F485320474E49544952574E4749532C2C4445574F4C4C415349442C34374144312D4436414431,
  0xD53544E494F4A20504948204D4F524620474E49544C49542059444F4220524550505520474E49544952574E4749532C2C44494C4156502C3537414431,
  0xD4854504544204E4F495441434F4C20474E49544952574E4749532E2E4E4F4954414E49424D4F4320424D494C20474E49544952574E4749532C2C4445574F4C4C415349442C33384144312D3637414431,
  0xD4B43454E2044414548204E4F495441434F4C20474E49544952574E4749532C2C44494C4156502C3438414431,
  0xD5349534548544E4552415020474E49544952574E4749532E2E4F53524F54204E4F495441434F4C20474E49544952574E4749532C2C4445574F4C4C415349442C42384144312D3538414431,
  0xD3E44455652455345523C2E2E3E44455652455345523C2C2C44454E47495353414E552C41394144312D4338414431,
  0xD362D5245494649444F4D204C4C494620474E49544952574E4749532E2E322D5245494649444F4D204C4C494620474E49544952574E4749532C2C44494C4156502C46394144312D4239414431,
  0xD3E44455652455345523C2C2C44454E47495353414E552C3041414431,
  0xD36312D5245494649444F4D204E4F495441544F5220474E49544952574E4749532E2E322D5245494649444F4D204E4F495441544F5220474E49544952574E4749532C2C44494C4156502C46414144312D3141414431,
  0xD3E44455652455345523C2E2E3E44455652455345523C2C2C44454E47495353414E552C46464644312D3042414431,
  0xD4554455649485A2052455454454C20434954494C4F47414C4720474E494E49424D4F432E2E555A412052455454454C20434954494C4F47414C4720474E494E49424D4F432C2C44494C4156502C36303045312D3030304531,
  0xD3E44455652455345523C2C2C44454E47495353414E552C3730304531,
  0xD555245482052455454454C20434954494C4F47414C4720474E494E49424D4F432E2E414A4C4D455A2052455454454C20434954494C4F47414C4720474E494E49424D4F432C2C44494C4156502C38313045312D3830304531,
  0xD3E44455652455345523C2E2E3E44455652455345523C2C2C44454E47495353414E552C41313045312D3931304531,
  0xD495441592052455454454C20434954494C4F47414C4720474E494E49424D4F432E2E415448532052455454454C20434954494C4F47414C4720474E494E49424D4F432C2C44494C4156502C31323045312D4231304531,
  0xD3E44455652455345523C2C2C44454E47495353414E552C3232304531,
  0xD535559204C4C414D532052455454454C20434954494C4F47414C4720474E494E49424D4F432E2E55592052455454454C20434954494C4F47414C4720474E494E49424D4F432C2C44494C4156502C34323045312D3332304531,
  0xD3E44455652455345523C2C2C44454E47495353414E552C3532304531,
  0xD415449462052455454454C20434954494C4F47414C4720474E494E49424D4F432E2E4F592052455454454C20434954494C4F47414C4720474E494E49424D4F432C2C44494C4156502C41323045312D3632304531,
  0xD3E44455652455345523C2E2E3E44455652455345523C2C2C44454E47495353414E552C46463745312D4232304531,
  0xD4E4F594E203036304D20454C42414C4C59532049554B414B494B2045444E454D2E2E494B203130304D20454C42414C4C59532049554B414B494B2045444E454D2C2C44494C4156502C34433845312D3030384531,
  0xD3E44455652455345523C2E2E3E44455652455345523C2C2C44454E47495353414E552C36433845312D3543384531,
  0xD454E494E2054494749442049554B414B494B2045444E454D2E2E454E4F2054494749442049554B414B494B2045444E454D2C2C4445574F4C4C415349442C46433845312D3743384531,
  0xD534E4F494C4C494D205245424D554E20474E494E49424D4F432049554B414B494B2045444E454D2E2E534E454554205245424D554E20474E494E49424D4F432049554B414B494B2045444E454D2C2C44494C4156502C36443845312D3044384531,
  0xD3E44455652455345523C2E2E3E44455652455345523C2C2C44454E47495353414E552C46463845312D3744384531,
  0xD4148532052455454454C204C415449504143204D414C44412E2E46494C412052455454454C204C415449504143204D414C44412C2C4445574F4C4C415349442C31323945312D3030394531,
  0xD41544B554E204D414C44412E2E46494C412052455454454C204C4C414D53204D414C44412C2C44494C4156502C41343945312D3232394531,
  0xD3E44455652455345523C2E2E3E44455652455345523C2C2C44454E47495353414E552C46343945312D4234394531,
  0xD454E494E205449474944204D414C44412E2E4F52455A205449474944204D414C44412C2C44494C4156502C39353945312D3035394531,
  0xD3E44455652455345523C2E2E3E44455652455345523C2C2C44454E47495353414E552C44353945312D4135394531,
  0xD4B52414D204E4F495453455551204C414954494E49204D414C44412E2E4B52414D204E4F4954414D414C435845204C414954494E49204D414C44412C2C4445574F4C4C415349442C46353945312D4535394531,
  0xD3E44455652455345523C2E2E3E44455652455345523C2C2C44454E47495353414E552C30374345312D3036394531,
  0xD4B52414D20484B414C204554414E5245544C41205141594953204349444E492E2E454E4F205245424D554E205141594953204349444E492C2C4445574F4C4C415349442C34424345312D3137434531,
  0xD3E44455652455345523C2E2E3E44455652455345523C2C2C44454E47495353414E552C46464445312D3542434531,
  0xD4C4144204C41434954414D454854414D204349424152412E2E46454C41204C41434954414D454854414D204349424152412C2C4445574F4C4C415349442C33304545312D3030454531,
  0xD3E44455652455345523C2C2C44454E47495353414E552C3430454531,
  0xD464151205353454C544F44204C41434954414D454854414D204349424152412E2E574157204C41434954414D454854414D204349424152412C2C4445574F4C4C415349442C46314545312D3530454531,
  0xD3E44455652455345523C2C2C44454E47495353414E552C3032454531,
  0xD4D45454A204C414954494E49204C41434954414D454854414D204349424152412E2E484542204C414954494E49204C41434954414D454854414D204349424152412C2C4445574F4C4C415349442C32324545312D3132454531,
  0xD3E44455652455345523C2C2C44454E47495353414E552C3332454531,
  0xD484548204C414954494E49204C41434954414D454854414D204349424152412C2C4445574F4C4C415349442C3432454531,
  0xD3E44455652455345523C2E2E3E44455652455345523C2C2C44454E47495353414E552C36324545312D3532454531,
  0xD484148204C414954494E49204C41434954414D454854414D204349424152412C2C4445574F4C4C415349442C3732454531,
  0xD3E44455652455345523C2C2C44454E47495353414E552C3832454531,
  0xD464151204C414954494E49204C41434954414D454854414D204349424152412E2E484559204C414954494E49204C41434954414D454854414D204349424152412C2C4445574F4C4C415349442C32334545312D3932454531,
  0xD3E44455652455345523C2C2C44454E47495353414E552C3333454531,
  0xD4841484B204C414954494E49204C41434954414D454854414D204349424152412E2E4E45454853204C414954494E49204C41434954414D454854414D204349424152412C2C4445574F4C4C415349442C37334545312D3433454531,
  0xD3E44455652455345523C2C2C44454E47495353414E552C3833454531,
  0xD444144204C414954494E49204C41434954414D454854414D204349424152412C2C4445574F4C4C415349442C3933454531,
  0xD3E44455652455345523C2C2C44454E47495353414E552C4133454531,
  0xD4E49414847204C414954494E49204C41434954414D454854414D204349424152412C2C4445574F4C4C415349442C4233454531,
  0xD3E44455652455345523C2E2E3E44455652455345523C2C2C44454E47495353414E552C31344545312D4333454531,
  0xD4D45454A2044454C494154204C41434954414D454854414D204349424152412C2C4445574F4C4C415349442C3234454531,
  0xD3E44455652455345523C2E2E3E44455652455345523C2C2C44454E47495353414E552C36344545312D3334454531,
  0xD4841482044454C494154204C41434954414D454854414D204349424152412C2C4445574F4C4C415349442C3734454531,
  0xD3E44455652455345523C2C2C44454E47495353414E552C3834454531,
  0xD4845592044454C494154204C41434954414D454854414D204349424152412C2C4445574F4C4C415349442C3934454531,
  0xD3E44455652455345523C2C2C44454E47495353414E552C4134454531,
  0xD4D414C2044454C494154204C41434954414D454854414D204349424152412C2C4445574F4C4C415349442C4234454531,
  0xD3E44455652455345523C2C2C44454E47495353414E552C4334454531,
  0xD4E49412044454C494154204C41434954414D454854414D204349424152412E2E4E4F4F4E2044454C494154204C41434954414D454854414D204349424152412C2C4445574F4C4C415349442C46344545312D4434454531,
  0xD3E44455652455345523C2C2C44454E47495353414E552C3035454531,
  0xD4641512044454C494154204C41434954414D454854414D204349424152412E2E4441532044454C494154204C41434954414D454854414D204349424152412C2C4445574F4C4C415349442C32354545312D3135454531,
  0xD3E44455652455345523C2C2C44454E47495353414E552C3335454531,
  0xD4E454548532044454C494154204C41434954414D454854414D204349424152412C2C4445574F4C4C415349442C3435454531,
  0xD3E44455652455345523C2E2E3E44455652455345523C2C2C44454E47495353414E552C36354545312D3535454531,
  0xD4841484B2044454C494154204C41434954414D454854414D204349424152412C2C4445574F4C4C415349442C3735454531,
  0xD3E44455652455345523C2C2C44454E47495353414E552C3835454531,
  0xD4441442044454C494154204C41434954414D454854414D204349424152412C2C4445574F4C4C415349442C3935454531,
  0xD3E44455652455345523C2C2C44454E47495353414E552C4135454531,
  0xD4E494148472044454C494154204C41434954414D454854414D204349424152412C2C4445574F4C4C415349442C4235454531,
  0xD3E44455652455345523C2C2C44454E47495353414E552C4335454531,
  0xD4E4F4F4E205353454C544F442044454C494154204C41434954414D454854414D204349424152412C2C4445574F4C4C415349442C4435454531,
  0xD3E44455652455345523C2C2C44454E47495353414E552C4535454531,
  0xD464151205353454C544F442044454C494154204C41434954414D454854414D204349424152412C2C4445574F4C4C415349442C4635454531,
  0xD3E44455652455345523C2C2C44454E47495353414E552C3036454531,
  0xD4D45454A20444548435445525453204C41434954414D454854414D204349424152412E2E48454220444548435445525453204C41434954414D454854414D204349424152412C2C4445574F4C4C415349442C32364545312D3136454531,
  0xD3E44455652455345523C2C2C44454E47495353414E552C3336454531,
  0xD48454820444548435445525453204C41434954414D454854414D204349424152412C2C4445574F4C4C415349442C3436454531,
  0xD3E44455652455345523C2E2E3E44455652455345523C2C2C44454E47495353414E552C36364545312D3536454531,
  0xD46414B20444548435445525453204C41434954414D454854414D204349424152412E2E48414820444548435445525453204C41434954414D454854414D204349424152412C2C4445574F4C4C415349442C41364545312D3736454531,
  0xD3E44455652455345523C2C2C44454E47495353414E552C4236454531,
  0xD46415120444548435445525453204C41434954414D454854414D204349424152412E2E4D45454D20444548435445525453204C41434954414D454854414D204349424152412C2C4445574F4C4C415349442C32374545312D4336454531,
  0xD3E44455652455345523C2C2C44454E47495353414E552C3337454531,
  0xD4841484B20444548435445525453204C41434954414D454854414D204349424152412E2E4E4545485320444548435445525453204C41434954414D454854414D204349424152412C2C4445574F4C4C415349442C37374545312D3437454531,
  0xD3E44455652455345523C2C2C44454E47495353414E552C3837454531,
  0xD484542205353454C544F4420444548435445525453204C41434954414D454854414D204349424152412E2E44414420444548435445525453204C41434954414D454854414D204349424152412C2C4445574F4C4C415349442C43374545312D3937454531,
  0xD3E44455652455345523C2C2C44454E47495353414E552C4437454531,
  0xD484546205353454C544F4420444548435445525453204C41434954414D454854414D204349424152412C2C4445574F4C4C415349442C4537454531,
  0xD3E44455652455345523C2C2C44454E47495353414E552C4637454531,
  0xD484559204445504F4F4C204C41434954414D454854414D204349424152412E2E46454C41204445504F4F4C204C41434954414D454854414D204349424152412C2C4445574F4C4C415349442C39384545312D3038454531,
  0xD3E44455652455345523C2C2C44454E47495353414E552C4138454531,
  0xD4E49414847204445504F4F4C204C41434954414D454854414D204349424152412E2E4D414C204445504F4F4C204C41434954414D454854414D204349424152412C2C4445574F4C4C415349442C42394545312D4238454531,
  0xD3E44455652455345523C2E2E3E44455652455345523C2C2C44454E47495353414E552C30414545312D4339454531,
  0xD4C4144204B43555254532D454C42554F44204C41434954414D454854414D204349424152412E2E484542204B43555254532D454C42554F44204C41434954414D454854414D204349424152412C2C4445574F4C4C415349442C33414545312D3141454531,
  0xD3E44455652455345523C2C2C44454E47495353414E552C3441454531,
  0xD484559204B43555254532D454C42554F44204C41434954414D454854414D204349424152412E2E574157204B43555254532D454C42554F44204C41434954414D454854414D204349424152412C2C4445574F4C4C415349442C39414545312D3541454531,
  0xD3E44455652455345523C2C2C44454E47495353414E552C4141454531,
  0xD4E49414847204B43555254532D454C42554F44204C41434954414D454854414D204349424152412E2E4D414C204B43555254532D454C42554F44204C41434954414D454854414D204349424152412C2C4445574F4C4C415349442C42424545312D4241454531,
  0xD3E44455652455345523C2E2E3E44455652455345523C2C2C44454E47495353414E552C46454545312D4342454531,
  0xD4C414420485449572048414820524F54415245504F204C41434954414D454854414D204349424152412E2E4C4545575441542048544957204841482048544957204D45454D20524F54415245504F204C41434954414D454854414D204349424152412C2C4445574F4C4C415349442C31464545312D3046454531,
  0xD3E44455652455345523C2E2E3E44455652455345523C2C2C44454E47495353414E552C46464645312D3246454531,
  0xD4B43414220454C495420474E4F4A48414D2E2E444E4957205453414520454C495420474E4F4A48414D2C2C4445574F4C4C415349442C42323046312D3030304631,
  0xD3E44455652455345523C2E2E3E44455652455345523C2C2C44454E47495353414E552C46323046312D4332304631,
  0xD36302D36302D4C4143495452455620454C4954204F4E494D4F442E2E4B434142204C41544E4F5A49524F4820454C4954204F4E494D4F442C2C4445574F4C4C415349442C33393046312D3033304631,
  0xD3E44455652455345523C2E2E3E44455652455345523C2C2C44454E47495353414E552C46393046312D3439304631,
  0xD53454441505320464F20474E494B204452414320474E4959414C502E2E4B434142204452414320474E4959414C502C2C4445574F4C4C415349442C45413046312D3041304631,
  0xD3E44455652455345523C2E2E3E44455652455345523C2C2C44454E47495353414E552C30423046312D4641304631,
  0xD52454B4F4A20444552204452414320474E4959414C502E2E53545241454820464F20454341204452414320474E4959414C502C2C4445574F4C4C415349442C46423046312D3142304631,
  0xD3E44455652455345523C2C2C44454E47495353414E552C3043304631,
  0xD52454B4F4A204B43414C42204452414320474E4959414C502E2E53444E4F4D41494420464F20454341204452414320474E4959414C502C2C4445574F4C4C415349442C46433046312D3143304631,
  0xD3E44455652455345523C2C2C44454E47495353414E552C3044304631,
  0xD31322D504D555254204452414320474E4959414C502E2E5342554C4320464F20454341204452414320474E4959414C502C2C4445574F4C4C415349442C35463046312D3144304631,
  0xD3E44455652455345523C2E2E3E44455652455345523C2C2C44454E47495353414E552C46463046312D3646304631,
  0xD4F52455A2054494749442046495245532D534E41532044454C4352494320455649544147454E20544142474E49442E2E504F5453204C4C5546204F52455A2054494749442C2C4445574F4C4C415349442C43303146312D3030314631,
  0xD3E44455652455345523C2E2E3E44455652455345523C2C2C44454E47495353414E552C46303146312D4430314631,
  0xD4E47495320444D204445534941522E2E412052455454454C204C415449504143204E4954414C2044455A49534548544E455241502C2C4445574F4C4C415349442C42363146312D3031314631,
  0xD3E44455652455345523C2E2E3E44455652455345523C2C2C44454E47495353414E552C46363146312D4336314631,
  0xD444F5620444552415551532E2E412052455454454C204C415449504143204E4954414C204445524155515320455649544147454E2C2C4445574F4C4C415349442C43413146312D3037314631,
  0xD3E44455652455345523C2E2E3E44455652455345523C2C2C44454E47495353414E552C35453146312D4441314631,
  0xD415320414E414B4154414B20444552415551532E2E412052455454454C204C4F424D595320524F54414349444E49204C414E4F494745522C2C4445574F4C4C415349442C32303246312D3645314631,
  0xD3E44455652455345523C2E2E3E44455652455345523C2C2C44454E47495353414E552C46303246312D3330324631,
  0xD443431392D48504152474F4544492044454946494E55204B4A4320444552415551532E2E423432362D48504152474F4544492044454946494E55204B4A4320444552415551532C2C4445574F4C4C415349442C42333246312D3031324631,
  0xD3E44455652455345523C2E2E3E44455652455345523C2C2C44454E47495353414E552C46333246312D4333324631,
  0xD373535362D48504152474F4544492044454946494E55204B4A4320444554454B43415242204C4C454853204553494F54524F542E2E433237362D48504152474F4544492044454946494E55204B4A4320444554454B43415242204C4C454853204553494F54524F542C2C4445574F4C4C415349442C38343246312D3034324631,
  0xD3E44455652455345523C2E2E3E44455652455345523C2C2C44454E47495353414E552C46343246312D3934324631,
  0xD5450454343412048504152474F4544492044454C435249432E2E454741544E415644412048504152474F4544492044454C435249432C2C4445574F4C4C415349442C31353246312D3035324631]

def csvText11 : List Nat := [
  0xD3E44455652455345523C2E2E3E44455652455345523C2C2C44454E47495353414E552C46353246312D3235324631,
  0xD49414320524F46204C4F424D5953204445444E554F522E2E554620524F46204C4F424D5953204445444E554F522C2C4445574F4C4C415349442C35363246312D3036324631,
  0xD3E44455652455345523C2E2E3E44455652455345523C2C2C44454E47495353414E552C46463246312D3636324631,
  0xD41444F4741502E2E454E4F4C4359432C2C4445574F4C4C415349442C34443646312D3030334631,
  0xD3E44455652455345523C2E2E3E44455652455345523C2C2C44454E47495353414E552C46443646312D3544364631,
  0xD474E49564952524120454E414C505249412E2E48434E45525720444E412052454D4D41482C2C4445574F4C4C415349442C43453646312D3045364631,
  0xD3E44455652455345523C2E2E3E44455652455345523C2C2C44454E47495353414E552C46453646312D4445364631,
  0xD4452414F424554414B532E2E4554494C4C455441532C2C4445574F4C4C415349442C39463646312D3046364631,
  0xD3E44455652455345523C2E2E3E44455652455345523C2C2C44454E47495353414E552C46463646312D4146364631,
  0xD45434E554F20464C414820524F46204C4F424D5953204C4143494D4548434C412E2E45434E45535345544E49555120524F46204C4F424D5953204C4143494D4548434C412C2C4445574F4C4C415349442C33373746312D3030374631,
  0xD3E44455652455345523C2E2E3E44455652455345523C2C2C44454E47495353414E552C46373746312D3437374631,
  0xD4552415551532044454C4352494320455649544147454E2E2E454C474E414952542054484749522053454C4543534F534920474E49544E494F502D5446454C204B43414C422C2C4445574F4C4C415349442C38443746312D3038374631,
  0xD3E44455652455345523C2E2E3E44455652455345523C2C2C44454E47495353414E552C46463746312D3944374631,
  0xD44414548574F52524120454C474E4149525420454752414C204854495720574F5252412053445241574E574F442E2E44414548574F52524120454C474E41495254204C4C414D53204854495720574F5252412053445241575446454C2C2C4445574F4C4C415349442C42303846312D3030384631,
  0xD3E44455652455345523C2E2E3E44455652455345523C2C2C44454E47495353414E552C46303846312D4330384631,
  0xD574F5252412059564145482053445241574E574F442E2E44414548574F525241204C41524554414C49555145204C4C414D53204854495720574F5252412053445241575446454C2C2C4445574F4C4C415349442C37343846312D3031384631,
  0xD3E44455652455345523C2E2E3E44455652455345523C2C2C44454E47495353414E552C46343846312D3834384631,
  0xD574F5252412046495245532D534E4153204E574F442050552E2E574F5252412046495245532D534E41532053445241575446454C2C2C4445574F4C4C415349442C39353846312D3035384631,
  0xD3E44455652455345523C2E2E3E44455652455345523C2C2C44454E47495353414E552C46353846312D4135384631,
  0xD574F525241204252414220595641454820595245562054534557204854554F53204445444145482D454449572E2E574F525241204252414220544847494C2053445241575446454C204445444145482D454449572C2C4445574F4C4C415349442C37383846312D3036384631,
  0xD3E44455652455345523C2E2E3E44455652455345523C2C2C44454E47495353414E552C46383846312D3838384631,
  0xD534452494854204F575420485444495720544641485320574F5252412045544948572E2E44414548574F52524120454C474E414952542053445241575446454C2C2C4445574F4C4C415349442C44413846312D3039384631,
  0xD3E44455652455345523C2E2E3E44455652455345523C2C2C44454E47495353414E552C46463846312D4541384631,
  0xD544F442048544957204B4F4F482044454843544F4E20474E4943414620445241574E574F442E2E53544F442052554F4620485449572045454D524F462053534F52432044454C435249432C2C4445574F4C4C415349442C42303946312D3030394631,
  0xD3E44455652455345523C2E2E3E44455652455345523C2C2C44454E47495353414E552C46303946312D4330394631,
  0xD4C4C4142444E41482E2E45434146204854554F4D2D52455050495A2C2C4445574F4C4C415349442C45333946312D3031394631,
  0xD3E44455652455345523C2C2C44454E47495353414E552C4633394631,
  0xD53545241454820454552485420444E41205345594520474E494C494D532048544957204543414620474E494C494D532E2E5245574F4C46204445544C49572C2C4445574F4C4C415349442C30373946312D3034394631,
  0xD3E44455652455345523C2E2E3E44455652455345523C2C2C44454E47495353414E552C32373946312D3137394631,
  0xD4543414620474E495A454552462E2E54414820595452415020444E41204E524F48205954524150204854495720454341462C2C4445574F4C4C415349442C36373946312D3337394631,
  0xD3E44455652455345523C2E2E3E44455652455345523C2C2C44454E47495353414E552C39373946312D3737394631,
  0xD5345594520474E494441454C50204854495720454341462C2C4445574F4C4C415349442C4137394631,
  0xD3E44455652455345523C2C2C44454E47495353414E552C4237394631,
  0xD4E4157532E2E54414F432042414C2C2C4445574F4C4C415349442C32413946312D4337394631,
  0xD3E44455652455345523C2E2E3E44455652455345523C2C2C44454E47495353414E552C46413946312D3341394631,
  0xD4E49414C4C495652455055532E2E524941482044455220544E454E4F504D4F4320494A4F4D452C2C4445574F4C4C415349442C39423946312D3042394631,
  0xD3E44455652455345523C2E2E3E44455652455345523C2C2C44454E47495353414E552C46423946312D4142394631,
  0xD52454B41485320544C41532E2E4547444557204553454548432C2C4445574F4C4C415349442C32433946312D3043394631,
  0xD3E44455652455345523C2E2E3E44455652455345523C2C2C44454E47495353414E552C46433946312D3343394631,
  0xD54454C554D412052415A414E2E2E454C434F4E4F4D204854495720454341462C2C4445574F4C4C415349442C46463946312D3044394631,
  0xD3E44455652455345523C2E2E3E44455652455345523C2C2C44454E47495353414E552C46354146312D3030414631,
  0xD524549444C4F53204B43414C42204951474E4149582E2E4C4152454E454720444552204951474E4149582C2C4445574F4C4C415349442C44364146312D3036414631,
  0xD3E44455652455345523C2E2E3E44455652455345523C2C2C44454E47495353414E552C44464646312D4536414631,
  0xD3E524554434152414843204120544F4E3C2E2E3E524554434152414843204120544F4E3C2C2C4445574F4C4C415349442C46464646312D4546464631,
  0xD223E5453414C202C42204E4F49534E455458452048504152474F454449204B4A433C2E2E3E5453524946202C42204E4F49534E455458452048504152474F454449204B4A433C222C2C44494C4156502C36443641322D3030303032,
  0xD3E44455652455345523C2E2E3E44455652455345523C2C2C44454E47495353414E552C46463641322D3744364132,
  0xD223E5453414C202C43204E4F49534E455458452048504152474F454449204B4A433C2E2E3E5453524946202C43204E4F49534E455458452048504152474F454449204B4A433C222C2C44494C4156502C34333742322D3030374132,
  0xD3E44455652455345523C2E2E3E44455652455345523C2C2C44454E47495353414E552C46333742322D3533374232,
  0xD223E5453414C202C44204E4F49534E455458452048504152474F454449204B4A433C2E2E3E5453524946202C44204E4F49534E455458452048504152474F454449204B4A433C222C2C44494C4156502C44313842322D3034374232,
  0xD3E44455652455345523C2E2E3E44455652455345523C2C2C44454E47495353414E552C46313842322D4531384232,
  0xD223E5453414C202C45204E4F49534E455458452048504152474F454449204B4A433C2E2E3E5453524946202C45204E4F49534E455458452048504152474F454449204B4A433C222C2C44494C4156502C31414543322D3032384232,
  0xD3E44455652455345523C2E2E3E44455652455345523C2C2C44454E47495353414E552C46414543322D3241454332,
  0xD223E5453414C202C46204E4F49534E455458452048504152474F454449204B4A433C2E2E3E5453524946202C46204E4F49534E455458452048504152474F454449204B4A433C222C2C44494C4156502C30454245322D3042454332,
  0xD3E44455652455345523C2E2E3E44455652455345523C2C2C44454E47495353414E552C46463746322D3145424532,
  0xD44314146322D48504152474F454449205954494C4942495441504D4F43204B4A432E2E30303846322D48504152474F454449205954494C4942495441504D4F43204B4A432C2C4445574F4C4C415349442C44314146322D3030384632,
  0xD3E44455652455345523C2E2E3E44455652455345523C2C2C44454E47495353414E552C44464646322D4531414632,
  0xD3E524554434152414843204120544F4E3C2E2E3E524554434152414843204120544F4E3C2C2C4445574F4C4C415349442C46464646322D4546464632,
  0xD3E44455652455345523C2E2E3E44455652455345523C2C2C44454E47495353414E552C44464646332D3030303033,
  0xD3E524554434152414843204120544F4E3C2E2E3E524554434152414843204120544F4E3C2C2C4445574F4C4C415349442C46464646332D4546464633,
  0xD3E44455652455345523C2E2E3E44455652455345523C2C2C44454E47495353414E552C44464646342D3030303034,
  0xD3E524554434152414843204120544F4E3C2E2E3E524554434152414843204120544F4E3C2C2C4445574F4C4C415349442C46464646342D4546464634,
  0xD3E44455652455345523C2E2E3E44455652455345523C2C2C44454E47495353414E552C44464646352D3030303035,
  0xD3E524554434152414843204120544F4E3C2E2E3E524554434152414843204120544F4E3C2C2C4445574F4C4C415349442C46464646352D4546464635,
  0xD3E44455652455345523C2E2E3E44455652455345523C2C2C44454E47495353414E552C44464646362D3030303036,
  0xD3E524554434152414843204120544F4E3C2E2E3E524554434152414843204120544F4E3C2C2C4445574F4C4C415349442C46464646362D4546464636,
  0xD3E44455652455345523C2E2E3E44455652455345523C2C2C44454E47495353414E552C44464646372D3030303037,
  0xD3E524554434152414843204120544F4E3C2E2E3E524554434152414843204120544F4E3C2C2C4445574F4C4C415349442C46464646372D4546464637,
  0xD3E44455652455345523C2E2E3E44455652455345523C2C2C44454E47495353414E552C44464646382D3030303038,
  0xD3E524554434152414843204120544F4E3C2E2E3E524554434152414843204120544F4E3C2C2C4445574F4C4C415349442C46464646382D4546464638,
  0xD3E44455652455345523C2E2E3E44455652455345523C2C2C44454E47495353414E552C44464646392D3030303039,
  0xD3E524554434152414843204120544F4E3C2E2E3E524554434152414843204120544F4E3C2C2C4445574F4C4C415349442C46464646392D4546464639,
  0xD3E44455652455345523C2E2E3E44455652455345523C2C2C44454E47495353414E552C44464646412D3030303041,
  0xD3E524554434152414843204120544F4E3C2E2E3E524554434152414843204120544F4E3C2C2C4445574F4C4C415349442C46464646412D4546464641,
  0xD3E44455652455345523C2E2E3E44455652455345523C2C2C44454E47495353414E552C44464646422D3030303042,
  0xD3E524554434152414843204120544F4E3C2E2E3E524554434152414843204120544F4E3C2C2C4445574F4C4C415349442C46464646422D4546464642,
  0xD3E44455652455345523C2E2E3E44455652455345523C2C2C44454E47495353414E552C44464646432D3030303043,
  0xD3E524554434152414843204120544F4E3C2E2E3E524554434152414843204120544F4E3C2C2C4445574F4C4C415349442C46464646432D4546464643,
  0xD3E44455652455345523C2E2E3E44455652455345523C2C2C44454E47495353414E552C44464646442D3030303044,
  0xD3E524554434152414843204120544F4E3C2E2E3E524554434152414843204120544F4E3C2C2C4445574F4C4C415349442C46464646442D4546464644,
  0xD3E44455652455345523C2C2C44454E47495353414E552C3030303045,
  0xD4741542045474155474E414C2C2C4445574F4C4C415349442C3130303045,
  0xD3E44455652455345523C2E2E3E44455652455345523C2C2C44454E47495353414E552C46313030452D3230303045,
  0xD474154204C45434E41432E2E4543415053204741542C2C4445574F4C4C415349442C46373030452D3032303045,
  0xD3E44455652455345523C2E2E3E44455652455345523C2C2C44454E47495353414E552C46463030452D3038303045,
  0xD3635322D524F5443454C4553204E4F495441495241562E2E37312D524F5443454C4553204E4F495441495241562C2C4445574F4C4C415349442C46453130452D3030313045,
  0xD3E44455652455345523C2E2E3E44455652455345523C2C2C44454E47495353414E552C44464646452D3046313045,
  0xD3E524554434152414843204120544F4E3C2E2E3E524554434152414843204120544F4E3C2C2C4445574F4C4C415349442C4646464630312D4546464645]

/-- All the lines, in chunks. -/
def csvTextChunks : List (List Nat) := [
  csvText0, csvText1, csvText2, csvText3, csvText4, csvText5, csvText6, csvText7,
  csvText8, csvText9, csvText10, csvText11]

/-- All the lines. -/
def csvText : List Nat := csvTextHead :: csvTextChunks.flatten

end Idn2.Shipped
