/-
The text of lib/DerivedNormalizationProps.txt.
Each number holds the bytes of a line without its line feed, the first byte being the least
significant.  Written by tools/gen_data.py; do not edit.
-/

namespace Idn2.Shipped

def qcText0 : List Nat := [
  0x7478742E302E302E33312D73706F72506E6F6974617A696C616D726F4E646576697265442023,
  0x544D472038303A31333A3332202C38302D39302D39313032203A657461442023,
  0x2E636E49202CAEC265646F63696E55203931303220A9C22023,
  0x2E73656972746E756F6320726568746F20646E61202E532E5520656874206E69202E636E49202C65646F63696E5520666F20736B72616D6564617274206465726574736967657220657261206F676F4C2065646F63696E552065687420646E612065646F63696E552023,
  0x6C6D74682E6573755F666F5F736D7265742F67726F2E65646F63696E752E7777772F2F3A7074746820656573202C65737520666F20736D72657420726F462023,
  0x23,
  0x6573616261746144207265746361726168432065646F63696E552023,
  0x2F343472742F7374726F7065722F67726F2E65646F63696E752E7777772F2F3A7074746820656573202C6E6F697461746E656D75636F6420726F4620202023,
  0x0,
  0x3D3D3D3D3D3D3D3D3D3D3D3D3D3D3D3D3D3D3D3D3D3D3D3D3D3D3D3D3D3D3D3D3D3D3D3D3D3D3D3D3D3D3D3D3D3D3D3D2023,
  0x0,
  0x29302E302E362065646F63696E5520666F2073612044455441434552504544282020657275736F6C435F434B464E5F4346203A79747265706F725020646576697265442023,
  0x3B29296228646C6F4628434B464E203D2063203B29296128646C6F4628434B464E203D2062203A676E697475706D6F63206D6F7266206465746172656E6547202023,
  0x666F2074657320656874206F742063206F742061206D6F726620676E697070616D2065687420646461202962203D21206328206669206E656854202023,
  0x7473696C20657275736F6C435F434B464E5F43462065687420657475746974736E6F6320746168742073676E697070616D202023,
  0x2E6E6F6974706F2054206568742074756F68746977202C7478742E676E69646C6F4665736143206D6F726620676E69646C6F662065736163206C6C7566206568742073657355202023,
  0x0,
  0x494E454D4D41524745474F5059204B4545524720206D4C2023202020202020394233302030323030203B434B464E5F4346203B202041373330,
  0x4C4F424D5953204B4F4F482048544957204E4F4C49535055204B454552472020264C2023202020202020202020202035433330203B434B464E5F4346203B202032443330,
  0x4C4F424D5953204B4F4F4820444E412045545543412048544957204E4F4C49535055204B454552472020264C2023202020202020202020202044433330203B434B464E5F4346203B202033443330,
  0x4C4F424D5953204B4F4F4820444E41205349534552454149442048544957204E4F4C49535055204B454552472020264C2023202020202020202020202042433330203B434B464E5F4346203B202034443330,
  0x4C4F424D595320414D474953204554414E554C204B454552472020264C2023202020202020202020202033433330203B434B464E5F4346203B202032463330,
  0x4C4F424D595320414D474953204554414E554C204C415449504143204B454552472020264C2023202020202020202020202033433330203B434B464E5F4346203B202039463330,
  0x41204C4154495041432052455454454C205245494649444F4D20206D4C2023202020202020202020202031363030203B434B464E5F4346203B202043324431,
  0x4541204C4154495041432052455454454C205245494649444F4D20206D4C2023202020202020202020202036453030203B434B464E5F4346203B202044324431,
  0x42204C4154495041432052455454454C205245494649444F4D20206D4C2023202020202020202020202032363030203B434B464E5F4346203B202045324431,
  0x44204C4154495041432052455454454C205245494649444F4D20206D4C2023202020202020202020202034363030203B434B464E5F4346203B202030334431,
  0x45204C4154495041432052455454454C205245494649444F4D20206D4C2023202020202020202020202035363030203B434B464E5F4346203B202031334431,
  0x45204445535245564552204C4154495041432052455454454C205245494649444F4D20206D4C2023202020202020202020202044443130203B434B464E5F4346203B202032334431,
  0x47204C4154495041432052455454454C205245494649444F4D20206D4C2023202020202020202020202037363030203B434B464E5F4346203B202033334431,
  0x48204C4154495041432052455454454C205245494649444F4D20206D4C2023202020202020202020202038363030203B434B464E5F4346203B202034334431,
  0x49204C4154495041432052455454454C205245494649444F4D20206D4C2023202020202020202020202039363030203B434B464E5F4346203B202035334431,
  0x4A204C4154495041432052455454454C205245494649444F4D20206D4C2023202020202020202020202041363030203B434B464E5F4346203B202036334431,
  0x4B204C4154495041432052455454454C205245494649444F4D20206D4C2023202020202020202020202042363030203B434B464E5F4346203B202037334431,
  0x4C204C4154495041432052455454454C205245494649444F4D20206D4C2023202020202020202020202043363030203B434B464E5F4346203B202038334431,
  0x4D204C4154495041432052455454454C205245494649444F4D20206D4C2023202020202020202020202044363030203B434B464E5F4346203B202039334431,
  0x4E204C4154495041432052455454454C205245494649444F4D20206D4C2023202020202020202020202045363030203B434B464E5F4346203B202041334431,
  0x4F204C4154495041432052455454454C205245494649444F4D20206D4C2023202020202020202020202046363030203B434B464E5F4346203B202043334431,
  0x554F204C4154495041432052455454454C205245494649444F4D20206D4C2023202020202020202020202033323230203B434B464E5F4346203B202044334431,
  0x50204C4154495041432052455454454C205245494649444F4D20206D4C2023202020202020202020202030373030203B434B464E5F4346203B202045334431,
  0x52204C4154495041432052455454454C205245494649444F4D20206D4C2023202020202020202020202032373030203B434B464E5F4346203B202046334431,
  0x54204C4154495041432052455454454C205245494649444F4D20206D4C2023202020202020202020202034373030203B434B464E5F4346203B202030344431,
  0x55204C4154495041432052455454454C205245494649444F4D20206D4C2023202020202020202020202035373030203B434B464E5F4346203B202031344431,
  0x57204C4154495041432052455454454C205245494649444F4D20206D4C2023202020202020202020202037373030203B434B464E5F4346203B202032344431,
  0x4E474953204545505552202063532023202020202020333730302032373030203B434B464E5F4346203B202038413032,
  0x43204C415449504143204B43555254532D454C42554F442020264C2023202020202020202020202033363030203B434B464E5F4346203B202032303132,
  0x535549534C45432045455247454420206F532023202020202020333630302030423030203B434B464E5F4346203B202033303132,
  0x544E4154534E4F432052454C55452020264C2023202020202020202020202042353230203B434B464E5F4346203B202037303132,
  0x544945484E45524841462045455247454420206F532023202020202020363630302030423030203B434B464E5F4346203B202039303132,
  0x48204C415449504143205450495243532020264C2023202020202020202020202038363030203B434B464E5F4346203B202042303132,
  0x48204C4154495041432052455454454C2D4B43414C422020264C2023202020202020202020202038363030203B434B464E5F4346203B202043303132,
  0x48204C415449504143204B43555254532D454C42554F442020264C2023202020202020202020202038363030203B434B464E5F4346203B202044303132,
  0x49204C415449504143205450495243532020264C2023202020202020202020202039363030203B434B464E5F4346203B202030313132,
  0x49204C4154495041432052455454454C2D4B43414C422020264C2023202020202020202020202039363030203B434B464E5F4346203B202031313132,
  0x4C204C415449504143205450495243532020264C2023202020202020202020202043363030203B434B464E5F4346203B202032313132,
  0x4E204C415449504143204B43555254532D454C42554F442020264C2023202020202020202020202045363030203B434B464E5F4346203B202035313132,
  0x4E474953204F52454D554E20206F532023202020202020463630302045363030203B434B464E5F4346203B202036313132,
  0x50204C415449504143204B43555254532D454C42554F442020264C2023202020202020202020202030373030203B434B464E5F4346203B202039313132,
  0x51204C415449504143204B43555254532D454C42554F442020264C2023202020202020202020202031373030203B434B464E5F4346203B202041313132,
  0x52204C415449504143205450495243532020264C2023202020202020202020202032373030203B434B464E5F4346203B202042313132,
  0x52204C4154495041432052455454454C2D4B43414C422020264C2023202020202020202020202032373030203B434B464E5F4346203B202043313132,
  0x52204C415449504143204B43555254532D454C42554F442020264C2023202020202020202020202032373030203B434B464E5F4346203B202044313132,
  0x4B52414D204543495652455320206F532023202020202020443630302033373030203B434B464E5F4346203B202030323132,
  0x4E47495320454E4F4850454C455420206F532023204336303020353630302034373030203B434B464E5F4346203B202031323132,
  0x4E474953204B52414D20454441525420206F532023202020202020443630302034373030203B434B464E5F4346203B202032323132,
  0x5A204C415449504143204B43555254532D454C42554F442020264C2023202020202020202020202041373030203B434B464E5F4346203B202034323132,
  0x5A204C4154495041432052455454454C2D4B43414C422020264C2023202020202020202020202041373030203B434B464E5F4346203B202038323132,
  0x42204C415449504143205450495243532020264C2023202020202020202020202032363030203B434B464E5F4346203B202043323132,
  0x43204C4154495041432052455454454C2D4B43414C422020264C2023202020202020202020202033363030203B434B464E5F4346203B202044323132,
  0x45204C415449504143205450495243532020264C2023202020202020202020202035363030203B434B464E5F4346203B202030333132,
  0x46204C415449504143205450495243532020264C2023202020202020202020202036363030203B434B464E5F4346203B202031333132,
  0x4D204C415449504143205450495243532020264C2023202020202020202020202044363030203B434B464E5F4346203B202033333132,
  0x4E47495320454C494D495343414620206F532023203837303020313630302036363030203B434B464E5F4346203B202042333132,
  0x414D4D4147204C415449504143204B43555254532D454C42554F442020264C2023202020202020202020202033423330203B434B464E5F4346203B202045333132,
  0x4950204C415449504143204B43555254532D454C42554F442020264C2023202020202020202020202030433330203B434B464E5F4346203B202046333132,
  0x44204C4154495041432043494C415449204B43555254532D454C42554F442020264C2023202020202020202020202034363030203B434B464E5F4346203B202035343132,
  0x56204C4154495041432052455454454C205245494649444F4D20206D4C2023202020202020202020202036373030203B434B464E5F4346203B202044374332,
  0x4E474953205049485352454E5452415020206F532023203536303020343730302030373030203B434B464E5F4346203B202030353233,
  0x47482045524155515320206F532023202020202020373630302038363030203B434B464E5F4346203B202043433233,
  0x56452045524155515320206F532023202020202020363730302035363030203B434B464E5F4346203B202045433233,
  0x4E474953205954494C494241494C20444554494D494C20206F532023203436303020343730302043363030203B434B464E5F4346203B202046433233,
  0x4150482045524155515320206F532023203136303020303730302038363030203B434B464E5F4346203B202031373333,
  0x55412045524155515320206F532023202020202020353730302031363030203B434B464E5F4346203B202033373333,
  0x564F2045524155515320206F532023202020202020363730302046363030203B434B464E5F4346203B202035373333,
  0x55492045524155515320206F532023202020202020353730302039363030203B434B464E5F4346203B202041373333,
  0x53504D412041502045524155515320206F532023202020202020313630302030373030203B434B464E5F4346203B202030383333,
  0x414E2045524155515320206F532023202020202020313630302045363030203B434B464E5F4346203B202031383333,
  0x4120554D2045524155515320206F532023202020202020313630302043423330203B434B464E5F4346203B202032383333,
  0x414D2045524155515320206F532023202020202020313630302044363030203B434B464E5F4346203B202033383333,
  0x414B2045524155515320206F532023202020202020313630302042363030203B434B464E5F4346203B202034383333,
  0x424B2045524155515320206F532023202020202020323630302042363030203B434B464E5F4346203B202035383333,
  0x424D2045524155515320206F532023202020202020323630302044363030203B434B464E5F4346203B202036383333,
  0x42472045524155515320206F532023202020202020323630302037363030203B434B464E5F4346203B202037383333,
  0x46502045524155515320206F532023202020202020363630302030373030203B434B464E5F4346203B202041383333,
  0x464E2045524155515320206F532023202020202020363630302045363030203B434B464E5F4346203B202042383333,
  0x4620554D2045524155515320206F532023202020202020363630302043423330203B434B464E5F4346203B202043383333,
  0x5A482045524155515320206F532023202020202020413730302038363030203B434B464E5F4346203B202030393333,
  0x5A484B2045524155515320206F532023204137303020383630302042363030203B434B464E5F4346203B202031393333,
  0x5A484D2045524155515320206F532023204137303020383630302044363030203B434B464E5F4346203B202032393333,
  0x5A48472045524155515320206F532023204137303020383630302037363030203B434B464E5F4346203B202033393333,
  0x5A48542045524155515320206F532023204137303020383630302034373030203B434B464E5F4346203B202034393333,
  0x41502045524155515320206F532023202020202020313630302030373030203B434B464E5F4346203B202039413333,
  0x41504B2045524155515320206F532023203136303020303730302042363030203B434B464E5F4346203B202041413333,
  0x41504D2045524155515320206F532023203136303020303730302044363030203B434B464E5F4346203B202042413333,
  0x4150472045524155515320206F532023203136303020303730302037363030203B434B464E5F4346203B202043413333,
  0x56502045524155515320206F532023202020202020363730302030373030203B434B464E5F4346203B202034423333,
  0x564E2045524155515320206F532023202020202020363730302045363030203B434B464E5F4346203B202035423333,
  0x5620554D2045524155515320206F532023202020202020363730302043423330203B434B464E5F4346203B202036423333,
  0x564D2045524155515320206F532023202020202020363730302044363030203B434B464E5F4346203B202037423333,
  0x564B2045524155515320206F532023202020202020363730302042363030203B434B464E5F4346203B202038423333,
  0x4147454D20564D2045524155515320206F532023202020202020363730302044363030203B434B464E5F4346203B202039423333,
  0x57502045524155515320206F532023202020202020373730302030373030203B434B464E5F4346203B202041423333,
  0x574E2045524155515320206F532023202020202020373730302045363030203B434B464E5F4346203B202042423333,
  0x5720554D2045524155515320206F532023202020202020373730302043423330203B434B464E5F4346203B202043423333,
  0x574D2045524155515320206F532023202020202020373730302044363030203B434B464E5F4346203B202044423333,
  0x574B2045524155515320206F532023202020202020373730302042363030203B434B464E5F4346203B202045423333,
  0x4147454D20574D2045524155515320206F532023202020202020373730302044363030203B434B464E5F4346203B202046423333,
  0x4D484F204B2045524155515320206F532023202020202020394333302042363030203B434B464E5F4346203B202030433333,
  0x4D484F204D2045524155515320206F532023202020202020394333302044363030203B434B464E5F4346203B202031433333,
  0x51422045524155515320206F532023202020202020313730302032363030203B434B464E5F4346203B202033433333,
  0x474B205245564F204320455241555153206F53232037363030204236303020353132322033363030203B434B464E5F4346203B202036433333,
  0x4F432045524155515320206F532023204532303020463630302033363030203B434B464E5F4346203B202037433333,
  0x42442045524155515320206F532023202020202020323630302034363030203B434B464E5F4346203B202038433333,
  0x59472045524155515320206F532023202020202020393730302037363030203B434B464E5F4346203B202039433333,
  0x50482045524155515320206F532023202020202020303730302038363030203B434B464E5F4346203B202042433333,
  0x4B4B2045524155515320206F532023202020202020423630302042363030203B434B464E5F4346203B202044433333,
  0x4C415449504143204D4B2045524155515320206F532023202020202020443630302042363030203B434B464E5F4346203B202045433333,
  0x48502045524155515320206F532023202020202020383630302030373030203B434B464E5F4346203B202037443333,
  0x4D50502045524155515320206F532023204436303020303730302030373030203B434B464E5F4346203B202039443333,
  0x52502045524155515320206F532023202020202020323730302030373030203B434B464E5F4346203B202041443333,
  0x56532045524155515320206F532023202020202020363730302033373030203B434B464E5F4346203B202043443333,
  0x42572045524155515320206F532023202020202020323630302037373030203B434B464E5F4346203B202044443333,
  0x4D205245564F20562045524155515320206F532023204436303020353132322036373030203B434B464E5F4346203B202045443333,
  0x4D205245564F20412045524155515320206F532023204436303020353132322031363030203B434B464E5F4346203B202046443333,
  0x454B4F52545320485449572048204C4154495041432052455454454C205245494649444F4D20206D4C2023202020202020202020202037323130203B434B464E5F4346203B202038463741,
  0x41204C41544950414320444C4F42204C41434954414D454854414D2020264C2023202020202020202020202031363030203B434B464E5F4346203B203030344431,
  0x42204C41544950414320444C4F42204C41434954414D454854414D2020264C2023202020202020202020202032363030203B434B464E5F4346203B203130344431,
  0x43204C41544950414320444C4F42204C41434954414D454854414D2020264C2023202020202020202020202033363030203B434B464E5F4346203B203230344431,
  0x44204C41544950414320444C4F42204C41434954414D454854414D2020264C2023202020202020202020202034363030203B434B464E5F4346203B203330344431,
  0x45204C41544950414320444C4F42204C41434954414D454854414D2020264C2023202020202020202020202035363030203B434B464E5F4346203B203430344431,
  0x46204C41544950414320444C4F42204C41434954414D454854414D2020264C2023202020202020202020202036363030203B434B464E5F4346203B203530344431,
  0x47204C41544950414320444C4F42204C41434954414D454854414D2020264C2023202020202020202020202037363030203B434B464E5F4346203B203630344431,
  0x48204C41544950414320444C4F42204C41434954414D454854414D2020264C2023202020202020202020202038363030203B434B464E5F4346203B203730344431,
  0x49204C41544950414320444C4F42204C41434954414D454854414D2020264C2023202020202020202020202039363030203B434B464E5F4346203B203830344431,
  0x4A204C41544950414320444C4F42204C41434954414D454854414D2020264C2023202020202020202020202041363030203B434B464E5F4346203B203930344431,
  0x4B204C41544950414320444C4F42204C41434954414D454854414D2020264C2023202020202020202020202042363030203B434B464E5F4346203B204130344431,
  0x4C204C41544950414320444C4F42204C41434954414D454854414D2020264C2023202020202020202020202043363030203B434B464E5F4346203B204230344431,
  0x4D204C41544950414320444C4F42204C41434954414D454854414D2020264C2023202020202020202020202044363030203B434B464E5F4346203B204330344431,
  0x4E204C41544950414320444C4F42204C41434954414D454854414D2020264C2023202020202020202020202045363030203B434B464E5F4346203B204430344431,
  0x4F204C41544950414320444C4F42204C41434954414D454854414D2020264C2023202020202020202020202046363030203B434B464E5F4346203B204530344431,
  0x50204C41544950414320444C4F42204C41434954414D454854414D2020264C2023202020202020202020202030373030203B434B464E5F4346203B204630344431,
  0x51204C41544950414320444C4F42204C41434954414D454854414D2020264C2023202020202020202020202031373030203B434B464E5F4346203B203031344431,
  0x52204C41544950414320444C4F42204C41434954414D454854414D2020264C2023202020202020202020202032373030203B434B464E5F4346203B203131344431,
  0x53204C41544950414320444C4F42204C41434954414D454854414D2020264C2023202020202020202020202033373030203B434B464E5F4346203B203231344431,
  0x54204C41544950414320444C4F42204C41434954414D454854414D2020264C2023202020202020202020202034373030203B434B464E5F4346203B203331344431,
  0x55204C41544950414320444C4F42204C41434954414D454854414D2020264C2023202020202020202020202035373030203B434B464E5F4346203B203431344431,
  0x56204C41544950414320444C4F42204C41434954414D454854414D2020264C2023202020202020202020202036373030203B434B464E5F4346203B203531344431,
  0x57204C41544950414320444C4F42204C41434954414D454854414D2020264C2023202020202020202020202037373030203B434B464E5F4346203B203631344431,
  0x58204C41544950414320444C4F42204C41434954414D454854414D2020264C2023202020202020202020202038373030203B434B464E5F4346203B203731344431,
  0x59204C41544950414320444C4F42204C41434954414D454854414D2020264C2023202020202020202020202039373030203B434B464E5F4346203B203831344431,
  0x5A204C41544950414320444C4F42204C41434954414D454854414D2020264C2023202020202020202020202041373030203B434B464E5F4346203B203931344431,
  0x41204C4154495041432043494C415449204C41434954414D454854414D2020264C2023202020202020202020202031363030203B434B464E5F4346203B203433344431,
  0x42204C4154495041432043494C415449204C41434954414D454854414D2020264C2023202020202020202020202032363030203B434B464E5F4346203B203533344431,
  0x43204C4154495041432043494C415449204C41434954414D454854414D2020264C2023202020202020202020202033363030203B434B464E5F4346203B203633344431,
  0x44204C4154495041432043494C415449204C41434954414D454854414D2020264C2023202020202020202020202034363030203B434B464E5F4346203B203733344431,
  0x45204C4154495041432043494C415449204C41434954414D454854414D2020264C2023202020202020202020202035363030203B434B464E5F4346203B203833344431,
  0x46204C4154495041432043494C415449204C41434954414D454854414D2020264C2023202020202020202020202036363030203B434B464E5F4346203B203933344431,
  0x47204C4154495041432043494C415449204C41434954414D454854414D2020264C2023202020202020202020202037363030203B434B464E5F4346203B204133344431,
  0x48204C4154495041432043494C415449204C41434954414D454854414D2020264C2023202020202020202020202038363030203B434B464E5F4346203B204233344431,
  0x49204C4154495041432043494C415449204C41434954414D454854414D2020264C2023202020202020202020202039363030203B434B464E5F4346203B204333344431,
  0x4A204C4154495041432043494C415449204C41434954414D454854414D2020264C2023202020202020202020202041363030203B434B464E5F4346203B204433344431,
  0x4B204C4154495041432043494C415449204C41434954414D454854414D2020264C2023202020202020202020202042363030203B434B464E5F4346203B204533344431,
  0x4C204C4154495041432043494C415449204C41434954414D454854414D2020264C2023202020202020202020202043363030203B434B464E5F4346203B204633344431,
  0x4D204C4154495041432043494C415449204C41434954414D454854414D2020264C2023202020202020202020202044363030203B434B464E5F4346203B203034344431,
  0x4E204C4154495041432043494C415449204C41434954414D454854414D2020264C2023202020202020202020202045363030203B434B464E5F4346203B203134344431,
  0x4F204C4154495041432043494C415449204C41434954414D454854414D2020264C2023202020202020202020202046363030203B434B464E5F4346203B203234344431,
  0x50204C4154495041432043494C415449204C41434954414D454854414D2020264C2023202020202020202020202030373030203B434B464E5F4346203B203334344431,
  0x51204C4154495041432043494C415449204C41434954414D454854414D2020264C2023202020202020202020202031373030203B434B464E5F4346203B203434344431,
  0x52204C4154495041432043494C415449204C41434954414D454854414D2020264C2023202020202020202020202032373030203B434B464E5F4346203B203534344431,
  0x53204C4154495041432043494C415449204C41434954414D454854414D2020264C2023202020202020202020202033373030203B434B464E5F4346203B203634344431,
  0x54204C4154495041432043494C415449204C41434954414D454854414D2020264C2023202020202020202020202034373030203B434B464E5F4346203B203734344431,
  0x55204C4154495041432043494C415449204C41434954414D454854414D2020264C2023202020202020202020202035373030203B434B464E5F4346203B203834344431,
  0x56204C4154495041432043494C415449204C41434954414D454854414D2020264C2023202020202020202020202036373030203B434B464E5F4346203B203934344431,
  0x57204C4154495041432043494C415449204C41434954414D454854414D2020264C2023202020202020202020202037373030203B434B464E5F4346203B204134344431,
  0x58204C4154495041432043494C415449204C41434954414D454854414D2020264C2023202020202020202020202038373030203B434B464E5F4346203B204234344431,
  0x59204C4154495041432043494C415449204C41434954414D454854414D2020264C2023202020202020202020202039373030203B434B464E5F4346203B204334344431,
  0x5A204C4154495041432043494C415449204C41434954414D454854414D2020264C2023202020202020202020202041373030203B434B464E5F4346203B204434344431,
  0x41204C4154495041432043494C41544920444C4F42204C41434954414D454854414D2020264C2023202020202020202020202031363030203B434B464E5F4346203B203836344431,
  0x42204C4154495041432043494C41544920444C4F42204C41434954414D454854414D2020264C2023202020202020202020202032363030203B434B464E5F4346203B203936344431,
  0x43204C4154495041432043494C41544920444C4F42204C41434954414D454854414D2020264C2023202020202020202020202033363030203B434B464E5F4346203B204136344431,
  0x44204C4154495041432043494C41544920444C4F42204C41434954414D454854414D2020264C2023202020202020202020202034363030203B434B464E5F4346203B204236344431,
  0x45204C4154495041432043494C41544920444C4F42204C41434954414D454854414D2020264C2023202020202020202020202035363030203B434B464E5F4346203B204336344431,
  0x46204C4154495041432043494C41544920444C4F42204C41434954414D454854414D2020264C2023202020202020202020202036363030203B434B464E5F4346203B204436344431,
  0x47204C4154495041432043494C41544920444C4F42204C41434954414D454854414D2020264C2023202020202020202020202037363030203B434B464E5F4346203B204536344431,
  0x48204C4154495041432043494C41544920444C4F42204C41434954414D454854414D2020264C2023202020202020202020202038363030203B434B464E5F4346203B204636344431,
  0x49204C4154495041432043494C41544920444C4F42204C41434954414D454854414D2020264C2023202020202020202020202039363030203B434B464E5F4346203B203037344431,
  0x4A204C4154495041432043494C41544920444C4F42204C41434954414D454854414D2020264C2023202020202020202020202041363030203B434B464E5F4346203B203137344431,
  0x4B204C4154495041432043494C41544920444C4F42204C41434954414D454854414D2020264C2023202020202020202020202042363030203B434B464E5F4346203B203237344431,
  0x4C204C4154495041432043494C41544920444C4F42204C41434954414D454854414D2020264C2023202020202020202020202043363030203B434B464E5F4346203B203337344431,
  0x4D204C4154495041432043494C41544920444C4F42204C41434954414D454854414D2020264C2023202020202020202020202044363030203B434B464E5F4346203B203437344431,
  0x4E204C4154495041432043494C41544920444C4F42204C41434954414D454854414D2020264C2023202020202020202020202045363030203B434B464E5F4346203B203537344431,
  0x4F204C4154495041432043494C41544920444C4F42204C41434954414D454854414D2020264C2023202020202020202020202046363030203B434B464E5F4346203B203637344431,
  0x50204C4154495041432043494C41544920444C4F42204C41434954414D454854414D2020264C2023202020202020202020202030373030203B434B464E5F4346203B203737344431,
  0x51204C4154495041432043494C41544920444C4F42204C41434954414D454854414D2020264C2023202020202020202020202031373030203B434B464E5F4346203B203837344431,
  0x52204C4154495041432043494C41544920444C4F42204C41434954414D454854414D2020264C2023202020202020202020202032373030203B434B464E5F4346203B203937344431,
  0x53204C4154495041432043494C41544920444C4F42204C41434954414D454854414D2020264C2023202020202020202020202033373030203B434B464E5F4346203B204137344431,
  0x54204C4154495041432043494C41544920444C4F42204C41434954414D454854414D2020264C2023202020202020202020202034373030203B434B464E5F4346203B204237344431,
  0x55204C4154495041432043494C41544920444C4F42204C41434954414D454854414D2020264C2023202020202020202020202035373030203B434B464E5F4346203B204337344431,
  0x56204C4154495041432043494C41544920444C4F42204C41434954414D454854414D2020264C2023202020202020202020202036373030203B434B464E5F4346203B204437344431,
  0x57204C4154495041432043494C41544920444C4F42204C41434954414D454854414D2020264C2023202020202020202020202037373030203B434B464E5F4346203B204537344431,
  0x58204C4154495041432043494C41544920444C4F42204C41434954414D454854414D2020264C2023202020202020202020202038373030203B434B464E5F4346203B204637344431,
  0x59204C4154495041432043494C41544920444C4F42204C41434954414D454854414D2020264C2023202020202020202020202039373030203B434B464E5F4346203B203038344431,
  0x5A204C4154495041432043494C41544920444C4F42204C41434954414D454854414D2020264C2023202020202020202020202041373030203B434B464E5F4346203B203138344431,
  0x41204C41544950414320545049524353204C41434954414D454854414D2020264C2023202020202020202020202031363030203B434B464E5F4346203B204339344431,
  0x43204C41544950414320545049524353204C41434954414D454854414D2020264C2023202020202020202020202033363030203B434B464E5F4346203B204539344431,
  0x44204C41544950414320545049524353204C41434954414D454854414D2020264C2023202020202020202020202034363030203B434B464E5F4346203B204639344431,
  0x47204C41544950414320545049524353204C41434954414D454854414D2020264C2023202020202020202020202037363030203B434B464E5F4346203B203241344431,
  0x4A204C41544950414320545049524353204C41434954414D454854414D2020264C2023202020202020202020202041363030203B434B464E5F4346203B203541344431,
  0x4B204C41544950414320545049524353204C41434954414D454854414D2020264C2023202020202020202020202042363030203B434B464E5F4346203B203641344431,
  0x4E204C41544950414320545049524353204C41434954414D454854414D2020264C2023202020202020202020202045363030203B434B464E5F4346203B203941344431,
  0x4F204C41544950414320545049524353204C41434954414D454854414D2020264C2023202020202020202020202046363030203B434B464E5F4346203B204141344431,
  0x50204C41544950414320545049524353204C41434954414D454854414D2020264C2023202020202020202020202030373030203B434B464E5F4346203B204241344431,
  0x51204C41544950414320545049524353204C41434954414D454854414D2020264C2023202020202020202020202031373030203B434B464E5F4346203B204341344431,
  0x53204C41544950414320545049524353204C41434954414D454854414D2020264C2023202020202020202020202033373030203B434B464E5F4346203B204541344431,
  0x54204C41544950414320545049524353204C41434954414D454854414D2020264C2023202020202020202020202034373030203B434B464E5F4346203B204641344431,
  0x55204C41544950414320545049524353204C41434954414D454854414D2020264C2023202020202020202020202035373030203B434B464E5F4346203B203042344431,
  0x56204C41544950414320545049524353204C41434954414D454854414D2020264C2023202020202020202020202036373030203B434B464E5F4346203B203142344431,
  0x57204C41544950414320545049524353204C41434954414D454854414D2020264C2023202020202020202020202037373030203B434B464E5F4346203B203242344431,
  0x58204C41544950414320545049524353204C41434954414D454854414D2020264C2023202020202020202020202038373030203B434B464E5F4346203B203342344431,
  0x59204C41544950414320545049524353204C41434954414D454854414D2020264C2023202020202020202020202039373030203B434B464E5F4346203B203442344431,
  0x5A204C41544950414320545049524353204C41434954414D454854414D2020264C2023202020202020202020202041373030203B434B464E5F4346203B203542344431,
  0x41204C4154495041432054504952435320444C4F42204C41434954414D454854414D2020264C2023202020202020202020202031363030203B434B464E5F4346203B203044344431,
  0x42204C4154495041432054504952435320444C4F42204C41434954414D454854414D2020264C2023202020202020202020202032363030203B434B464E5F4346203B203144344431,
  0x43204C4154495041432054504952435320444C4F42204C41434954414D454854414D2020264C2023202020202020202020202033363030203B434B464E5F4346203B203244344431,
  0x44204C4154495041432054504952435320444C4F42204C41434954414D454854414D2020264C2023202020202020202020202034363030203B434B464E5F4346203B203344344431,
  0x45204C4154495041432054504952435320444C4F42204C41434954414D454854414D2020264C2023202020202020202020202035363030203B434B464E5F4346203B203444344431,
  0x46204C4154495041432054504952435320444C4F42204C41434954414D454854414D2020264C2023202020202020202020202036363030203B434B464E5F4346203B203544344431,
  0x47204C4154495041432054504952435320444C4F42204C41434954414D454854414D2020264C2023202020202020202020202037363030203B434B464E5F4346203B203644344431,
  0x48204C4154495041432054504952435320444C4F42204C41434954414D454854414D2020264C2023202020202020202020202038363030203B434B464E5F4346203B203744344431,
  0x49204C4154495041432054504952435320444C4F42204C41434954414D454854414D2020264C2023202020202020202020202039363030203B434B464E5F4346203B203844344431,
  0x4A204C4154495041432054504952435320444C4F42204C41434954414D454854414D2020264C2023202020202020202020202041363030203B434B464E5F4346203B203944344431,
  0x4B204C4154495041432054504952435320444C4F42204C41434954414D454854414D2020264C2023202020202020202020202042363030203B434B464E5F4346203B204144344431,
  0x4C204C4154495041432054504952435320444C4F42204C41434954414D454854414D2020264C2023202020202020202020202043363030203B434B464E5F4346203B204244344431,
  0x4D204C4154495041432054504952435320444C4F42204C41434954414D454854414D2020264C2023202020202020202020202044363030203B434B464E5F4346203B204344344431,
  0x4E204C4154495041432054504952435320444C4F42204C41434954414D454854414D2020264C2023202020202020202020202045363030203B434B464E5F4346203B204444344431,
  0x4F204C4154495041432054504952435320444C4F42204C41434954414D454854414D2020264C2023202020202020202020202046363030203B434B464E5F4346203B204544344431,
  0x50204C4154495041432054504952435320444C4F42204C41434954414D454854414D2020264C2023202020202020202020202030373030203B434B464E5F4346203B204644344431,
  0x51204C4154495041432054504952435320444C4F42204C41434954414D454854414D2020264C2023202020202020202020202031373030203B434B464E5F4346203B203045344431,
  0x52204C4154495041432054504952435320444C4F42204C41434954414D454854414D2020264C2023202020202020202020202032373030203B434B464E5F4346203B203145344431,
  0x53204C4154495041432054504952435320444C4F42204C41434954414D454854414D2020264C2023202020202020202020202033373030203B434B464E5F4346203B203245344431]

def qcText1 : List Nat := [
  0x54204C4154495041432054504952435320444C4F42204C41434954414D454854414D2020264C2023202020202020202020202034373030203B434B464E5F4346203B203345344431,
  0x55204C4154495041432054504952435320444C4F42204C41434954414D454854414D2020264C2023202020202020202020202035373030203B434B464E5F4346203B203445344431,
  0x56204C4154495041432054504952435320444C4F42204C41434954414D454854414D2020264C2023202020202020202020202036373030203B434B464E5F4346203B203545344431,
  0x57204C4154495041432054504952435320444C4F42204C41434954414D454854414D2020264C2023202020202020202020202037373030203B434B464E5F4346203B203645344431,
  0x58204C4154495041432054504952435320444C4F42204C41434954414D454854414D2020264C2023202020202020202020202038373030203B434B464E5F4346203B203745344431,
  0x59204C4154495041432054504952435320444C4F42204C41434954414D454854414D2020264C2023202020202020202020202039373030203B434B464E5F4346203B203845344431,
  0x5A204C4154495041432054504952435320444C4F42204C41434954414D454854414D2020264C2023202020202020202020202041373030203B434B464E5F4346203B203945344431,
  0x41204C415449504143205255544B415246204C41434954414D454854414D2020264C2023202020202020202020202031363030203B434B464E5F4346203B203430354431,
  0x42204C415449504143205255544B415246204C41434954414D454854414D2020264C2023202020202020202020202032363030203B434B464E5F4346203B203530354431,
  0x44204C415449504143205255544B415246204C41434954414D454854414D2020264C2023202020202020202020202034363030203B434B464E5F4346203B203730354431,
  0x45204C415449504143205255544B415246204C41434954414D454854414D2020264C2023202020202020202020202035363030203B434B464E5F4346203B203830354431,
  0x46204C415449504143205255544B415246204C41434954414D454854414D2020264C2023202020202020202020202036363030203B434B464E5F4346203B203930354431,
  0x47204C415449504143205255544B415246204C41434954414D454854414D2020264C2023202020202020202020202037363030203B434B464E5F4346203B204130354431,
  0x4A204C415449504143205255544B415246204C41434954414D454854414D2020264C2023202020202020202020202041363030203B434B464E5F4346203B204430354431,
  0x4B204C415449504143205255544B415246204C41434954414D454854414D2020264C2023202020202020202020202042363030203B434B464E5F4346203B204530354431,
  0x4C204C415449504143205255544B415246204C41434954414D454854414D2020264C2023202020202020202020202043363030203B434B464E5F4346203B204630354431,
  0x4D204C415449504143205255544B415246204C41434954414D454854414D2020264C2023202020202020202020202044363030203B434B464E5F4346203B203031354431,
  0x4E204C415449504143205255544B415246204C41434954414D454854414D2020264C2023202020202020202020202045363030203B434B464E5F4346203B203131354431,
  0x4F204C415449504143205255544B415246204C41434954414D454854414D2020264C2023202020202020202020202046363030203B434B464E5F4346203B203231354431,
  0x50204C415449504143205255544B415246204C41434954414D454854414D2020264C2023202020202020202020202030373030203B434B464E5F4346203B203331354431,
  0x51204C415449504143205255544B415246204C41434954414D454854414D2020264C2023202020202020202020202031373030203B434B464E5F4346203B203431354431,
  0x53204C415449504143205255544B415246204C41434954414D454854414D2020264C2023202020202020202020202033373030203B434B464E5F4346203B203631354431,
  0x54204C415449504143205255544B415246204C41434954414D454854414D2020264C2023202020202020202020202034373030203B434B464E5F4346203B203731354431,
  0x55204C415449504143205255544B415246204C41434954414D454854414D2020264C2023202020202020202020202035373030203B434B464E5F4346203B203831354431,
  0x56204C415449504143205255544B415246204C41434954414D454854414D2020264C2023202020202020202020202036373030203B434B464E5F4346203B203931354431,
  0x57204C415449504143205255544B415246204C41434954414D454854414D2020264C2023202020202020202020202037373030203B434B464E5F4346203B204131354431,
  0x58204C415449504143205255544B415246204C41434954414D454854414D2020264C2023202020202020202020202038373030203B434B464E5F4346203B204231354431,
  0x59204C415449504143205255544B415246204C41434954414D454854414D2020264C2023202020202020202020202039373030203B434B464E5F4346203B204331354431,
  0x41204C415449504143204B43555254532D454C42554F44204C41434954414D454854414D2020264C2023202020202020202020202031363030203B434B464E5F4346203B203833354431,
  0x42204C415449504143204B43555254532D454C42554F44204C41434954414D454854414D2020264C2023202020202020202020202032363030203B434B464E5F4346203B203933354431,
  0x44204C415449504143204B43555254532D454C42554F44204C41434954414D454854414D2020264C2023202020202020202020202034363030203B434B464E5F4346203B204233354431,
  0x45204C415449504143204B43555254532D454C42554F44204C41434954414D454854414D2020264C2023202020202020202020202035363030203B434B464E5F4346203B204333354431,
  0x46204C415449504143204B43555254532D454C42554F44204C41434954414D454854414D2020264C2023202020202020202020202036363030203B434B464E5F4346203B204433354431,
  0x47204C415449504143204B43555254532D454C42554F44204C41434954414D454854414D2020264C2023202020202020202020202037363030203B434B464E5F4346203B204533354431,
  0x49204C415449504143204B43555254532D454C42554F44204C41434954414D454854414D2020264C2023202020202020202020202039363030203B434B464E5F4346203B203034354431,
  0x4A204C415449504143204B43555254532D454C42554F44204C41434954414D454854414D2020264C2023202020202020202020202041363030203B434B464E5F4346203B203134354431,
  0x4B204C415449504143204B43555254532D454C42554F44204C41434954414D454854414D2020264C2023202020202020202020202042363030203B434B464E5F4346203B203234354431,
  0x4C204C415449504143204B43555254532D454C42554F44204C41434954414D454854414D2020264C2023202020202020202020202043363030203B434B464E5F4346203B203334354431,
  0x4D204C415449504143204B43555254532D454C42554F44204C41434954414D454854414D2020264C2023202020202020202020202044363030203B434B464E5F4346203B203434354431,
  0x4F204C415449504143204B43555254532D454C42554F44204C41434954414D454854414D2020264C2023202020202020202020202046363030203B434B464E5F4346203B203634354431,
  0x53204C415449504143204B43555254532D454C42554F44204C41434954414D454854414D2020264C2023202020202020202020202033373030203B434B464E5F4346203B204134354431,
  0x54204C415449504143204B43555254532D454C42554F44204C41434954414D454854414D2020264C2023202020202020202020202034373030203B434B464E5F4346203B204234354431,
  0x55204C415449504143204B43555254532D454C42554F44204C41434954414D454854414D2020264C2023202020202020202020202035373030203B434B464E5F4346203B204334354431,
  0x56204C415449504143204B43555254532D454C42554F44204C41434954414D454854414D2020264C2023202020202020202020202036373030203B434B464E5F4346203B204434354431,
  0x57204C415449504143204B43555254532D454C42554F44204C41434954414D454854414D2020264C2023202020202020202020202037373030203B434B464E5F4346203B204534354431,
  0x58204C415449504143204B43555254532D454C42554F44204C41434954414D454854414D2020264C2023202020202020202020202038373030203B434B464E5F4346203B204634354431,
  0x59204C415449504143204B43555254532D454C42554F44204C41434954414D454854414D2020264C2023202020202020202020202039373030203B434B464E5F4346203B203035354431,
  0x41204C415449504143205255544B41524620444C4F42204C41434954414D454854414D2020264C2023202020202020202020202031363030203B434B464E5F4346203B204336354431,
  0x42204C415449504143205255544B41524620444C4F42204C41434954414D454854414D2020264C2023202020202020202020202032363030203B434B464E5F4346203B204436354431,
  0x43204C415449504143205255544B41524620444C4F42204C41434954414D454854414D2020264C2023202020202020202020202033363030203B434B464E5F4346203B204536354431,
  0x44204C415449504143205255544B41524620444C4F42204C41434954414D454854414D2020264C2023202020202020202020202034363030203B434B464E5F4346203B204636354431,
  0x45204C415449504143205255544B41524620444C4F42204C41434954414D454854414D2020264C2023202020202020202020202035363030203B434B464E5F4346203B203037354431,
  0x46204C415449504143205255544B41524620444C4F42204C41434954414D454854414D2020264C2023202020202020202020202036363030203B434B464E5F4346203B203137354431,
  0x47204C415449504143205255544B41524620444C4F42204C41434954414D454854414D2020264C2023202020202020202020202037363030203B434B464E5F4346203B203237354431,
  0x48204C415449504143205255544B41524620444C4F42204C41434954414D454854414D2020264C2023202020202020202020202038363030203B434B464E5F4346203B203337354431,
  0x49204C415449504143205255544B41524620444C4F42204C41434954414D454854414D2020264C2023202020202020202020202039363030203B434B464E5F4346203B203437354431,
  0x4A204C415449504143205255544B41524620444C4F42204C41434954414D454854414D2020264C2023202020202020202020202041363030203B434B464E5F4346203B203537354431,
  0x4B204C415449504143205255544B41524620444C4F42204C41434954414D454854414D2020264C2023202020202020202020202042363030203B434B464E5F4346203B203637354431,
  0x4C204C415449504143205255544B41524620444C4F42204C41434954414D454854414D2020264C2023202020202020202020202043363030203B434B464E5F4346203B203737354431,
  0x4D204C415449504143205255544B41524620444C4F42204C41434954414D454854414D2020264C2023202020202020202020202044363030203B434B464E5F4346203B203837354431,
  0x4E204C415449504143205255544B41524620444C4F42204C41434954414D454854414D2020264C2023202020202020202020202045363030203B434B464E5F4346203B203937354431,
  0x4F204C415449504143205255544B41524620444C4F42204C41434954414D454854414D2020264C2023202020202020202020202046363030203B434B464E5F4346203B204137354431,
  0x50204C415449504143205255544B41524620444C4F42204C41434954414D454854414D2020264C2023202020202020202020202030373030203B434B464E5F4346203B204237354431,
  0x51204C415449504143205255544B41524620444C4F42204C41434954414D454854414D2020264C2023202020202020202020202031373030203B434B464E5F4346203B204337354431,
  0x52204C415449504143205255544B41524620444C4F42204C41434954414D454854414D2020264C2023202020202020202020202032373030203B434B464E5F4346203B204437354431,
  0x53204C415449504143205255544B41524620444C4F42204C41434954414D454854414D2020264C2023202020202020202020202033373030203B434B464E5F4346203B204537354431,
  0x54204C415449504143205255544B41524620444C4F42204C41434954414D454854414D2020264C2023202020202020202020202034373030203B434B464E5F4346203B204637354431,
  0x55204C415449504143205255544B41524620444C4F42204C41434954414D454854414D2020264C2023202020202020202020202035373030203B434B464E5F4346203B203038354431,
  0x56204C415449504143205255544B41524620444C4F42204C41434954414D454854414D2020264C2023202020202020202020202036373030203B434B464E5F4346203B203138354431,
  0x57204C415449504143205255544B41524620444C4F42204C41434954414D454854414D2020264C2023202020202020202020202037373030203B434B464E5F4346203B203238354431,
  0x58204C415449504143205255544B41524620444C4F42204C41434954414D454854414D2020264C2023202020202020202020202038373030203B434B464E5F4346203B203338354431,
  0x59204C415449504143205255544B41524620444C4F42204C41434954414D454854414D2020264C2023202020202020202020202039373030203B434B464E5F4346203B203438354431,
  0x5A204C415449504143205255544B41524620444C4F42204C41434954414D454854414D2020264C2023202020202020202020202041373030203B434B464E5F4346203B203538354431,
  0x41204C4154495041432046495245532D534E4153204C41434954414D454854414D2020264C2023202020202020202020202031363030203B434B464E5F4346203B203041354431,
  0x42204C4154495041432046495245532D534E4153204C41434954414D454854414D2020264C2023202020202020202020202032363030203B434B464E5F4346203B203141354431,
  0x43204C4154495041432046495245532D534E4153204C41434954414D454854414D2020264C2023202020202020202020202033363030203B434B464E5F4346203B203241354431,
  0x44204C4154495041432046495245532D534E4153204C41434954414D454854414D2020264C2023202020202020202020202034363030203B434B464E5F4346203B203341354431,
  0x45204C4154495041432046495245532D534E4153204C41434954414D454854414D2020264C2023202020202020202020202035363030203B434B464E5F4346203B203441354431,
  0x46204C4154495041432046495245532D534E4153204C41434954414D454854414D2020264C2023202020202020202020202036363030203B434B464E5F4346203B203541354431,
  0x47204C4154495041432046495245532D534E4153204C41434954414D454854414D2020264C2023202020202020202020202037363030203B434B464E5F4346203B203641354431,
  0x48204C4154495041432046495245532D534E4153204C41434954414D454854414D2020264C2023202020202020202020202038363030203B434B464E5F4346203B203741354431,
  0x49204C4154495041432046495245532D534E4153204C41434954414D454854414D2020264C2023202020202020202020202039363030203B434B464E5F4346203B203841354431,
  0x4A204C4154495041432046495245532D534E4153204C41434954414D454854414D2020264C2023202020202020202020202041363030203B434B464E5F4346203B203941354431,
  0x4B204C4154495041432046495245532D534E4153204C41434954414D454854414D2020264C2023202020202020202020202042363030203B434B464E5F4346203B204141354431,
  0x4C204C4154495041432046495245532D534E4153204C41434954414D454854414D2020264C2023202020202020202020202043363030203B434B464E5F4346203B204241354431,
  0x4D204C4154495041432046495245532D534E4153204C41434954414D454854414D2020264C2023202020202020202020202044363030203B434B464E5F4346203B204341354431,
  0x4E204C4154495041432046495245532D534E4153204C41434954414D454854414D2020264C2023202020202020202020202045363030203B434B464E5F4346203B204441354431,
  0x4F204C4154495041432046495245532D534E4153204C41434954414D454854414D2020264C2023202020202020202020202046363030203B434B464E5F4346203B204541354431,
  0x50204C4154495041432046495245532D534E4153204C41434954414D454854414D2020264C2023202020202020202020202030373030203B434B464E5F4346203B204641354431,
  0x51204C4154495041432046495245532D534E4153204C41434954414D454854414D2020264C2023202020202020202020202031373030203B434B464E5F4346203B203042354431,
  0x52204C4154495041432046495245532D534E4153204C41434954414D454854414D2020264C2023202020202020202020202032373030203B434B464E5F4346203B203142354431,
  0x53204C4154495041432046495245532D534E4153204C41434954414D454854414D2020264C2023202020202020202020202033373030203B434B464E5F4346203B203242354431,
  0x54204C4154495041432046495245532D534E4153204C41434954414D454854414D2020264C2023202020202020202020202034373030203B434B464E5F4346203B203342354431,
  0x55204C4154495041432046495245532D534E4153204C41434954414D454854414D2020264C2023202020202020202020202035373030203B434B464E5F4346203B203442354431,
  0x56204C4154495041432046495245532D534E4153204C41434954414D454854414D2020264C2023202020202020202020202036373030203B434B464E5F4346203B203542354431,
  0x57204C4154495041432046495245532D534E4153204C41434954414D454854414D2020264C2023202020202020202020202037373030203B434B464E5F4346203B203642354431,
  0x58204C4154495041432046495245532D534E4153204C41434954414D454854414D2020264C2023202020202020202020202038373030203B434B464E5F4346203B203742354431,
  0x59204C4154495041432046495245532D534E4153204C41434954414D454854414D2020264C2023202020202020202020202039373030203B434B464E5F4346203B203842354431,
  0x5A204C4154495041432046495245532D534E4153204C41434954414D454854414D2020264C2023202020202020202020202041373030203B434B464E5F4346203B203942354431,
  0x41204C41544950414320444C4F422046495245532D534E4153204C41434954414D454854414D2020264C2023202020202020202020202031363030203B434B464E5F4346203B203444354431,
  0x42204C41544950414320444C4F422046495245532D534E4153204C41434954414D454854414D2020264C2023202020202020202020202032363030203B434B464E5F4346203B203544354431,
  0x43204C41544950414320444C4F422046495245532D534E4153204C41434954414D454854414D2020264C2023202020202020202020202033363030203B434B464E5F4346203B203644354431,
  0x44204C41544950414320444C4F422046495245532D534E4153204C41434954414D454854414D2020264C2023202020202020202020202034363030203B434B464E5F4346203B203744354431,
  0x45204C41544950414320444C4F422046495245532D534E4153204C41434954414D454854414D2020264C2023202020202020202020202035363030203B434B464E5F4346203B203844354431,
  0x46204C41544950414320444C4F422046495245532D534E4153204C41434954414D454854414D2020264C2023202020202020202020202036363030203B434B464E5F4346203B203944354431,
  0x47204C41544950414320444C4F422046495245532D534E4153204C41434954414D454854414D2020264C2023202020202020202020202037363030203B434B464E5F4346203B204144354431,
  0x48204C41544950414320444C4F422046495245532D534E4153204C41434954414D454854414D2020264C2023202020202020202020202038363030203B434B464E5F4346203B204244354431,
  0x49204C41544950414320444C4F422046495245532D534E4153204C41434954414D454854414D2020264C2023202020202020202020202039363030203B434B464E5F4346203B204344354431,
  0x4A204C41544950414320444C4F422046495245532D534E4153204C41434954414D454854414D2020264C2023202020202020202020202041363030203B434B464E5F4346203B204444354431,
  0x4B204C41544950414320444C4F422046495245532D534E4153204C41434954414D454854414D2020264C2023202020202020202020202042363030203B434B464E5F4346203B204544354431,
  0x4C204C41544950414320444C4F422046495245532D534E4153204C41434954414D454854414D2020264C2023202020202020202020202043363030203B434B464E5F4346203B204644354431,
  0x4D204C41544950414320444C4F422046495245532D534E4153204C41434954414D454854414D2020264C2023202020202020202020202044363030203B434B464E5F4346203B203045354431,
  0x4E204C41544950414320444C4F422046495245532D534E4153204C41434954414D454854414D2020264C2023202020202020202020202045363030203B434B464E5F4346203B203145354431,
  0x4F204C41544950414320444C4F422046495245532D534E4153204C41434954414D454854414D2020264C2023202020202020202020202046363030203B434B464E5F4346203B203245354431,
  0x50204C41544950414320444C4F422046495245532D534E4153204C41434954414D454854414D2020264C2023202020202020202020202030373030203B434B464E5F4346203B203345354431,
  0x51204C41544950414320444C4F422046495245532D534E4153204C41434954414D454854414D2020264C2023202020202020202020202031373030203B434B464E5F4346203B203445354431,
  0x52204C41544950414320444C4F422046495245532D534E4153204C41434954414D454854414D2020264C2023202020202020202020202032373030203B434B464E5F4346203B203545354431,
  0x53204C41544950414320444C4F422046495245532D534E4153204C41434954414D454854414D2020264C2023202020202020202020202033373030203B434B464E5F4346203B203645354431,
  0x54204C41544950414320444C4F422046495245532D534E4153204C41434954414D454854414D2020264C2023202020202020202020202034373030203B434B464E5F4346203B203745354431,
  0x55204C41544950414320444C4F422046495245532D534E4153204C41434954414D454854414D2020264C2023202020202020202020202035373030203B434B464E5F4346203B203845354431,
  0x56204C41544950414320444C4F422046495245532D534E4153204C41434954414D454854414D2020264C2023202020202020202020202036373030203B434B464E5F4346203B203945354431,
  0x57204C41544950414320444C4F422046495245532D534E4153204C41434954414D454854414D2020264C2023202020202020202020202037373030203B434B464E5F4346203B204145354431,
  0x58204C41544950414320444C4F422046495245532D534E4153204C41434954414D454854414D2020264C2023202020202020202020202038373030203B434B464E5F4346203B204245354431,
  0x59204C41544950414320444C4F422046495245532D534E4153204C41434954414D454854414D2020264C2023202020202020202020202039373030203B434B464E5F4346203B204345354431,
  0x5A204C41544950414320444C4F422046495245532D534E4153204C41434954414D454854414D2020264C2023202020202020202020202041373030203B434B464E5F4346203B204445354431,
  0x41204C4154495041432043494C4154492046495245532D534E4153204C41434954414D454854414D2020264C2023202020202020202020202031363030203B434B464E5F4346203B203830364431,
  0x42204C4154495041432043494C4154492046495245532D534E4153204C41434954414D454854414D2020264C2023202020202020202020202032363030203B434B464E5F4346203B203930364431,
  0x43204C4154495041432043494C4154492046495245532D534E4153204C41434954414D454854414D2020264C2023202020202020202020202033363030203B434B464E5F4346203B204130364431,
  0x44204C4154495041432043494C4154492046495245532D534E4153204C41434954414D454854414D2020264C2023202020202020202020202034363030203B434B464E5F4346203B204230364431,
  0x45204C4154495041432043494C4154492046495245532D534E4153204C41434954414D454854414D2020264C2023202020202020202020202035363030203B434B464E5F4346203B204330364431,
  0x46204C4154495041432043494C4154492046495245532D534E4153204C41434954414D454854414D2020264C2023202020202020202020202036363030203B434B464E5F4346203B204430364431,
  0x47204C4154495041432043494C4154492046495245532D534E4153204C41434954414D454854414D2020264C2023202020202020202020202037363030203B434B464E5F4346203B204530364431,
  0x48204C4154495041432043494C4154492046495245532D534E4153204C41434954414D454854414D2020264C2023202020202020202020202038363030203B434B464E5F4346203B204630364431,
  0x49204C4154495041432043494C4154492046495245532D534E4153204C41434954414D454854414D2020264C2023202020202020202020202039363030203B434B464E5F4346203B203031364431,
  0x4A204C4154495041432043494C4154492046495245532D534E4153204C41434954414D454854414D2020264C2023202020202020202020202041363030203B434B464E5F4346203B203131364431,
  0x4B204C4154495041432043494C4154492046495245532D534E4153204C41434954414D454854414D2020264C2023202020202020202020202042363030203B434B464E5F4346203B203231364431,
  0x4C204C4154495041432043494C4154492046495245532D534E4153204C41434954414D454854414D2020264C2023202020202020202020202043363030203B434B464E5F4346203B203331364431,
  0x4D204C4154495041432043494C4154492046495245532D534E4153204C41434954414D454854414D2020264C2023202020202020202020202044363030203B434B464E5F4346203B203431364431,
  0x4E204C4154495041432043494C4154492046495245532D534E4153204C41434954414D454854414D2020264C2023202020202020202020202045363030203B434B464E5F4346203B203531364431,
  0x4F204C4154495041432043494C4154492046495245532D534E4153204C41434954414D454854414D2020264C2023202020202020202020202046363030203B434B464E5F4346203B203631364431,
  0x50204C4154495041432043494C4154492046495245532D534E4153204C41434954414D454854414D2020264C2023202020202020202020202030373030203B434B464E5F4346203B203731364431,
  0x51204C4154495041432043494C4154492046495245532D534E4153204C41434954414D454854414D2020264C2023202020202020202020202031373030203B434B464E5F4346203B203831364431,
  0x52204C4154495041432043494C4154492046495245532D534E4153204C41434954414D454854414D2020264C2023202020202020202020202032373030203B434B464E5F4346203B203931364431,
  0x53204C4154495041432043494C4154492046495245532D534E4153204C41434954414D454854414D2020264C2023202020202020202020202033373030203B434B464E5F4346203B204131364431,
  0x54204C4154495041432043494C4154492046495245532D534E4153204C41434954414D454854414D2020264C2023202020202020202020202034373030203B434B464E5F4346203B204231364431,
  0x55204C4154495041432043494C4154492046495245532D534E4153204C41434954414D454854414D2020264C2023202020202020202020202035373030203B434B464E5F4346203B204331364431,
  0x56204C4154495041432043494C4154492046495245532D534E4153204C41434954414D454854414D2020264C2023202020202020202020202036373030203B434B464E5F4346203B204431364431,
  0x57204C4154495041432043494C4154492046495245532D534E4153204C41434954414D454854414D2020264C2023202020202020202020202037373030203B434B464E5F4346203B204531364431,
  0x58204C4154495041432043494C4154492046495245532D534E4153204C41434954414D454854414D2020264C2023202020202020202020202038373030203B434B464E5F4346203B204631364431,
  0x59204C4154495041432043494C4154492046495245532D534E4153204C41434954414D454854414D2020264C2023202020202020202020202039373030203B434B464E5F4346203B203032364431,
  0x5A204C4154495041432043494C4154492046495245532D534E4153204C41434954414D454854414D2020264C2023202020202020202020202041373030203B434B464E5F4346203B203132364431,
  0x41204C4154495041432043494C41544920444C4F422046495245532D534E4153204C41434954414D454854414D2020264C2023202020202020202020202031363030203B434B464E5F4346203B204333364431,
  0x42204C4154495041432043494C41544920444C4F422046495245532D534E4153204C41434954414D454854414D2020264C2023202020202020202020202032363030203B434B464E5F4346203B204433364431,
  0x43204C4154495041432043494C41544920444C4F422046495245532D534E4153204C41434954414D454854414D2020264C2023202020202020202020202033363030203B434B464E5F4346203B204533364431,
  0x44204C4154495041432043494C41544920444C4F422046495245532D534E4153204C41434954414D454854414D2020264C2023202020202020202020202034363030203B434B464E5F4346203B204633364431,
  0x45204C4154495041432043494C41544920444C4F422046495245532D534E4153204C41434954414D454854414D2020264C2023202020202020202020202035363030203B434B464E5F4346203B203034364431,
  0x46204C4154495041432043494C41544920444C4F422046495245532D534E4153204C41434954414D454854414D2020264C2023202020202020202020202036363030203B434B464E5F4346203B203134364431,
  0x47204C4154495041432043494C41544920444C4F422046495245532D534E4153204C41434954414D454854414D2020264C2023202020202020202020202037363030203B434B464E5F4346203B203234364431,
  0x48204C4154495041432043494C41544920444C4F422046495245532D534E4153204C41434954414D454854414D2020264C2023202020202020202020202038363030203B434B464E5F4346203B203334364431,
  0x49204C4154495041432043494C41544920444C4F422046495245532D534E4153204C41434954414D454854414D2020264C2023202020202020202020202039363030203B434B464E5F4346203B203434364431,
  0x4A204C4154495041432043494C41544920444C4F422046495245532D534E4153204C41434954414D454854414D2020264C2023202020202020202020202041363030203B434B464E5F4346203B203534364431,
  0x4B204C4154495041432043494C41544920444C4F422046495245532D534E4153204C41434954414D454854414D2020264C2023202020202020202020202042363030203B434B464E5F4346203B203634364431,
  0x4C204C4154495041432043494C41544920444C4F422046495245532D534E4153204C41434954414D454854414D2020264C2023202020202020202020202043363030203B434B464E5F4346203B203734364431,
  0x4D204C4154495041432043494C41544920444C4F422046495245532D534E4153204C41434954414D454854414D2020264C2023202020202020202020202044363030203B434B464E5F4346203B203834364431,
  0x4E204C4154495041432043494C41544920444C4F422046495245532D534E4153204C41434954414D454854414D2020264C2023202020202020202020202045363030203B434B464E5F4346203B203934364431,
  0x4F204C4154495041432043494C41544920444C4F422046495245532D534E4153204C41434954414D454854414D2020264C2023202020202020202020202046363030203B434B464E5F4346203B204134364431,
  0x50204C4154495041432043494C41544920444C4F422046495245532D534E4153204C41434954414D454854414D2020264C2023202020202020202020202030373030203B434B464E5F4346203B204234364431,
  0x51204C4154495041432043494C41544920444C4F422046495245532D534E4153204C41434954414D454854414D2020264C2023202020202020202020202031373030203B434B464E5F4346203B204334364431,
  0x52204C4154495041432043494C41544920444C4F422046495245532D534E4153204C41434954414D454854414D2020264C2023202020202020202020202032373030203B434B464E5F4346203B204434364431,
  0x53204C4154495041432043494C41544920444C4F422046495245532D534E4153204C41434954414D454854414D2020264C2023202020202020202020202033373030203B434B464E5F4346203B204534364431,
  0x54204C4154495041432043494C41544920444C4F422046495245532D534E4153204C41434954414D454854414D2020264C2023202020202020202020202034373030203B434B464E5F4346203B204634364431,
  0x55204C4154495041432043494C41544920444C4F422046495245532D534E4153204C41434954414D454854414D2020264C2023202020202020202020202035373030203B434B464E5F4346203B203035364431,
  0x56204C4154495041432043494C41544920444C4F422046495245532D534E4153204C41434954414D454854414D2020264C2023202020202020202020202036373030203B434B464E5F4346203B203135364431,
  0x57204C4154495041432043494C41544920444C4F422046495245532D534E4153204C41434954414D454854414D2020264C2023202020202020202020202037373030203B434B464E5F4346203B203235364431,
  0x58204C4154495041432043494C41544920444C4F422046495245532D534E4153204C41434954414D454854414D2020264C2023202020202020202020202038373030203B434B464E5F4346203B203335364431,
  0x59204C4154495041432043494C41544920444C4F422046495245532D534E4153204C41434954414D454854414D2020264C2023202020202020202020202039373030203B434B464E5F4346203B203435364431,
  0x5A204C4154495041432043494C41544920444C4F422046495245532D534E4153204C41434954414D454854414D2020264C2023202020202020202020202041373030203B434B464E5F4346203B203535364431,
  0x41204C4154495041432045434150534F4E4F4D204C41434954414D454854414D2020264C2023202020202020202020202031363030203B434B464E5F4346203B203037364431,
  0x42204C4154495041432045434150534F4E4F4D204C41434954414D454854414D2020264C2023202020202020202020202032363030203B434B464E5F4346203B203137364431,
  0x43204C4154495041432045434150534F4E4F4D204C41434954414D454854414D2020264C2023202020202020202020202033363030203B434B464E5F4346203B203237364431,
  0x44204C4154495041432045434150534F4E4F4D204C41434954414D454854414D2020264C2023202020202020202020202034363030203B434B464E5F4346203B203337364431,
  0x45204C4154495041432045434150534F4E4F4D204C41434954414D454854414D2020264C2023202020202020202020202035363030203B434B464E5F4346203B203437364431,
  0x46204C4154495041432045434150534F4E4F4D204C41434954414D454854414D2020264C2023202020202020202020202036363030203B434B464E5F4346203B203537364431,
  0x47204C4154495041432045434150534F4E4F4D204C41434954414D454854414D2020264C2023202020202020202020202037363030203B434B464E5F4346203B203637364431,
  0x48204C4154495041432045434150534F4E4F4D204C41434954414D454854414D2020264C2023202020202020202020202038363030203B434B464E5F4346203B203737364431,
  0x49204C4154495041432045434150534F4E4F4D204C41434954414D454854414D2020264C2023202020202020202020202039363030203B434B464E5F4346203B203837364431,
  0x4A204C4154495041432045434150534F4E4F4D204C41434954414D454854414D2020264C2023202020202020202020202041363030203B434B464E5F4346203B203937364431,
  0x4B204C4154495041432045434150534F4E4F4D204C41434954414D454854414D2020264C2023202020202020202020202042363030203B434B464E5F4346203B204137364431,
  0x4C204C4154495041432045434150534F4E4F4D204C41434954414D454854414D2020264C2023202020202020202020202043363030203B434B464E5F4346203B204237364431,
  0x4D204C4154495041432045434150534F4E4F4D204C41434954414D454854414D2020264C2023202020202020202020202044363030203B434B464E5F4346203B204337364431,
  0x4E204C4154495041432045434150534F4E4F4D204C41434954414D454854414D2020264C2023202020202020202020202045363030203B434B464E5F4346203B204437364431,
  0x4F204C4154495041432045434150534F4E4F4D204C41434954414D454854414D2020264C2023202020202020202020202046363030203B434B464E5F4346203B204537364431,
  0x50204C4154495041432045434150534F4E4F4D204C41434954414D454854414D2020264C2023202020202020202020202030373030203B434B464E5F4346203B204637364431,
  0x51204C4154495041432045434150534F4E4F4D204C41434954414D454854414D2020264C2023202020202020202020202031373030203B434B464E5F4346203B203038364431,
  0x52204C4154495041432045434150534F4E4F4D204C41434954414D454854414D2020264C2023202020202020202020202032373030203B434B464E5F4346203B203138364431,
  0x53204C4154495041432045434150534F4E4F4D204C41434954414D454854414D2020264C2023202020202020202020202033373030203B434B464E5F4346203B203238364431,
  0x54204C4154495041432045434150534F4E4F4D204C41434954414D454854414D2020264C2023202020202020202020202034373030203B434B464E5F4346203B203338364431,
  0x55204C4154495041432045434150534F4E4F4D204C41434954414D454854414D2020264C2023202020202020202020202035373030203B434B464E5F4346203B203438364431,
  0x56204C4154495041432045434150534F4E4F4D204C41434954414D454854414D2020264C2023202020202020202020202036373030203B434B464E5F4346203B203538364431,
  0x57204C4154495041432045434150534F4E4F4D204C41434954414D454854414D2020264C2023202020202020202020202037373030203B434B464E5F4346203B203638364431,
  0x58204C4154495041432045434150534F4E4F4D204C41434954414D454854414D2020264C2023202020202020202020202038373030203B434B464E5F4346203B203738364431,
  0x59204C4154495041432045434150534F4E4F4D204C41434954414D454854414D2020264C2023202020202020202020202039373030203B434B464E5F4346203B203838364431,
  0x5A204C4154495041432045434150534F4E4F4D204C41434954414D454854414D2020264C2023202020202020202020202041373030203B434B464E5F4346203B203938364431,
  0x4148504C41204C41544950414320444C4F42204C41434954414D454854414D2020264C2023202020202020202020202031423330203B434B464E5F4346203B203841364431,
  0x41544542204C41544950414320444C4F42204C41434954414D454854414D2020264C2023202020202020202020202032423330203B434B464E5F4346203B203941364431,
  0x414D4D4147204C41544950414320444C4F42204C41434954414D454854414D2020264C2023202020202020202020202033423330203B434B464E5F4346203B204141364431,
  0x41544C4544204C41544950414320444C4F42204C41434954414D454854414D2020264C2023202020202020202020202034423330203B434B464E5F4346203B204241364431,
  0x4E4F4C49535045204C41544950414320444C4F42204C41434954414D454854414D2020264C2023202020202020202020202035423330203B434B464E5F4346203B204341364431,
  0x4154455A204C41544950414320444C4F42204C41434954414D454854414D2020264C2023202020202020202020202036423330203B434B464E5F4346203B204441364431,
  0x415445204C41544950414320444C4F42204C41434954414D454854414D2020264C2023202020202020202020202037423330203B434B464E5F4346203B204541364431,
  0x4154454854204C41544950414320444C4F42204C41434954414D454854414D2020264C2023202020202020202020202038423330203B434B464E5F4346203B204641364431,
  0x41544F49204C41544950414320444C4F42204C41434954414D454854414D2020264C2023202020202020202020202039423330203B434B464E5F4346203B203042364431,
  0x415050414B204C41544950414320444C4F42204C41434954414D454854414D2020264C2023202020202020202020202041423330203B434B464E5F4346203B203142364431,
  0x41444D414C204C41544950414320444C4F42204C41434954414D454854414D2020264C2023202020202020202020202042423330203B434B464E5F4346203B203242364431,
  0x554D204C41544950414320444C4F42204C41434954414D454854414D2020264C2023202020202020202020202043423330203B434B464E5F4346203B203342364431,
  0x554E204C41544950414320444C4F42204C41434954414D454854414D2020264C2023202020202020202020202044423330203B434B464E5F4346203B203442364431,
  0x4958204C41544950414320444C4F42204C41434954414D454854414D2020264C2023202020202020202020202045423330203B434B464E5F4346203B203542364431,
  0x4E4F5243494D4F204C41544950414320444C4F42204C41434954414D454854414D2020264C2023202020202020202020202046423330203B434B464E5F4346203B203642364431,
  0x4950204C41544950414320444C4F42204C41434954414D454854414D2020264C2023202020202020202020202030433330203B434B464E5F4346203B203742364431,
  0x4F4852204C41544950414320444C4F42204C41434954414D454854414D2020264C2023202020202020202020202031433330203B434B464E5F4346203B203842364431,
  0x4C4F424D5953204154454854204C41544950414320444C4F42204C41434954414D454854414D2020264C2023202020202020202020202038423330203B434B464E5F4346203B203942364431,
  0x414D474953204C41544950414320444C4F42204C41434954414D454854414D2020264C2023202020202020202020202033433330203B434B464E5F4346203B204142364431,
  0x554154204C41544950414320444C4F42204C41434954414D454854414D2020264C2023202020202020202020202034433330203B434B464E5F4346203B204242364431,
  0x4E4F4C49535055204C41544950414320444C4F42204C41434954414D454854414D2020264C2023202020202020202020202035433330203B434B464E5F4346203B204342364431,
  0x494850204C41544950414320444C4F42204C41434954414D454854414D2020264C2023202020202020202020202036433330203B434B464E5F4346203B204442364431,
  0x494843204C41544950414320444C4F42204C41434954414D454854414D2020264C2023202020202020202020202037433330203B434B464E5F4346203B204542364431,
  0x495350204C41544950414320444C4F42204C41434954414D454854414D2020264C2023202020202020202020202038433330203B434B464E5F4346203B204642364431,
  0x4147454D4F204C41544950414320444C4F42204C41434954414D454854414D2020264C2023202020202020202020202039433330203B434B464E5F4346203B203043364431,
  0x414D474953204C414E4946204C4C414D5320444C4F42204C41434954414D454854414D2020264C2023202020202020202020202033433330203B434B464E5F4346203B203344364431,
  0x4148504C41204C4154495041432043494C415449204C41434954414D454854414D2020264C2023202020202020202020202031423330203B434B464E5F4346203B203245364431,
  0x41544542204C4154495041432043494C415449204C41434954414D454854414D2020264C2023202020202020202020202032423330203B434B464E5F4346203B203345364431,
  0x414D4D4147204C4154495041432043494C415449204C41434954414D454854414D2020264C2023202020202020202020202033423330203B434B464E5F4346203B203445364431,
  0x41544C4544204C4154495041432043494C415449204C41434954414D454854414D2020264C2023202020202020202020202034423330203B434B464E5F4346203B203545364431,
  0x4E4F4C49535045204C4154495041432043494C415449204C41434954414D454854414D2020264C2023202020202020202020202035423330203B434B464E5F4346203B203645364431,
  0x4154455A204C4154495041432043494C415449204C41434954414D454854414D2020264C2023202020202020202020202036423330203B434B464E5F4346203B203745364431,
  0x415445204C4154495041432043494C415449204C41434954414D454854414D2020264C2023202020202020202020202037423330203B434B464E5F4346203B203845364431,
  0x4154454854204C4154495041432043494C415449204C41434954414D454854414D2020264C2023202020202020202020202038423330203B434B464E5F4346203B203945364431,
  0x41544F49204C4154495041432043494C415449204C41434954414D454854414D2020264C2023202020202020202020202039423330203B434B464E5F4346203B204145364431,
  0x415050414B204C4154495041432043494C415449204C41434954414D454854414D2020264C2023202020202020202020202041423330203B434B464E5F4346203B204245364431,
  0x41444D414C204C4154495041432043494C415449204C41434954414D454854414D2020264C2023202020202020202020202042423330203B434B464E5F4346203B204345364431,
  0x554D204C4154495041432043494C415449204C41434954414D454854414D2020264C2023202020202020202020202043423330203B434B464E5F4346203B204445364431,
  0x554E204C4154495041432043494C415449204C41434954414D454854414D2020264C2023202020202020202020202044423330203B434B464E5F4346203B204545364431,
  0x4958204C4154495041432043494C415449204C41434954414D454854414D2020264C2023202020202020202020202045423330203B434B464E5F4346203B204645364431,
  0x4E4F5243494D4F204C4154495041432043494C415449204C41434954414D454854414D2020264C2023202020202020202020202046423330203B434B464E5F4346203B203046364431,
  0x4950204C4154495041432043494C415449204C41434954414D454854414D2020264C2023202020202020202020202030433330203B434B464E5F4346203B203146364431,
  0x4F4852204C4154495041432043494C415449204C41434954414D454854414D2020264C2023202020202020202020202031433330203B434B464E5F4346203B203246364431,
  0x4C4F424D5953204154454854204C4154495041432043494C415449204C41434954414D454854414D2020264C2023202020202020202020202038423330203B434B464E5F4346203B203346364431,
  0x414D474953204C4154495041432043494C415449204C41434954414D454854414D2020264C2023202020202020202020202033433330203B434B464E5F4346203B203446364431,
  0x554154204C4154495041432043494C415449204C41434954414D454854414D2020264C2023202020202020202020202034433330203B434B464E5F4346203B203546364431,
  0x4E4F4C49535055204C4154495041432043494C415449204C41434954414D454854414D2020264C2023202020202020202020202035433330203B434B464E5F4346203B203646364431]

def qcText2 : List Nat := [
  0x494850204C4154495041432043494C415449204C41434954414D454854414D2020264C2023202020202020202020202036433330203B434B464E5F4346203B203746364431,
  0x494843204C4154495041432043494C415449204C41434954414D454854414D2020264C2023202020202020202020202037433330203B434B464E5F4346203B203846364431,
  0x495350204C4154495041432043494C415449204C41434954414D454854414D2020264C2023202020202020202020202038433330203B434B464E5F4346203B203946364431,
  0x4147454D4F204C4154495041432043494C415449204C41434954414D454854414D2020264C2023202020202020202020202039433330203B434B464E5F4346203B204146364431,
  0x414D474953204C414E4946204C4C414D532043494C415449204C41434954414D454854414D2020264C2023202020202020202020202033433330203B434B464E5F4346203B204430374431,
  0x4148504C41204C4154495041432043494C41544920444C4F42204C41434954414D454854414D2020264C2023202020202020202020202031423330203B434B464E5F4346203B204331374431,
  0x41544542204C4154495041432043494C41544920444C4F42204C41434954414D454854414D2020264C2023202020202020202020202032423330203B434B464E5F4346203B204431374431,
  0x414D4D4147204C4154495041432043494C41544920444C4F42204C41434954414D454854414D2020264C2023202020202020202020202033423330203B434B464E5F4346203B204531374431,
  0x41544C4544204C4154495041432043494C41544920444C4F42204C41434954414D454854414D2020264C2023202020202020202020202034423330203B434B464E5F4346203B204631374431,
  0x4E4F4C49535045204C4154495041432043494C41544920444C4F42204C41434954414D454854414D2020264C2023202020202020202020202035423330203B434B464E5F4346203B203032374431,
  0x4154455A204C4154495041432043494C41544920444C4F42204C41434954414D454854414D2020264C2023202020202020202020202036423330203B434B464E5F4346203B203132374431,
  0x415445204C4154495041432043494C41544920444C4F42204C41434954414D454854414D2020264C2023202020202020202020202037423330203B434B464E5F4346203B203232374431,
  0x4154454854204C4154495041432043494C41544920444C4F42204C41434954414D454854414D2020264C2023202020202020202020202038423330203B434B464E5F4346203B203332374431,
  0x41544F49204C4154495041432043494C41544920444C4F42204C41434954414D454854414D2020264C2023202020202020202020202039423330203B434B464E5F4346203B203432374431,
  0x415050414B204C4154495041432043494C41544920444C4F42204C41434954414D454854414D2020264C2023202020202020202020202041423330203B434B464E5F4346203B203532374431,
  0x41444D414C204C4154495041432043494C41544920444C4F42204C41434954414D454854414D2020264C2023202020202020202020202042423330203B434B464E5F4346203B203632374431,
  0x554D204C4154495041432043494C41544920444C4F42204C41434954414D454854414D2020264C2023202020202020202020202043423330203B434B464E5F4346203B203732374431,
  0x554E204C4154495041432043494C41544920444C4F42204C41434954414D454854414D2020264C2023202020202020202020202044423330203B434B464E5F4346203B203832374431,
  0x4958204C4154495041432043494C41544920444C4F42204C41434954414D454854414D2020264C2023202020202020202020202045423330203B434B464E5F4346203B203932374431,
  0x4E4F5243494D4F204C4154495041432043494C41544920444C4F42204C41434954414D454854414D2020264C2023202020202020202020202046423330203B434B464E5F4346203B204132374431,
  0x4950204C4154495041432043494C41544920444C4F42204C41434954414D454854414D2020264C2023202020202020202020202030433330203B434B464E5F4346203B204232374431,
  0x4F4852204C4154495041432043494C41544920444C4F42204C41434954414D454854414D2020264C2023202020202020202020202031433330203B434B464E5F4346203B204332374431,
  0x4C4F424D5953204154454854204C4154495041432043494C41544920444C4F42204C41434954414D454854414D2020264C2023202020202020202020202038423330203B434B464E5F4346203B204432374431,
  0x414D474953204C4154495041432043494C41544920444C4F42204C41434954414D454854414D2020264C2023202020202020202020202033433330203B434B464E5F4346203B204532374431,
  0x554154204C4154495041432043494C41544920444C4F42204C41434954414D454854414D2020264C2023202020202020202020202034433330203B434B464E5F4346203B204632374431,
  0x4E4F4C49535055204C4154495041432043494C41544920444C4F42204C41434954414D454854414D2020264C2023202020202020202020202035433330203B434B464E5F4346203B203033374431,
  0x494850204C4154495041432043494C41544920444C4F42204C41434954414D454854414D2020264C2023202020202020202020202036433330203B434B464E5F4346203B203133374431,
  0x494843204C4154495041432043494C41544920444C4F42204C41434954414D454854414D2020264C2023202020202020202020202037433330203B434B464E5F4346203B203233374431,
  0x495350204C4154495041432043494C41544920444C4F42204C41434954414D454854414D2020264C2023202020202020202020202038433330203B434B464E5F4346203B203333374431,
  0x4147454D4F204C4154495041432043494C41544920444C4F42204C41434954414D454854414D2020264C2023202020202020202020202039433330203B434B464E5F4346203B203433374431,
  0x414D474953204C414E4946204C4C414D532043494C41544920444C4F42204C41434954414D454854414D2020264C2023202020202020202020202033433330203B434B464E5F4346203B203734374431,
  0x4148504C41204C41544950414320444C4F422046495245532D534E4153204C41434954414D454854414D2020264C2023202020202020202020202031423330203B434B464E5F4346203B203635374431,
  0x41544542204C41544950414320444C4F422046495245532D534E4153204C41434954414D454854414D2020264C2023202020202020202020202032423330203B434B464E5F4346203B203735374431,
  0x414D4D4147204C41544950414320444C4F422046495245532D534E4153204C41434954414D454854414D2020264C2023202020202020202020202033423330203B434B464E5F4346203B203835374431,
  0x41544C4544204C41544950414320444C4F422046495245532D534E4153204C41434954414D454854414D2020264C2023202020202020202020202034423330203B434B464E5F4346203B203935374431,
  0x4E4F4C49535045204C41544950414320444C4F422046495245532D534E4153204C41434954414D454854414D2020264C2023202020202020202020202035423330203B434B464E5F4346203B204135374431,
  0x4154455A204C41544950414320444C4F422046495245532D534E4153204C41434954414D454854414D2020264C2023202020202020202020202036423330203B434B464E5F4346203B204235374431,
  0x415445204C41544950414320444C4F422046495245532D534E4153204C41434954414D454854414D2020264C2023202020202020202020202037423330203B434B464E5F4346203B204335374431,
  0x4154454854204C41544950414320444C4F422046495245532D534E4153204C41434954414D454854414D2020264C2023202020202020202020202038423330203B434B464E5F4346203B204435374431,
  0x41544F49204C41544950414320444C4F422046495245532D534E4153204C41434954414D454854414D2020264C2023202020202020202020202039423330203B434B464E5F4346203B204535374431,
  0x415050414B204C41544950414320444C4F422046495245532D534E4153204C41434954414D454854414D2020264C2023202020202020202020202041423330203B434B464E5F4346203B204635374431,
  0x41444D414C204C41544950414320444C4F422046495245532D534E4153204C41434954414D454854414D2020264C2023202020202020202020202042423330203B434B464E5F4346203B203036374431,
  0x554D204C41544950414320444C4F422046495245532D534E4153204C41434954414D454854414D2020264C2023202020202020202020202043423330203B434B464E5F4346203B203136374431,
  0x554E204C41544950414320444C4F422046495245532D534E4153204C41434954414D454854414D2020264C2023202020202020202020202044423330203B434B464E5F4346203B203236374431,
  0x4958204C41544950414320444C4F422046495245532D534E4153204C41434954414D454854414D2020264C2023202020202020202020202045423330203B434B464E5F4346203B203336374431,
  0x4E4F5243494D4F204C41544950414320444C4F422046495245532D534E4153204C41434954414D454854414D2020264C2023202020202020202020202046423330203B434B464E5F4346203B203436374431,
  0x4950204C41544950414320444C4F422046495245532D534E4153204C41434954414D454854414D2020264C2023202020202020202020202030433330203B434B464E5F4346203B203536374431,
  0x4F4852204C41544950414320444C4F422046495245532D534E4153204C41434954414D454854414D2020264C2023202020202020202020202031433330203B434B464E5F4346203B203636374431,
  0x4C4F424D5953204154454854204C41544950414320444C4F422046495245532D534E4153204C41434954414D454854414D2020264C2023202020202020202020202038423330203B434B464E5F4346203B203736374431,
  0x414D474953204C41544950414320444C4F422046495245532D534E4153204C41434954414D454854414D2020264C2023202020202020202020202033433330203B434B464E5F4346203B203836374431,
  0x554154204C41544950414320444C4F422046495245532D534E4153204C41434954414D454854414D2020264C2023202020202020202020202034433330203B434B464E5F4346203B203936374431,
  0x4E4F4C49535055204C41544950414320444C4F422046495245532D534E4153204C41434954414D454854414D2020264C2023202020202020202020202035433330203B434B464E5F4346203B204136374431,
  0x494850204C41544950414320444C4F422046495245532D534E4153204C41434954414D454854414D2020264C2023202020202020202020202036433330203B434B464E5F4346203B204236374431,
  0x494843204C41544950414320444C4F422046495245532D534E4153204C41434954414D454854414D2020264C2023202020202020202020202037433330203B434B464E5F4346203B204336374431,
  0x495350204C41544950414320444C4F422046495245532D534E4153204C41434954414D454854414D2020264C2023202020202020202020202038433330203B434B464E5F4346203B204436374431,
  0x4147454D4F204C41544950414320444C4F422046495245532D534E4153204C41434954414D454854414D2020264C2023202020202020202020202039433330203B434B464E5F4346203B204536374431,
  0x414D474953204C414E4946204C4C414D5320444C4F422046495245532D534E4153204C41434954414D454854414D2020264C2023202020202020202020202033433330203B434B464E5F4346203B203138374431,
  0x4148504C41204C4154495041432043494C41544920444C4F422046495245532D534E4153204C41434954414D454854414D2020264C2023202020202020202020202031423330203B434B464E5F4346203B203039374431,
  0x41544542204C4154495041432043494C41544920444C4F422046495245532D534E4153204C41434954414D454854414D2020264C2023202020202020202020202032423330203B434B464E5F4346203B203139374431,
  0x414D4D4147204C4154495041432043494C41544920444C4F422046495245532D534E4153204C41434954414D454854414D2020264C2023202020202020202020202033423330203B434B464E5F4346203B203239374431,
  0x41544C4544204C4154495041432043494C41544920444C4F422046495245532D534E4153204C41434954414D454854414D2020264C2023202020202020202020202034423330203B434B464E5F4346203B203339374431,
  0x4E4F4C49535045204C4154495041432043494C41544920444C4F422046495245532D534E4153204C41434954414D454854414D2020264C2023202020202020202020202035423330203B434B464E5F4346203B203439374431,
  0x4154455A204C4154495041432043494C41544920444C4F422046495245532D534E4153204C41434954414D454854414D2020264C2023202020202020202020202036423330203B434B464E5F4346203B203539374431,
  0x415445204C4154495041432043494C41544920444C4F422046495245532D534E4153204C41434954414D454854414D2020264C2023202020202020202020202037423330203B434B464E5F4346203B203639374431,
  0x4154454854204C4154495041432043494C41544920444C4F422046495245532D534E4153204C41434954414D454854414D2020264C2023202020202020202020202038423330203B434B464E5F4346203B203739374431,
  0x41544F49204C4154495041432043494C41544920444C4F422046495245532D534E4153204C41434954414D454854414D2020264C2023202020202020202020202039423330203B434B464E5F4346203B203839374431,
  0x415050414B204C4154495041432043494C41544920444C4F422046495245532D534E4153204C41434954414D454854414D2020264C2023202020202020202020202041423330203B434B464E5F4346203B203939374431,
  0x41444D414C204C4154495041432043494C41544920444C4F422046495245532D534E4153204C41434954414D454854414D2020264C2023202020202020202020202042423330203B434B464E5F4346203B204139374431,
  0x554D204C4154495041432043494C41544920444C4F422046495245532D534E4153204C41434954414D454854414D2020264C2023202020202020202020202043423330203B434B464E5F4346203B204239374431,
  0x554E204C4154495041432043494C41544920444C4F422046495245532D534E4153204C41434954414D454854414D2020264C2023202020202020202020202044423330203B434B464E5F4346203B204339374431,
  0x4958204C4154495041432043494C41544920444C4F422046495245532D534E4153204C41434954414D454854414D2020264C2023202020202020202020202045423330203B434B464E5F4346203B204439374431,
  0x4E4F5243494D4F204C4154495041432043494C41544920444C4F422046495245532D534E4153204C41434954414D454854414D2020264C2023202020202020202020202046423330203B434B464E5F4346203B204539374431,
  0x4950204C4154495041432043494C41544920444C4F422046495245532D534E4153204C41434954414D454854414D2020264C2023202020202020202020202030433330203B434B464E5F4346203B204639374431,
  0x4F4852204C4154495041432043494C41544920444C4F422046495245532D534E4153204C41434954414D454854414D2020264C2023202020202020202020202031433330203B434B464E5F4346203B203041374431,
  0x4C4F424D5953204154454854204C4154495041432043494C41544920444C4F422046495245532D534E4153204C41434954414D454854414D2020264C2023202020202020202020202038423330203B434B464E5F4346203B203141374431,
  0x414D474953204C4154495041432043494C41544920444C4F422046495245532D534E4153204C41434954414D454854414D2020264C2023202020202020202020202033433330203B434B464E5F4346203B203241374431,
  0x554154204C4154495041432043494C41544920444C4F422046495245532D534E4153204C41434954414D454854414D2020264C2023202020202020202020202034433330203B434B464E5F4346203B203341374431,
  0x4E4F4C49535055204C4154495041432043494C41544920444C4F422046495245532D534E4153204C41434954414D454854414D2020264C2023202020202020202020202035433330203B434B464E5F4346203B203441374431,
  0x494850204C4154495041432043494C41544920444C4F422046495245532D534E4153204C41434954414D454854414D2020264C2023202020202020202020202036433330203B434B464E5F4346203B203541374431,
  0x494843204C4154495041432043494C41544920444C4F422046495245532D534E4153204C41434954414D454854414D2020264C2023202020202020202020202037433330203B434B464E5F4346203B203641374431,
  0x495350204C4154495041432043494C41544920444C4F422046495245532D534E4153204C41434954414D454854414D2020264C2023202020202020202020202038433330203B434B464E5F4346203B203741374431,
  0x4147454D4F204C4154495041432043494C41544920444C4F422046495245532D534E4153204C41434954414D454854414D2020264C2023202020202020202020202039433330203B434B464E5F4346203B203841374431,
  0x414D474953204C414E4946204C4C414D532043494C41544920444C4F422046495245532D534E4153204C41434954414D454854414D2020264C2023202020202020202020202033433330203B434B464E5F4346203B204242374431,
  0x414D4D41474944204C41544950414320444C4F42204C41434954414D454854414D2020264C2023202020202020202020202044443330203B434B464E5F4346203B204143374431,
  0x412052455454454C204C415449504143204E4954414C2044455A49534548544E4552415020206F532023203932303020313630302038323030203B434B464E5F4346203B203031314631,
  0x422052455454454C204C415449504143204E4954414C2044455A49534548544E4552415020206F532023203932303020323630302038323030203B434B464E5F4346203B203131314631,
  0x432052455454454C204C415449504143204E4954414C2044455A49534548544E4552415020206F532023203932303020333630302038323030203B434B464E5F4346203B203231314631,
  0x442052455454454C204C415449504143204E4954414C2044455A49534548544E4552415020206F532023203932303020343630302038323030203B434B464E5F4346203B203331314631,
  0x452052455454454C204C415449504143204E4954414C2044455A49534548544E4552415020206F532023203932303020353630302038323030203B434B464E5F4346203B203431314631,
  0x462052455454454C204C415449504143204E4954414C2044455A49534548544E4552415020206F532023203932303020363630302038323030203B434B464E5F4346203B203531314631,
  0x472052455454454C204C415449504143204E4954414C2044455A49534548544E4552415020206F532023203932303020373630302038323030203B434B464E5F4346203B203631314631,
  0x482052455454454C204C415449504143204E4954414C2044455A49534548544E4552415020206F532023203932303020383630302038323030203B434B464E5F4346203B203731314631,
  0x492052455454454C204C415449504143204E4954414C2044455A49534548544E4552415020206F532023203932303020393630302038323030203B434B464E5F4346203B203831314631,
  0x4A2052455454454C204C415449504143204E4954414C2044455A49534548544E4552415020206F532023203932303020413630302038323030203B434B464E5F4346203B203931314631,
  0x4B2052455454454C204C415449504143204E4954414C2044455A49534548544E4552415020206F532023203932303020423630302038323030203B434B464E5F4346203B204131314631,
  0x4C2052455454454C204C415449504143204E4954414C2044455A49534548544E4552415020206F532023203932303020433630302038323030203B434B464E5F4346203B204231314631,
  0x4D2052455454454C204C415449504143204E4954414C2044455A49534548544E4552415020206F532023203932303020443630302038323030203B434B464E5F4346203B204331314631,
  0x4E2052455454454C204C415449504143204E4954414C2044455A49534548544E4552415020206F532023203932303020453630302038323030203B434B464E5F4346203B204431314631,
  0x4F2052455454454C204C415449504143204E4954414C2044455A49534548544E4552415020206F532023203932303020463630302038323030203B434B464E5F4346203B204531314631,
  0x502052455454454C204C415449504143204E4954414C2044455A49534548544E4552415020206F532023203932303020303730302038323030203B434B464E5F4346203B204631314631,
  0x512052455454454C204C415449504143204E4954414C2044455A49534548544E4552415020206F532023203932303020313730302038323030203B434B464E5F4346203B203032314631,
  0x522052455454454C204C415449504143204E4954414C2044455A49534548544E4552415020206F532023203932303020323730302038323030203B434B464E5F4346203B203132314631,
  0x532052455454454C204C415449504143204E4954414C2044455A49534548544E4552415020206F532023203932303020333730302038323030203B434B464E5F4346203B203232314631,
  0x542052455454454C204C415449504143204E4954414C2044455A49534548544E4552415020206F532023203932303020343730302038323030203B434B464E5F4346203B203332314631,
  0x552052455454454C204C415449504143204E4954414C2044455A49534548544E4552415020206F532023203932303020353730302038323030203B434B464E5F4346203B203432314631,
  0x562052455454454C204C415449504143204E4954414C2044455A49534548544E4552415020206F532023203932303020363730302038323030203B434B464E5F4346203B203532314631,
  0x572052455454454C204C415449504143204E4954414C2044455A49534548544E4552415020206F532023203932303020373730302038323030203B434B464E5F4346203B203632314631,
  0x582052455454454C204C415449504143204E4954414C2044455A49534548544E4552415020206F532023203932303020383730302038323030203B434B464E5F4346203B203732314631,
  0x592052455454454C204C415449504143204E4954414C2044455A49534548544E4552415020206F532023203932303020393730302038323030203B434B464E5F4346203B203832314631,
  0x5A2052455454454C204C415449504143204E4954414C2044455A49534548544E4552415020206F532023203932303020413730302038323030203B434B464E5F4346203B203932314631,
  0x532052455454454C204C415449504143204E4954414C20444554454B43415242204C4C454853204553494F54524F5420206F532023203531303320333730302034313033203B434B464E5F4346203B204132314631,
  0x432052455454454C204C415449504143204E4954414C2043494C4154492044454C4352494320206F532023202020202020202020202033363030203B434B464E5F4346203B204232314631,
  0x522052455454454C204C415449504143204E4954414C2043494C4154492044454C4352494320206F532023202020202020202020202032373030203B434B464E5F4346203B204332314631,
  0x44432044454C4352494320206F532023202020202020343630302033363030203B434B464E5F4346203B204432314631,
  0x5A572044454C4352494320206F532023202020202020413730302037373030203B434B464E5F4346203B204532314631,
  0x412052455454454C204C415449504143204E4954414C204445524155515320206F532023202020202020202020202031363030203B434B464E5F4346203B203033314631,
  0x422052455454454C204C415449504143204E4954414C204445524155515320206F532023202020202020202020202032363030203B434B464E5F4346203B203133314631,
  0x432052455454454C204C415449504143204E4954414C204445524155515320206F532023202020202020202020202033363030203B434B464E5F4346203B203233314631,
  0x442052455454454C204C415449504143204E4954414C204445524155515320206F532023202020202020202020202034363030203B434B464E5F4346203B203333314631,
  0x452052455454454C204C415449504143204E4954414C204445524155515320206F532023202020202020202020202035363030203B434B464E5F4346203B203433314631,
  0x462052455454454C204C415449504143204E4954414C204445524155515320206F532023202020202020202020202036363030203B434B464E5F4346203B203533314631,
  0x472052455454454C204C415449504143204E4954414C204445524155515320206F532023202020202020202020202037363030203B434B464E5F4346203B203633314631,
  0x482052455454454C204C415449504143204E4954414C204445524155515320206F532023202020202020202020202038363030203B434B464E5F4346203B203733314631,
  0x492052455454454C204C415449504143204E4954414C204445524155515320206F532023202020202020202020202039363030203B434B464E5F4346203B203833314631,
  0x4A2052455454454C204C415449504143204E4954414C204445524155515320206F532023202020202020202020202041363030203B434B464E5F4346203B203933314631,
  0x4B2052455454454C204C415449504143204E4954414C204445524155515320206F532023202020202020202020202042363030203B434B464E5F4346203B204133314631,
  0x4C2052455454454C204C415449504143204E4954414C204445524155515320206F532023202020202020202020202043363030203B434B464E5F4346203B204233314631,
  0x4D2052455454454C204C415449504143204E4954414C204445524155515320206F532023202020202020202020202044363030203B434B464E5F4346203B204333314631,
  0x4E2052455454454C204C415449504143204E4954414C204445524155515320206F532023202020202020202020202045363030203B434B464E5F4346203B204433314631,
  0x4F2052455454454C204C415449504143204E4954414C204445524155515320206F532023202020202020202020202046363030203B434B464E5F4346203B204533314631,
  0x502052455454454C204C415449504143204E4954414C204445524155515320206F532023202020202020202020202030373030203B434B464E5F4346203B204633314631,
  0x512052455454454C204C415449504143204E4954414C204445524155515320206F532023202020202020202020202031373030203B434B464E5F4346203B203034314631,
  0x522052455454454C204C415449504143204E4954414C204445524155515320206F532023202020202020202020202032373030203B434B464E5F4346203B203134314631,
  0x532052455454454C204C415449504143204E4954414C204445524155515320206F532023202020202020202020202033373030203B434B464E5F4346203B203234314631,
  0x542052455454454C204C415449504143204E4954414C204445524155515320206F532023202020202020202020202034373030203B434B464E5F4346203B203334314631,
  0x552052455454454C204C415449504143204E4954414C204445524155515320206F532023202020202020202020202035373030203B434B464E5F4346203B203434314631,
  0x562052455454454C204C415449504143204E4954414C204445524155515320206F532023202020202020202020202036373030203B434B464E5F4346203B203534314631,
  0x572052455454454C204C415449504143204E4954414C204445524155515320206F532023202020202020202020202037373030203B434B464E5F4346203B203634314631,
  0x582052455454454C204C415449504143204E4954414C204445524155515320206F532023202020202020202020202038373030203B434B464E5F4346203B203734314631,
  0x592052455454454C204C415449504143204E4954414C204445524155515320206F532023202020202020202020202039373030203B434B464E5F4346203B203834314631,
  0x5A2052455454454C204C415449504143204E4954414C204445524155515320206F532023202020202020202020202041373030203B434B464E5F4346203B203934314631,
  0x5648204445524155515320206F532023202020202020363730302038363030203B434B464E5F4346203B204134314631,
  0x564D204445524155515320206F532023202020202020363730302044363030203B434B464E5F4346203B204234314631,
  0x4453204445524155515320206F532023202020202020343630302033373030203B434B464E5F4346203B204334314631,
  0x5353204445524155515320206F532023202020202020333730302033373030203B434B464E5F4346203B204434314631,
  0x565050204445524155515320206F532023203637303020303730302030373030203B434B464E5F4346203B204534314631,
  0x4357204445524155515320206F532023202020202020333630302037373030203B434B464E5F4346203B204634314631,
  0x4E47495320434D2044455349415220206F532023202020202020333630302044363030203B434B464E5F4346203B204136314631,
  0x4E47495320444D2044455349415220206F532023202020202020343630302044363030203B434B464E5F4346203B204236314631,
  0x4E47495320524D2044455349415220206F532023202020202020323730302044363030203B434B464E5F4346203B204336314631,
  0x4A442045524155515320206F532023202020202020413630302034363030203B434B464E5F4346203B203039314631,
  0x0,
  0x343336203A73746E696F702065646F63206C61746F542023,
  0x0,
  0x3D3D3D3D3D3D3D3D3D3D3D3D3D3D3D3D3D3D3D3D3D3D3D3D3D3D3D3D3D3D3D3D3D3D3D3D3D3D3D3D3D3D3D3D3D3D3D3D2023,
  0x0,
  0x6E6F6973756C6378455F6E6F697469736F706D6F435F6C6C7546203A79747265706F725020646576697265442023,
  0x736E6F697469736F706D6F63654420726574726174532D6E6F4E202B20736E6F74656C676E6953202B20736E6F6973756C637845206E6F697469736F706D6F43203A6D6F7266206465746172656E6547202023,
  0x0,
  0x4B52414D20454E4F5420455455434120474E494E49424D4F432E2E4B52414D20454E4F5420455641524720474E494E49424D4F43205D325B2020206E4D2023206E6F6973756C6378455F6E6F697469736F706D6F435F6C6C7546203B20202020313433302E2E30343330,
  0x534F4E4F5420414B4954594C414944204B4545524720474E494E49424D4F432E2E53494E4F524F4B204B4545524720474E494E49424D4F43205D325B2020206E4D2023206E6F6973756C6378455F6E6F697469736F706D6F435F6C6C7546203B20202020343433302E2E33343330,
  0x4E474953204C4152454D554E204B45455247202020202020206D4C2023206E6F6973756C6378455F6E6F697469736F706D6F435F6C6C7546203B2020202020202020202034373330,
  0x4B52414D204E4F495453455551204B45455247202020202020206F502023206E6F6973756C6378455F6E6F697469736F706D6F435F6C6C7546203B2020202020202020202045373330,
  0x4149454C4554204F4E41204B45455247202020202020206F502023206E6F6973756C6378455F6E6F697469736F706D6F435F6C6C7546203B2020202020202020202037383330,
  0x4159592052455454454C2049524147414E415645442E2E41512052455454454C2049524147414E41564544205D385B2020206F4C2023206E6F6973756C6378455F6E6F697469736F706D6F435F6C6C7546203B20202020463539302E2E38353930,
  0x4148522052455454454C20494C41474E45422E2E4152522052455454454C20494C41474E4542205D325B2020206F4C2023206E6F6973756C6378455F6E6F697469736F706D6F435F6C6C7546203B20202020444439302E2E43443930,
  0x4159592052455454454C20494C41474E4542202020202020206F4C2023206E6F6973756C6378455F6E6F697469736F706D6F435F6C6C7546203B2020202020202020202046443930,
  0x414C4C2052455454454C2049484B554D525547202020202020206F4C2023206E6F6973756C6378455F6E6F697469736F706D6F435F6C6C7546203B2020202020202020202033334130,
  0x4148532052455454454C2049484B554D525547202020202020206F4C2023206E6F6973756C6378455F6E6F697469736F706D6F435F6C6C7546203B2020202020202020202036334130,
  0x415A2052455454454C2049484B554D5255472E2E4148484B2052455454454C2049484B554D525547205D335B2020206F4C2023206E6F6973756C6378455F6E6F697469736F706D6F435F6C6C7546203B20202020423541302E2E39354130,
  0x41462052455454454C2049484B554D525547202020202020206F4C2023206E6F6973756C6378455F6E6F697469736F706D6F435F6C6C7546203B2020202020202020202045354130,
  0x4148522052455454454C20415949524F2E2E4152522052455454454C20415949524F205D325B2020206F4C2023206E6F6973756C6378455F6E6F697469736F706D6F435F6C6C7546203B20202020443542302E2E43354230,
  0x4148472052455454454C204E415445424954202020202020206F4C2023206E6F6973756C6378455F6E6F697469736F706D6F435F6C6C7546203B2020202020202020202033344630,
  0x414844442052455454454C204E415445424954202020202020206F4C2023206E6F6973756C6378455F6E6F697469736F706D6F435F6C6C7546203B2020202020202020202044344630,
  0x4148442052455454454C204E415445424954202020202020206F4C2023206E6F6973756C6378455F6E6F697469736F706D6F435F6C6C7546203B2020202020202020202032354630,
  0x4148422052455454454C204E415445424954202020202020206F4C2023206E6F6973756C6378455F6E6F697469736F706D6F435F6C6C7546203B2020202020202020202037354630,
  0x41485A442052455454454C204E415445424954202020202020206F4C2023206E6F6973756C6378455F6E6F697469736F706D6F435F6C6C7546203B2020202020202020202043354630,
  0x4153534B2052455454454C204E415445424954202020202020206F4C2023206E6F6973756C6378455F6E6F697469736F706D6F435F6C6C7546203B2020202020202020202039364630,
  0x4949204E474953204C45574F56204E415445424954202020202020206E4D2023206E6F6973756C6378455F6E6F697469736F706D6F435F6C6C7546203B2020202020202020202033374630,
  0x522043494C41434F56204E474953204C45574F56204E4154454249542E2E5555204E474953204C45574F56204E415445424954205D325B2020206E4D2023206E6F6973756C6378455F6E6F697469736F706D6F435F6C6C7546203B20202020363746302E2E35374630,
  0x4C2043494C41434F56204E474953204C45574F56204E415445424954202020202020206E4D2023206E6F6973756C6378455F6E6F697469736F706D6F435F6C6C7546203B2020202020202020202038374630,
  0x4949204445535245564552204E474953204C45574F56204E415445424954202020202020206E4D2023206E6F6973756C6378455F6E6F697469736F706D6F435F6C6C7546203B2020202020202020202031384630,
  0x4148472052455454454C2044454E494F4A425553204E415445424954202020202020206E4D2023206E6F6973756C6378455F6E6F697469736F706D6F435F6C6C7546203B2020202020202020202033394630,
  0x414844442052455454454C2044454E494F4A425553204E415445424954202020202020206E4D2023206E6F6973756C6378455F6E6F697469736F706D6F435F6C6C7546203B2020202020202020202044394630,
  0x4148442052455454454C2044454E494F4A425553204E415445424954202020202020206E4D2023206E6F6973756C6378455F6E6F697469736F706D6F435F6C6C7546203B2020202020202020202032414630,
  0x4148422052455454454C2044454E494F4A425553204E415445424954202020202020206E4D2023206E6F6973756C6378455F6E6F697469736F706D6F435F6C6C7546203B2020202020202020202037414630,
  0x41485A442052455454454C2044454E494F4A425553204E415445424954202020202020206E4D2023206E6F6973756C6378455F6E6F697469736F706D6F435F6C6C7546203B2020202020202020202043414630,
  0x4153534B2052455454454C2044454E494F4A425553204E415445424954202020202020206E4D2023206E6F6973756C6378455F6E6F697469736F706D6F435F6C6C7546203B2020202020202020202039424630,
  0x4149584F2048544957204148504C412052455454454C204C4C414D53204B4545524720202020202020264C2023206E6F6973756C6378455F6E6F697469736F706D6F435F6C6C7546203B2020202020202020202031374631,
  0x4149584F2048544957204E4F4C495350452052455454454C204C4C414D53204B4545524720202020202020264C2023206E6F6973756C6378455F6E6F697469736F706D6F435F6C6C7546203B2020202020202020202033374631,
  0x4149584F2048544957204154452052455454454C204C4C414D53204B4545524720202020202020264C2023206E6F6973756C6378455F6E6F697469736F706D6F435F6C6C7546203B2020202020202020202035374631,
  0x4149584F20485449572041544F492052455454454C204C4C414D53204B4545524720202020202020264C2023206E6F6973756C6378455F6E6F697469736F706D6F435F6C6C7546203B2020202020202020202037374631,
  0x4149584F2048544957204E4F5243494D4F2052455454454C204C4C414D53204B4545524720202020202020264C2023206E6F6973756C6378455F6E6F697469736F706D6F435F6C6C7546203B2020202020202020202039374631,
  0x4149584F2048544957204E4F4C495350552052455454454C204C4C414D53204B4545524720202020202020264C2023206E6F6973756C6378455F6E6F697469736F706D6F435F6C6C7546203B2020202020202020202042374631,
  0x4149584F2048544957204147454D4F2052455454454C204C4C414D53204B4545524720202020202020264C2023206E6F6973756C6378455F6E6F697469736F706D6F435F6C6C7546203B2020202020202020202044374631,
  0x4149584F2048544957204148504C412052455454454C204C415449504143204B4545524720202020202020264C2023206E6F6973756C6378455F6E6F697469736F706D6F435F6C6C7546203B2020202020202020202042424631,
  0x494E454D4D4152474547534F5250204B4545524720202020202020264C2023206E6F6973756C6378455F6E6F697469736F706D6F435F6C6C7546203B2020202020202020202045424631,
  0x4149584F2048544957204E4F4C495350452052455454454C204C415449504143204B4545524720202020202020264C2023206E6F6973756C6378455F6E6F697469736F706D6F435F6C6C7546203B2020202020202020202039434631,
  0x4149584F2048544957204154452052455454454C204C415449504143204B4545524720202020202020264C2023206E6F6973756C6378455F6E6F697469736F706D6F435F6C6C7546203B2020202020202020202042434631,
  0x4149584F20444E4120414B4954594C41494420485449572041544F492052455454454C204C4C414D53204B4545524720202020202020264C2023206E6F6973756C6378455F6E6F697469736F706D6F435F6C6C7546203B2020202020202020202033444631,
  0x4149584F20485449572041544F492052455454454C204C415449504143204B4545524720202020202020264C2023206E6F6973756C6378455F6E6F697469736F706D6F435F6C6C7546203B2020202020202020202042444631,
  0x4149584F20444E4120414B4954594C4149442048544957204E4F4C495350552052455454454C204C4C414D53204B4545524720202020202020264C2023206E6F6973756C6378455F6E6F697469736F706D6F435F6C6C7546203B2020202020202020202033454631,
  0x4149584F2048544957204E4F4C495350552052455454454C204C415449504143204B4545524720202020202020264C2023206E6F6973756C6378455F6E6F697469736F706D6F435F6C6C7546203B2020202020202020202042454631,
  0x4149524156204B454552472E2E4149584F20444E4120414B4954594C414944204B45455247205D325B2020206B532023206E6F6973756C6378455F6E6F697469736F706D6F435F6C6C7546203B20202020464546312E2E45454631,
  0x4149584F2048544957204E4F5243494D4F2052455454454C204C415449504143204B4545524720202020202020264C2023206E6F6973756C6378455F6E6F697469736F706D6F435F6C6C7546203B2020202020202020202039464631,
  0x4149584F2048544957204147454D4F2052455454454C204C415449504143204B4545524720202020202020264C2023206E6F6973756C6378455F6E6F697469736F706D6F435F6C6C7546203B2020202020202020202042464631,
  0x4149584F204B45455247202020202020206B532023206E6F6973756C6378455F6E6F697469736F706D6F435F6C6C7546203B2020202020202020202044464631,
  0x44415551204D452E2E44415551204E45205D325B202020735A2023206E6F6973756C6378455F6E6F697469736F706D6F435F6C6C7546203B20202020313030322E2E30303032,
  0x4E474953204D484F20202020202020264C2023206E6F6973756C6378455F6E6F697469736F706D6F435F6C6C7546203B2020202020202020202036323132,
  0x4E474953204D4F525453474E412E2E4E474953204E49564C454B205D325B202020264C2023206E6F6973756C6378455F6E6F697469736F706D6F435F6C6C7546203B20202020423231322E2E41323132,
  0x54454B4341524220454C474E4120474E49544E494F502D5446454C2020202020202073502023206E6F6973756C6378455F6E6F697469736F706D6F435F6C6C7546203B2020202020202020202039323332,
  0x54454B4341524220454C474E4120474E49544E494F502D54484749522020202020202065502023206E6F6973756C6378455F6E6F697469736F706D6F435F6C6C7546203B2020202020202020202041323332,
  0x474E494B524F46202020202020206D532023206E6F6973756C6378455F6E6F697469736F706D6F435F6C6C7546203B2020202020202020202043444132,
  0x443041462D48504152474F454449205954494C4942495441504D4F43204B4A432E2E303039462D48504152474F454449205954494C4942495441504D4F43204B4A43205D3037325B206F4C2023206E6F6973756C6378455F6E6F697469736F706D6F435F6C6C7546203B20202020443041462E2E30303946,
  0x303141462D48504152474F454449205954494C4942495441504D4F43204B4A43202020202020206F4C2023206E6F6973756C6378455F6E6F697469736F706D6F435F6C6C7546203B2020202020202020202030314146,
  0x323141462D48504152474F454449205954494C4942495441504D4F43204B4A43202020202020206F4C2023206E6F6973756C6378455F6E6F697469736F706D6F435F6C6C7546203B2020202020202020202032314146,
  0x453141462D48504152474F454449205954494C4942495441504D4F43204B4A432E2E353141462D48504152474F454449205954494C4942495441504D4F43204B4A43205D30315B20206F4C2023206E6F6973756C6378455F6E6F697469736F706D6F435F6C6C7546203B20202020453141462E2E35314146,
  0x303241462D48504152474F454449205954494C4942495441504D4F43204B4A43202020202020206F4C2023206E6F6973756C6378455F6E6F697469736F706D6F435F6C6C7546203B2020202020202020202030324146,
  0x323241462D48504152474F454449205954494C4942495441504D4F43204B4A43202020202020206F4C2023206E6F6973756C6378455F6E6F697469736F706D6F435F6C6C7546203B2020202020202020202032324146,
  0x363241462D48504152474F454449205954494C4942495441504D4F43204B4A432E2E353241462D48504152474F454449205954494C4942495441504D4F43204B4A43205D325B2020206F4C2023206E6F6973756C6378455F6E6F697469736F706D6F435F6C6C7546203B20202020363241462E2E35324146,
  0x443641462D48504152474F454449205954494C4942495441504D4F43204B4A432E2E413241462D48504152474F454449205954494C4942495441504D4F43204B4A43205D38365B20206F4C2023206E6F6973756C6378455F6E6F697469736F706D6F435F6C6C7546203B20202020443641462E2E41324146,
  0x394441462D48504152474F454449205954494C4942495441504D4F43204B4A432E2E303741462D48504152474F454449205954494C4942495441504D4F43204B4A43205D3630315B206F4C2023206E6F6973756C6378455F6E6F697469736F706D6F435F6C6C7546203B20202020394441462E2E30374146,
  0x5149524948204854495720444F592052455454454C20574552424548202020202020206F4C2023206E6F6973756C6378455F6E6F697469736F706D6F435F6C6C7546203B2020202020202020202044314246,
  0x484154415020444F5920444F59204853494444495920455255544147494C20574552424548202020202020206F4C2023206E6F6973756C6378455F6E6F697469736F706D6F435F6C6C7546203B2020202020202020202046314246,
  0x4853454741442048544957204E4959415A2052455454454C205745524245482E2E544F44204E4948532048544957204E4948532052455454454C20574552424548205D33315B20206F4C2023206E6F6973756C6378455F6E6F697469736F706D6F435F6C6C7546203B20202020363342462E2E41324246,
  0x48534547414420485449572044454D414C2052455454454C205745524245482E2E4853454741442048544957205445542052455454454C20574552424548205D355B2020206F4C2023206E6F6973756C6378455F6E6F697469736F706D6F435F6C6C7546203B20202020433342462E2E38334246,
  0x4853454741442048544957204D454D2052455454454C20574552424548202020202020206F4C2023206E6F6973756C6378455F6E6F697469736F706D6F435F6C6C7546203B2020202020202020202045334246,
  0x485345474144204854495720484B454D41532052455454454C205745524245482E2E4853454741442048544957204E554E2052455454454C20574552424548205D325B2020206F4C2023206E6F6973756C6378455F6E6F697469736F706D6F435F6C6C7546203B20202020313442462E2E30344246,
  0x48534547414420485449572045502052455454454C205745524245482E2E4853454741442048544957204550204C414E49462052455454454C20574552424548205D325B2020206F4C2023206E6F6973756C6378455F6E6F697469736F706D6F435F6C6C7546203B20202020343442462E2E33344246,
  0x4546415220485449572045502052455454454C205745524245482E2E48534547414420485449572049444153542052455454454C20574552424548205D395B2020206F4C2023206E6F6973756C6378455F6E6F697469736F706D6F435F6C6C7546203B20202020453442462E2E36344246,
  0x45544F4E204854484749452D59544E45575420444552444E554820454E4F204C4F424D5953204C41434953554D2E2E45544F4E20464C4148204C4F424D5953204C41434953554D205D375B2020206F532023206E6F6973756C6378455F6E6F697469736F706D6F435F6C6C7546203B202034363144312E2E4535314431,
  0x4B43414C422041535546204C4F424D5953204C41434953554D2E2E414D494E494D204C4F424D5953204C41434953554D205D365B2020206F532023206E6F6973756C6378455F6E6F697469736F706D6F435F6C6C7546203B202030433144312E2E4242314431,
  0x44314146322D48504152474F454449205954494C4942495441504D4F43204B4A432E2E30303846322D48504152474F454449205954494C4942495441504D4F43204B4A43205D3234355B206F4C2023206E6F6973756C6378455F6E6F697469736F706D6F435F6C6C7546203B202044314146322E2E3030384632,
  0x0,
  0x30323131203A73746E696F702065646F63206C61746F542023,
  0x0,
  0x3D3D3D3D3D3D3D3D3D3D3D3D3D3D3D3D3D3D3D3D3D3D3D3D3D3D3D3D3D3D3D3D3D3D3D3D3D3D3D3D3D3D3D3D3D3D3D3D2023,
  0x0,
  0x6B636568435F6B636975515F44464E093A79747265706F72502023,
  0x0,
  0x6B636568435F6B636975515F44464E20726F662064657473696C20796C746963696C70786520746F6E2073746E696F702065646F63206C6C41202023,
  0x2E295928207365592065756C6176206568742065766168202023,
  0x0,
  0x736559203B43515F44464E203B4646464630312E2E30303030203A676E697373696D402023,
  0x0,
  0x3D3D3D3D3D3D3D3D3D3D3D3D3D3D3D3D3D3D3D3D3D3D3D3D3D3D3D3D3D3D3D3D3D3D3D3D3D3D3D3D3D3D3D3D3D3D3D3D2023,
  0x0,
  0x6F4E3D6B636568435F6B636975515F44464E2023,
  0x0,
  0x45564F424120474E4952204854495720412052455454454C204C415449504143204E4954414C2E2E4556415247204854495720412052455454454C204C415449504143204E4954414C205D365B202020264C2023204E203B43515F44464E203B20202020354330302E2E30433030]

def qcText3 : List Nat := [
  0x534953455245414944204854495720492052455454454C204C415449504143204E4954414C2E2E414C4C49444543204854495720432052455454454C204C415449504143204E4954414C205D395B202020264C2023204E203B43515F44464E203B20202020464330302E2E37433030,
  0x5349534552454149442048544957204F2052455454454C204C415449504143204E4954414C2E2E45444C49542048544957204E2052455454454C204C415449504143204E4954414C205D365B202020264C2023204E203B43515F44464E203B20202020364430302E2E31443030,
  0x4554554341204854495720592052455454454C204C415449504143204E4954414C2E2E4556415247204854495720552052455454454C204C415449504143204E4954414C205D355B202020264C2023204E203B43515F44464E203B20202020444430302E2E39443030,
  0x45564F424120474E4952204854495720412052455454454C204C4C414D53204E4954414C2E2E4556415247204854495720412052455454454C204C4C414D53204E4954414C205D365B202020264C2023204E203B43515F44464E203B20202020354530302E2E30453030,
  0x534953455245414944204854495720492052455454454C204C4C414D53204E4954414C2E2E414C4C49444543204854495720432052455454454C204C4C414D53204E4954414C205D395B202020264C2023204E203B43515F44464E203B20202020464530302E2E37453030,
  0x5349534552454149442048544957204F2052455454454C204C4C414D53204E4954414C2E2E45444C49542048544957204E2052455454454C204C4C414D53204E4954414C205D365B202020264C2023204E203B43515F44464E203B20202020364630302E2E31463030,
  0x4554554341204854495720592052455454454C204C4C414D53204E4954414C2E2E4556415247204854495720552052455454454C204C4C414D53204E4954414C205D355B202020264C2023204E203B43515F44464E203B20202020444630302E2E39463030,
  0x4E4F524143204854495720442052455454454C204C4C414D53204E4954414C2E2E534953455245414944204854495720592052455454454C204C4C414D53204E4954414C205D37315B2020264C2023204E203B43515F44464E203B20202020463031302E2E46463030,
  0x58454C464D5543524943204854495720482052455454454C204C4C414D53204E4954414C2E2E4E4F5243414D204854495720452052455454454C204C415449504143204E4954414C205D30325B2020264C2023204E203B43515F44464E203B20202020353231302E2E32313130,
  0x45564F424120544F44204854495720492052455454454C204C415449504143204E4954414C2E2E45444C4954204854495720492052455454454C204C415449504143204E4954414C205D395B202020264C2023204E203B43515F44464E203B20202020303331302E2E38323130,
  0x414C4C494445432048544957204B2052455454454C204C4C414D53204E4954414C2E2E58454C464D55435249432048544957204A2052455454454C204C415449504143204E4954414C205D345B202020264C2023204E203B43515F44464E203B20202020373331302E2E34333130,
  0x4E4F5241432048544957204C2052455454454C204C4C414D53204E4954414C2E2E45545543412048544957204C2052455454454C204C415449504143204E4954414C205D365B202020264C2023204E203B43515F44464E203B20202020453331302E2E39333130,
  0x4E4F5241432048544957204E2052455454454C204C4C414D53204E4954414C2E2E45545543412048544957204E2052455454454C204C415449504143204E4954414C205D365B202020264C2023204E203B43515F44464E203B20202020383431302E2E33343130,
  0x455455434120454C42554F442048544957204F2052455454454C204C4C414D53204E4954414C2E2E4E4F5243414D2048544957204F2052455454454C204C415449504143204E4954414C205D365B202020264C2023204E203B43515F44464E203B20202020313531302E2E43343130,
  0x4E4F524143204854495720542052455454454C204C4C414D53204E4954414C2E2E4554554341204854495720522052455454454C204C415449504143204E4954414C205D38315B2020264C2023204E203B43515F44464E203B20202020353631302E2E34353130,
  0x4E4F5241432048544957205A2052455454454C204C4C414D53204E4954414C2E2E45444C4954204854495720552052455454454C204C415449504143204E4954414C205D33325B2020264C2023204E203B43515F44464E203B20202020453731302E2E38363130,
  0x4E524F482048544957204F2052455454454C204C4C414D53204E4954414C2E2E4E524F482048544957204F2052455454454C204C415449504143204E4954414C205D325B202020264C2023204E203B43515F44464E203B20202020314131302E2E30413130,
  0x4E524F48204854495720552052455454454C204C4C414D53204E4954414C2E2E4E524F48204854495720552052455454454C204C415449504143204E4954414C205D325B202020264C2023204E203B43515F44464E203B20202020304231302E2E46413130,
  0x455641524720444E4120534953455245414944204854495720552052455454454C204C4C414D53204E4954414C2E2E4E4F524143204854495720412052455454454C204C415449504143204E4954414C205D36315B2020264C2023204E203B43515F44464E203B20202020434431302E2E44433130,
  0x4E4F5243414D20485449572045412052455454454C204C4C414D53204E4954414C2E2E4E4F5243414D20444E4120534953455245414944204854495720412052455454454C204C415449504143204E4954414C205D365B202020264C2023204E203B43515F44464E203B20202020334531302E2E45443130,
  0x4E4F5241432048544957204A2052455454454C204C4C414D53204E4954414C2E2E4E4F524143204854495720472052455454454C204C415449504143204E4954414C205D31315B2020264C2023204E203B43515F44464E203B20202020304631302E2E36453130,
  0x4554554341204854495720472052455454454C204C4C414D53204E4954414C2E2E4554554341204854495720472052455454454C204C415449504143204E4954414C205D325B202020264C2023204E203B43515F44464E203B20202020354631302E2E34463130,
  0x574F4C454220414D4D4F43204854495720542052455454454C204C4C414D53204E4954414C2E2E45564152472048544957204E2052455454454C204C415449504143204E4954414C205D36335B2020264C2023204E203B43515F44464E203B20202020423132302E2E38463130,
  0x4E4F524143204854495720482052455454454C204C4C414D53204E4954414C2E2E4E4F524143204854495720482052455454454C204C415449504143204E4954414C205D325B202020264C2023204E203B43515F44464E203B20202020463132302E2E45313230,
  0x4E4F5243414D204854495720592052455454454C204C4C414D53204E4954414C2E2E45564F424120544F44204854495720412052455454454C204C415449504143204E4954414C205D34315B2020264C2023204E203B43515F44464E203B20202020333332302E2E36323230,
  0x4B52414D20454E4F5420455455434120474E494E49424D4F432E2E4B52414D20454E4F5420455641524720474E494E49424D4F43205D325B2020206E4D2023204E203B43515F44464E203B20202020313433302E2E30343330,
  0x534F4E4F5420414B4954594C414944204B4545524720474E494E49424D4F432E2E53494E4F524F4B204B4545524720474E494E49424D4F43205D325B2020206E4D2023204E203B43515F44464E203B20202020343433302E2E33343330,
  0x4E474953204C4152454D554E204B45455247202020202020206D4C2023204E203B43515F44464E203B2020202020202020202034373330,
  0x4B52414D204E4F495453455551204B45455247202020202020206F502023204E203B43515F44464E203B2020202020202020202045373330,
  0x534F4E4F5420414B4954594C414944204B45455247202020202020206B532023204E203B43515F44464E203B2020202020202020202035383330,
  0x534F4E4F542048544957204148504C412052455454454C204C415449504143204B4545524720202020202020264C2023204E203B43515F44464E203B2020202020202020202036383330,
  0x4149454C4554204F4E41204B45455247202020202020206F502023204E203B43515F44464E203B2020202020202020202037383330,
  0x534F4E4F5420485449572041544F492052455454454C204C415449504143204B454552472E2E534F4E4F542048544957204E4F4C495350452052455454454C204C415449504143204B45455247205D335B202020264C2023204E203B43515F44464E203B20202020413833302E2E38383330,
  0x534F4E4F542048544957204E4F5243494D4F2052455454454C204C415449504143204B4545524720202020202020264C2023204E203B43515F44464E203B2020202020202020202043383330,
  0x534F4E4F5420444E4120414B4954594C41494420485449572041544F492052455454454C204C4C414D53204B454552472E2E534F4E4F542048544957204E4F4C495350552052455454454C204C415449504143204B45455247205D335B202020264C2023204E203B43515F44464E203B20202020303933302E2E45383330,
  0x534F4E4F5420444E4120414B4954594C4149442048544957204E4F4C495350552052455454454C204C4C414D53204B454552472E2E414B4954594C41494420485449572041544F492052455454454C204C415449504143204B45455247205D375B202020264C2023204E203B43515F44464E203B20202020304233302E2E41413330,
  0x534F4E4F542048544957204147454D4F2052455454454C204C4C414D53204B454552472E2E414B4954594C41494420485449572041544F492052455454454C204C4C414D53204B45455247205D355B202020264C2023204E203B43515F44464E203B20202020454333302E2E41433330,
  0x4C4F424D5953204B4F4F4820444E41205349534552454149442048544957204E4F4C49535055204B454552472E2E4C4F424D5953204B4F4F4820444E412045545543412048544957204E4F4C49535055204B45455247205D325B202020264C2023204E203B43515F44464E203B20202020344433302E2E33443330,
  0x4F492052455454454C204C4154495041432043494C4C495259432E2E455641524720485449572045492052455454454C204C4154495041432043494C4C49525943205D325B202020264C2023204E203B43515F44464E203B20202020313034302E2E30303430,
  0x454A472052455454454C204C4154495041432043494C4C4952594320202020202020264C2023204E203B43515F44464E203B2020202020202020202033303430,
  0x49592052455454454C204C4154495041432043494C4C4952594320202020202020264C2023204E203B43515F44464E203B2020202020202020202037303430,
  0x552054524F48532052455454454C204C4154495041432043494C4C495259432E2E454A4B2052455454454C204C4154495041432043494C4C49525943205D335B202020264C2023204E203B43515F44464E203B20202020453034302E2E43303430,
  0x492054524F48532052455454454C204C4154495041432043494C4C4952594320202020202020264C2023204E203B43515F44464E203B2020202020202020202039313430,
  0x492054524F48532052455454454C204C4C414D532043494C4C4952594320202020202020264C2023204E203B43515F44464E203B2020202020202020202039333430,
  0x4F492052455454454C204C4C414D532043494C4C495259432E2E455641524720485449572045492052455454454C204C4C414D532043494C4C49525943205D325B202020264C2023204E203B43515F44464E203B20202020313534302E2E30353430,
  0x454A472052455454454C204C4C414D532043494C4C4952594320202020202020264C2023204E203B43515F44464E203B2020202020202020202033353430,
  0x49592052455454454C204C4C414D532043494C4C4952594320202020202020264C2023204E203B43515F44464E203B2020202020202020202037353430,
  0x552054524F48532052455454454C204C4C414D532043494C4C495259432E2E454A4B2052455454454C204C4C414D532043494C4C49525943205D335B202020264C2023204E203B43515F44464E203B20202020453534302E2E43353430,
  0x544E4543434120455641524720454C42554F4420485449572041535449485A492052455454454C204C4C414D532043494C4C495259432E2E544E4543434120455641524720454C42554F4420485449572041535449485A492052455454454C204C4154495041432043494C4C49525943205D325B202020264C2023204E203B43515F44464E203B20202020373734302E2E36373430,
  0x455645524220485449572045485A2052455454454C204C4C414D532043494C4C495259432E2E455645524220485449572045485A2052455454454C204C4154495041432043494C4C49525943205D325B202020264C2023204E203B43515F44464E203B20202020324334302E2E31433430,
  0x534953455245414944204854495720412052455454454C204C4C414D532043494C4C495259432E2E4556455242204854495720412052455454454C204C4154495041432043494C4C49525943205D345B202020264C2023204E203B43515F44464E203B20202020334434302E2E30443430,
  0x455645524220485449572045492052455454454C204C4C414D532043494C4C495259432E2E455645524220485449572045492052455454454C204C4154495041432043494C4C49525943205D325B202020264C2023204E203B43515F44464E203B20202020374434302E2E36443430,
  0x534953455245414944204854495720455A2052455454454C204C4C414D532043494C4C495259432E2E53495345524541494420485449572041574843532052455454454C204C4154495041432043494C4C49525943205D365B202020264C2023204E203B43515F44464E203B20202020464434302E2E41443430,
  0x5349534552454149442048544957204F2052455454454C204C4C414D532043494C4C495259432E2E4E4F5243414D204854495720492052455454454C204C4154495041432043494C4C49525943205D365B202020264C2023204E203B43515F44464E203B20202020374534302E2E32453430,
  0x5349534552454149442048544957204548432052455454454C204C4C414D532043494C4C495259432E2E5349534552454149442048544957204F204445525241422052455454454C204C4154495041432043494C4C49525943205D32315B2020264C2023204E203B43515F44464E203B20202020354634302E2E41453430,
  0x534953455245414944204854495720555245592052455454454C204C4C414D532043494C4C495259432E2E534953455245414944204854495720555245592052455454454C204C4154495041432043494C4C49525943205D325B202020264C2023204E203B43515F44464E203B20202020394634302E2E38463430,
  0x45564F424120415A4D41482048544957204845592052455454454C204349424152412E2E45564F424120414444414D20485449572046454C412052455454454C20434942415241205D355B2020206F4C2023204E203B43515F44464E203B20202020363236302E2E32323630,
  0x45564F4241204845592048544957204845482052455454454C20434942415241202020202020206F4C2023204E203B43515F44464E203B2020202020202020202030433630,
  0x45564F424120415A4D41482048544957204C414F47204845482052455454454C20434942415241202020202020206F4C2023204E203B43515F44464E203B2020202020202020202032433630,
  0x45564F424120415A4D4148204854495720454552524142204845592052455454454C20434942415241202020202020206F4C2023204E203B43515F44464E203B2020202020202020202033443630,
  0x414E4E4E2052455454454C2049524147414E41564544202020202020206F4C2023204E203B43515F44464E203B2020202020202020202039323930,
  0x4152522052455454454C2049524147414E41564544202020202020206F4C2023204E203B43515F44464E203B2020202020202020202031333930,
  0x414C4C4C2052455454454C2049524147414E41564544202020202020206F4C2023204E203B43515F44464E203B2020202020202020202034333930,
  0x4159592052455454454C2049524147414E415645442E2E41512052455454454C2049524147414E41564544205D385B2020206F4C2023204E203B43515F44464E203B20202020463539302E2E38353930,
  0x5541204E474953204C45574F5620494C41474E45422E2E4F204E474953204C45574F5620494C41474E4542205D325B202020634D2023204E203B43515F44464E203B20202020434339302E2E42433930,
  0x4148522052455454454C20494C41474E45422E2E4152522052455454454C20494C41474E4542205D325B2020206F4C2023204E203B43515F44464E203B20202020444439302E2E43443930,
  0x4159592052455454454C20494C41474E4542202020202020206F4C2023204E203B43515F44464E203B2020202020202020202046443930,
  0x414C4C2052455454454C2049484B554D525547202020202020206F4C2023204E203B43515F44464E203B2020202020202020202033334130,
  0x4148532052455454454C2049484B554D525547202020202020206F4C2023204E203B43515F44464E203B2020202020202020202036334130,
  0x415A2052455454454C2049484B554D5255472E2E4148484B2052455454454C2049484B554D525547205D335B2020206F4C2023204E203B43515F44464E203B20202020423541302E2E39354130,
  0x41462052455454454C2049484B554D525547202020202020206F4C2023204E203B43515F44464E203B2020202020202020202045354130,
  0x4941204E474953204C45574F5620415949524F20202020202020634D2023204E203B43515F44464E203B2020202020202020202038344230,
  0x5541204E474953204C45574F5620415949524F2E2E4F204E474953204C45574F5620415949524F205D325B202020634D2023204E203B43515F44464E203B20202020433442302E2E42344230,
  0x4148522052455454454C20415949524F2E2E4152522052455454454C20415949524F205D325B2020206F4C2023204E203B43515F44464E203B20202020443542302E2E43354230,
  0x55412052455454454C204C494D4154202020202020206F4C2023204E203B43515F44464E203B2020202020202020202034394230,
  0x5541204E474953204C45574F56204C494D41542E2E4F204E474953204C45574F56204C494D4154205D335B202020634D2023204E203B43515F44464E203B20202020434342302E2E41434230,
  0x4941204E474953204C45574F56205547554C4554202020202020206E4D2023204E203B43515F44464E203B2020202020202020202038344330,
  0x4949204E474953204C45574F56204144414E4E414B20202020202020634D2023204E203B43515F44464E203B2020202020202020202030434330,
  0x4941204E474953204C45574F56204144414E4E414B2E2E4545204E474953204C45574F56204144414E4E414B205D325B202020634D2023204E203B43515F44464E203B20202020384343302E2E37434330,
  0x4F4F204E474953204C45574F56204144414E4E414B2E2E4F204E474953204C45574F56204144414E4E414B205D325B202020634D2023204E203B43515F44464E203B20202020424343302E2E41434330,
  0x5541204E474953204C45574F56204D414C4159414C414D2E2E4F204E474953204C45574F56204D414C4159414C414D205D335B202020634D2023204E203B43515F44464E203B20202020433444302E2E41344430,
  0x415655424D4F4B2041474944204E474953204C45574F5620414C41484E495320202020202020634D2023204E203B43515F44464E203B2020202020202020202041444430,
  0x415454494B554E415941472041414820415655424D4F4B204E474953204C45574F5620414C41484E49532E2E414C4C49502D414C45412041414820415655424D4F4B204E474953204C45574F5620414C41484E4953205D335B202020634D2023204E203B43515F44464E203B20202020454444302E2E43444430,
  0x4148472052455454454C204E415445424954202020202020206F4C2023204E203B43515F44464E203B2020202020202020202033344630,
  0x414844442052455454454C204E415445424954202020202020206F4C2023204E203B43515F44464E203B2020202020202020202044344630,
  0x4148442052455454454C204E415445424954202020202020206F4C2023204E203B43515F44464E203B2020202020202020202032354630,
  0x4148422052455454454C204E415445424954202020202020206F4C2023204E203B43515F44464E203B2020202020202020202037354630,
  0x41485A442052455454454C204E415445424954202020202020206F4C2023204E203B43515F44464E203B2020202020202020202043354630,
  0x4153534B2052455454454C204E415445424954202020202020206F4C2023204E203B43515F44464E203B2020202020202020202039364630,
  0x4949204E474953204C45574F56204E415445424954202020202020206E4D2023204E203B43515F44464E203B2020202020202020202033374630,
  0x522043494C41434F56204E474953204C45574F56204E4154454249542E2E5555204E474953204C45574F56204E415445424954205D325B2020206E4D2023204E203B43515F44464E203B20202020363746302E2E35374630,
  0x4C2043494C41434F56204E474953204C45574F56204E415445424954202020202020206E4D2023204E203B43515F44464E203B2020202020202020202038374630,
  0x4949204445535245564552204E474953204C45574F56204E415445424954202020202020206E4D2023204E203B43515F44464E203B2020202020202020202031384630,
  0x4148472052455454454C2044454E494F4A425553204E415445424954202020202020206E4D2023204E203B43515F44464E203B2020202020202020202033394630,
  0x414844442052455454454C2044454E494F4A425553204E415445424954202020202020206E4D2023204E203B43515F44464E203B2020202020202020202044394630,
  0x4148442052455454454C2044454E494F4A425553204E415445424954202020202020206E4D2023204E203B43515F44464E203B2020202020202020202032414630,
  0x4148422052455454454C2044454E494F4A425553204E415445424954202020202020206E4D2023204E203B43515F44464E203B2020202020202020202037414630,
  0x41485A442052455454454C2044454E494F4A425553204E415445424954202020202020206E4D2023204E203B43515F44464E203B2020202020202020202043414630,
  0x4153534B2052455454454C2044454E494F4A425553204E415445424954202020202020206E4D2023204E203B43515F44464E203B2020202020202020202039424630,
  0x55552052455454454C2052414D4E41594D202020202020206F4C2023204E203B43515F44464E203B2020202020202020202036323031,
  0x474E55444554204152414B412052455454454C204553454E494C4142202020202020206F4C2023204E203B43515F44464E203B2020202020202020202036304231,
  0x474E55444554204152414B492052455454454C204553454E494C4142202020202020206F4C2023204E203B43515F44464E203B2020202020202020202038304231,
  0x474E55444554204152414B552052455454454C204553454E494C4142202020202020206F4C2023204E203B43515F44464E203B2020202020202020202041304231,
  0x474E5544455420415045522041522052455454454C204553454E494C4142202020202020206F4C2023204E203B43515F44464E203B2020202020202020202043304231,
  0x474E554445542041474E454C20414C2052455454454C204553454E494C4142202020202020206F4C2023204E203B43515F44464E203B2020202020202020202045304231,
  0x474E55444554204152414B4F2052455454454C204553454E494C4142202020202020206F4C2023204E203B43515F44464E203B2020202020202020202032314231,
  0x474E554445542041504552204152204E474953204C45574F56204553454E494C414220202020202020634D2023204E203B43515F44464E203B2020202020202020202042334231,
  0x474E554445542041474E454C20414C204E474953204C45574F56204553454E494C414220202020202020634D2023204E203B43515F44464E203B2020202020202020202044334231,
  0x474E55444554204150455220474E494C4154204E474953204C45574F56204553454E494C41422E2E474E5544455420474E494C4154204E474953204C45574F56204553454E494C4142205D325B202020634D2023204E203B43515F44464E203B20202020313442312E2E30344231,
  0x474E55444554205445504550204E474953204C45574F56204553454E494C414220202020202020634D2023204E203B43515F44464E203B2020202020202020202033344231,
  0x45564F424120474E4952204854495720592052455454454C204C4C414D53204E4954414C2E2E574F4C454220474E4952204854495720412052455454454C204C415449504143204E4954414C205D3435315B20264C2023204E203B43515F44464E203B20202020393945312E2E30304531,
  0x45564F424120544F442048544957205320474E4F4C2052455454454C204C4C414D53204E4954414C20202020202020264C2023204E203B43515F44464E203B2020202020202020202042394531,
  0x45444C4954204854495720592052455454454C204C4C414D53204E4954414C2E2E574F4C454220544F44204854495720412052455454454C204C415449504143204E4954414C205D30395B2020264C2023204E203B43515F44464E203B20202020394645312E2E30414531,
  0x4149584F20444E412041495341442048544957204E4F4C495350452052455454454C204C4C414D53204B454552472E2E494C4953502048544957204148504C412052455454454C204C4C414D53204B45455247205D32325B2020264C2023204E203B43515F44464E203B20202020353146312E2E30304631,
  0x4149584F20444E412041495341442048544957204E4F4C495350452052455454454C204C415449504143204B454552472E2E494C4953502048544957204E4F4C495350452052455454454C204C415449504143204B45455247205D365B202020264C2023204E203B43515F44464E203B20202020443146312E2E38314631,
  0x4149584F20444E412041495341442048544957204E4F5243494D4F2052455454454C204C4C414D53204B454552472E2E494C4953502048544957204154452052455454454C204C4C414D53204B45455247205D38335B2020264C2023204E203B43515F44464E203B20202020353446312E2E30324631,
  0x4149584F20444E412041495341442048544957204E4F5243494D4F2052455454454C204C415449504143204B454552472E2E494C4953502048544957204E4F5243494D4F2052455454454C204C415449504143204B45455247205D365B202020264C2023204E203B43515F44464E203B20202020443446312E2E38344631,
  0x494E454D4F50534952455020444E412041495341442048544957204E4F4C495350552052455454454C204C4C414D53204B454552472E2E494C4953502048544957204E4F4C495350552052455454454C204C4C414D53204B45455247205D385B202020264C2023204E203B43515F44464E203B20202020373546312E2E30354631,
  0x41495341442048544957204E4F4C495350552052455454454C204C415449504143204B4545524720202020202020264C2023204E203B43515F44464E203B2020202020202020202039354631,
  0x414952415620444E412041495341442048544957204E4F4C495350552052455454454C204C415449504143204B4545524720202020202020264C2023204E203B43515F44464E203B2020202020202020202042354631,
  0x4149584F20444E412041495341442048544957204E4F4C495350552052455454454C204C415449504143204B4545524720202020202020264C2023204E203B43515F44464E203B2020202020202020202044354631,
  0x4149584F2048544957204147454D4F2052455454454C204C4C414D53204B454552472E2E494E454D4F50534952455020444E412041495341442048544957204E4F4C495350552052455454454C204C415449504143204B45455247205D31335B2020264C2023204E203B43515F44464E203B20202020443746312E2E46354631,
  0x494E454D4D41524745474F505920444E41204149584F2048544957204148504C412052455454454C204C4C414D53204B454552472E2E494E454D4D41524745474F505920444E4120494C4953502048544957204148504C412052455454454C204C4C414D53204B45455247205D33355B2020264C2023204E203B43515F44464E203B20202020344246312E2E30384631,
  0x494E454D4D4152474547534F52502048544957204148504C412052455454454C204C415449504143204B454552472E2E494E454D4F5053495245502048544957204148504C412052455454454C204C4C414D53204B45455247205D375B202020264C2023204E203B43515F44464E203B20202020434246312E2E36424631,
  0x494E454D4D4152474547534F5250204B4545524720202020202020264C2023204E203B43515F44464E203B2020202020202020202045424631,
  0x494E454D4F50534952455020444E4120414B4954594C414944204B45455247202020202020206B532023204E203B43515F44464E203B2020202020202020202031434631,
  0x494E454D4D41524745474F505920444E41204149584F2048544957204154452052455454454C204C4C414D53204B454552472E2E494E454D4D41524745474F505920444E412041495241562048544957204154452052455454454C204C4C414D53204B45455247205D335B202020264C2023204E203B43515F44464E203B20202020344346312E2E32434631,
  0x494E454D4D4152474547534F52502048544957204154452052455454454C204C415449504143204B454552472E2E494E454D4F5053495245502048544957204154452052455454454C204C4C414D53204B45455247205D375B202020264C2023204E203B43515F44464E203B20202020434346312E2E36434631,
  0x494E454D4F50534952455020444E4120494C495350204B454552472E2E414952415620444E4120494C495350204B45455247205D335B2020206B532023204E203B43515F44464E203B20202020464346312E2E44434631,
  0x4149584F20444E4120414B4954594C41494420485449572041544F492052455454454C204C4C414D53204B454552472E2E59484341525620485449572041544F492052455454454C204C4C414D53204B45455247205D345B202020264C2023204E203B43515F44464E203B20202020334446312E2E30444631,
  0x4149584F20485449572041544F492052455454454C204C415449504143204B454552472E2E494E454D4F50534952455020485449572041544F492052455454454C204C4C414D53204B45455247205D365B202020264C2023204E203B43515F44464E203B20202020424446312E2E36444631,
  0x494E454D4F50534952455020444E41204149534144204B454552472E2E414952415620444E41204149534144204B45455247205D335B2020206B532023204E203B43515F44464E203B20202020464446312E2E44444631,
  0x41495341442048544957204F48522052455454454C204C415449504143204B454552472E2E5948434152562048544957204E4F4C495350552052455454454C204C4C414D53204B45455247205D33315B2020264C2023204E203B43515F44464E203B20202020434546312E2E30454631,
  0x4149524156204B454552472E2E414952415620444E4120414B4954594C414944204B45455247205D335B2020206B532023204E203B43515F44464E203B20202020464546312E2E44454631,
  0x494E454D4D41524745474F505920444E41204149584F2048544957204147454D4F2052455454454C204C4C414D53204B454552472E2E494E454D4D41524745474F505920444E412041495241562048544957204147454D4F2052455454454C204C4C414D53204B45455247205D335B202020264C2023204E203B43515F44464E203B20202020344646312E2E32464631,
  0x494E454D4D4152474547534F52502048544957204147454D4F2052455454454C204C415449504143204B454552472E2E494E454D4F5053495245502048544957204147454D4F2052455454454C204C4C414D53204B45455247205D375B202020264C2023204E203B43515F44464E203B20202020434646312E2E36464631,
  0x4149584F204B45455247202020202020206B532023204E203B43515F44464E203B2020202020202020202044464631,
  0x44415551204D452E2E44415551204E45205D325B202020735A2023204E203B43515F44464E203B20202020313030322E2E30303032,
  0x4E474953204D484F20202020202020264C2023204E203B43515F44464E203B2020202020202020202036323132,
  0x4E474953204D4F525453474E412E2E4E474953204E49564C454B205D325B202020264C2023204E203B43515F44464E203B20202020423231322E2E41323132,
  0x454B4F525453204854495720574F52524120534452415754484749522E2E454B4F525453204854495720574F5252412053445241575446454C205D325B2020206D532023204E203B43515F44464E203B20202020423931322E2E41393132,
  0x454B4F525453204854495720574F525241205448474952205446454C202020202020206D532023204E203B43515F44464E203B2020202020202020202045413132,
  0x454B4F525453204854495720574F52524120454C42554F442053445241575446454C202020202020206F532023204E203B43515F44464E203B2020202020202020202044433132,
  0x454B4F525453204854495720574F52524120454C42554F4420534452415754484749522E2E454B4F525453204854495720574F52524120454C42554F44205448474952205446454C205D325B2020206D532023204E203B43515F44464E203B20202020464331322E2E45433132,
  0x545349584520544F4E2053454F44204552454854202020202020206D532023204E203B43515F44464E203B2020202020202020202034303232,
  0x464F20544E454D454C45204E4120544F4E202020202020206D532023204E203B43515F44464E203B2020202020202020202039303232,
  0x5245424D454D205341204E4941544E4F4320544F4E2053454F44202020202020206D532023204E203B43515F44464E203B2020202020202020202043303232,
  0x45444956494420544F4E2053454F44202020202020206D532023204E203B43515F44464E203B2020202020202020202034323232,
  0x4F54204C454C4C4152415020544F4E202020202020206D532023204E203B43515F44464E203B2020202020202020202036323232,
  0x45444C495420544F4E202020202020206D532023204E203B43515F44464E203B2020202020202020202031343232,
  0x4F54204C4155514520594C4C414349544F54504D59534120544F4E202020202020206D532023204E203B43515F44464E203B2020202020202020202034343232,
  0x4F54204C4155514520594C4C415554434120524F4E20594C4554414D49584F52505041205245485449454E202020202020206D532023204E203B43515F44464E203B2020202020202020202037343232,
  0x4F54204C415551452054534F4D4C4120544F4E202020202020206D532023204E203B43515F44464E203B2020202020202020202039343232,
  0x4F54204C4155514520544F4E202020202020206D532023204E203B43515F44464E203B2020202020202020202030363232,
  0x4F54204C414349544E45444920544F4E202020202020206D532023204E203B43515F44464E203B2020202020202020202032363232,
  0x4F54204C4155514520524F4E204E4148542D52455441455247205245485449454E2E2E4F5420544E454C41564955514520544F4E205D355B2020206D532023204E203B43515F44464E203B20202020313732322E2E44363232,
  0x4F5420544E454C41564955514520524F4E204E4148542D52455441455247205245485449454E2E2E4F5420544E454C41564955514520524F4E204E4148542D5353454C205245485449454E205D325B2020206D532023204E203B43515F44464E203B20202020353732322E2E34373232,
  0x4E4148542D5353454C20524F4E204E4148542D52455441455247205245485449454E2E2E4E4148542D5245544145524720524F4E204E4148542D5353454C205245485449454E205D325B2020206D532023204E203B43515F44464E203B20202020393732322E2E38373232,
  0x4445454343555320544F4E2053454F442E2E4544454345525020544F4E2053454F44205D325B2020206D532023204E203B43515F44464E203B20202020313832322E2E30383232,
  0x464F205445535245505553204120544F4E2E2E464F20544553425553204120544F4E205D325B2020206D532023204E203B43515F44464E203B20202020353832322E2E34383232,
  0x4F54204C4155514520524F4E20464F2054455352455055532041205245485449454E2E2E4F54204C4155514520524F4E20464F205445534255532041205245485449454E205D325B2020206D532023204E203B43515F44464E203B20202020393832322E2E38383232,
  0x454C4954534E52555420544847495220454C42554F4420524142204C4143495452455620454C42554F44204445544147454E2E2E45564F525020544F4E2053454F44205D345B2020206D532023204E203B43515F44464E203B20202020464132322E2E43413232,
  0x4F54204C4155514520524F20464F204C414E494749524F2045524155515320544F4E2E2E4C4155514520524F204544454345525020544F4E2053454F44205D345B2020206D532023204E203B43515F44464E203B20202020334532322E2E30453232,
  0x4C4155514520524F2050554F5247425553204C414D524F4E205341204E4941544E4F4320544F4E2053454F442E2E464F2050554F5247425553204C414D524F4E20544F4E205D345B2020206D532023204E203B43515F44464E203B20202020444532322E2E41453232,
  0x54454B4341524220454C474E4120474E49544E494F502D5446454C2020202020202073502023204E203B43515F44464E203B2020202020202020202039323332,
  0x54454B4341524220454C474E4120474E49544E494F502D54484749522020202020202065502023204E203B43515F44464E203B2020202020202020202041323332,
  0x474E494B524F46202020202020206D532023204E203B43515F44464E203B2020202020202020202043444132,
  0x41472052455454454C20414E414741524948202020202020206F4C2023204E203B43515F44464E203B2020202020202020202043343033,
  0x49472052455454454C20414E414741524948202020202020206F4C2023204E203B43515F44464E203B2020202020202020202045343033,
  0x55472052455454454C20414E414741524948202020202020206F4C2023204E203B43515F44464E203B2020202020202020202030353033,
  0x45472052455454454C20414E414741524948202020202020206F4C2023204E203B43515F44464E203B2020202020202020202032353033,
  0x4F472052455454454C20414E414741524948202020202020206F4C2023204E203B43515F44464E203B2020202020202020202034353033,
  0x415A2052455454454C20414E414741524948202020202020206F4C2023204E203B43515F44464E203B2020202020202020202036353033,
  0x495A2052455454454C20414E414741524948202020202020206F4C2023204E203B43515F44464E203B2020202020202020202038353033,
  0x555A2052455454454C20414E414741524948202020202020206F4C2023204E203B43515F44464E203B2020202020202020202041353033,
  0x455A2052455454454C20414E414741524948202020202020206F4C2023204E203B43515F44464E203B2020202020202020202043353033,
  0x4F5A2052455454454C20414E414741524948202020202020206F4C2023204E203B43515F44464E203B2020202020202020202045353033,
  0x41442052455454454C20414E414741524948202020202020206F4C2023204E203B43515F44464E203B2020202020202020202030363033,
  0x49442052455454454C20414E414741524948202020202020206F4C2023204E203B43515F44464E203B2020202020202020202032363033,
  0x55442052455454454C20414E414741524948202020202020206F4C2023204E203B43515F44464E203B2020202020202020202035363033,
  0x45442052455454454C20414E414741524948202020202020206F4C2023204E203B43515F44464E203B2020202020202020202037363033,
  0x4F442052455454454C20414E414741524948202020202020206F4C2023204E203B43515F44464E203B2020202020202020202039363033,
  0x41502052455454454C20414E4147415249482E2E41422052455454454C20414E414741524948205D325B2020206F4C2023204E203B43515F44464E203B20202020313730332E2E30373033,
  0x49502052455454454C20414E4147415249482E2E49422052455454454C20414E414741524948205D325B2020206F4C2023204E203B43515F44464E203B20202020343730332E2E33373033,
  0x55502052455454454C20414E4147415249482E2E55422052455454454C20414E414741524948205D325B2020206F4C2023204E203B43515F44464E203B20202020373730332E2E36373033,
  0x45502052455454454C20414E4147415249482E2E45422052455454454C20414E414741524948205D325B2020206F4C2023204E203B43515F44464E203B20202020413730332E2E39373033,
  0x4F502052455454454C20414E4147415249482E2E4F422052455454454C20414E414741524948205D325B2020206F4C2023204E203B43515F44464E203B20202020443730332E2E43373033,
  0x55562052455454454C20414E414741524948202020202020206F4C2023204E203B43515F44464E203B2020202020202020202034393033,
  0x4B52414D204E4F4954415245544920444543494F5620414E414741524948202020202020206D4C2023204E203B43515F44464E203B2020202020202020202045393033,
  0x41472052455454454C20414E414B4154414B202020202020206F4C2023204E203B43515F44464E203B2020202020202020202043413033,
  0x49472052455454454C20414E414B4154414B202020202020206F4C2023204E203B43515F44464E203B2020202020202020202045413033,
  0x55472052455454454C20414E414B4154414B202020202020206F4C2023204E203B43515F44464E203B2020202020202020202030423033,
  0x45472052455454454C20414E414B4154414B202020202020206F4C2023204E203B43515F44464E203B2020202020202020202032423033,
  0x4F472052455454454C20414E414B4154414B202020202020206F4C2023204E203B43515F44464E203B2020202020202020202034423033,
  0x415A2052455454454C20414E414B4154414B202020202020206F4C2023204E203B43515F44464E203B2020202020202020202036423033,
  0x495A2052455454454C20414E414B4154414B202020202020206F4C2023204E203B43515F44464E203B2020202020202020202038423033,
  0x555A2052455454454C20414E414B4154414B202020202020206F4C2023204E203B43515F44464E203B2020202020202020202041423033,
  0x455A2052455454454C20414E414B4154414B202020202020206F4C2023204E203B43515F44464E203B2020202020202020202043423033,
  0x4F5A2052455454454C20414E414B4154414B202020202020206F4C2023204E203B43515F44464E203B2020202020202020202045423033,
  0x41442052455454454C20414E414B4154414B202020202020206F4C2023204E203B43515F44464E203B2020202020202020202030433033,
  0x49442052455454454C20414E414B4154414B202020202020206F4C2023204E203B43515F44464E203B2020202020202020202032433033,
  0x55442052455454454C20414E414B4154414B202020202020206F4C2023204E203B43515F44464E203B2020202020202020202035433033,
  0x45442052455454454C20414E414B4154414B202020202020206F4C2023204E203B43515F44464E203B2020202020202020202037433033,
  0x4F442052455454454C20414E414B4154414B202020202020206F4C2023204E203B43515F44464E203B2020202020202020202039433033,
  0x41502052455454454C20414E414B4154414B2E2E41422052455454454C20414E414B4154414B205D325B2020206F4C2023204E203B43515F44464E203B20202020314430332E2E30443033,
  0x49502052455454454C20414E414B4154414B2E2E49422052455454454C20414E414B4154414B205D325B2020206F4C2023204E203B43515F44464E203B20202020344430332E2E33443033,
  0x55502052455454454C20414E414B4154414B2E2E55422052455454454C20414E414B4154414B205D325B2020206F4C2023204E203B43515F44464E203B20202020374430332E2E36443033,
  0x45502052455454454C20414E414B4154414B2E2E45422052455454454C20414E414B4154414B205D325B2020206F4C2023204E203B43515F44464E203B20202020414430332E2E39443033,
  0x4F502052455454454C20414E414B4154414B2E2E4F422052455454454C20414E414B4154414B205D325B2020206F4C2023204E203B43515F44464E203B20202020444430332E2E43443033,
  0x55562052455454454C20414E414B4154414B202020202020206F4C2023204E203B43515F44464E203B2020202020202020202034463033,
  0x4F562052455454454C20414E414B4154414B2E2E41562052455454454C20414E414B4154414B205D345B2020206F4C2023204E203B43515F44464E203B20202020414630332E2E37463033,
  0x4B52414D204E4F4954415245544920444543494F5620414E414B4154414B202020202020206D4C2023204E203B43515F44464E203B2020202020202020202045463033,
  0x48494820454C42414C4C5953204C55474E41482E2E414720454C42414C4C5953204C55474E4148205D32373131315B206F4C2023204E203B43515F44464E203B20202020334137442E2E30304341,
  0x443041462D48504152474F454449205954494C4942495441504D4F43204B4A432E2E303039462D48504152474F454449205954494C4942495441504D4F43204B4A43205D3037325B206F4C2023204E203B43515F44464E203B20202020443041462E2E30303946,
  0x303141462D48504152474F454449205954494C4942495441504D4F43204B4A43202020202020206F4C2023204E203B43515F44464E203B2020202020202020202030314146,
  0x323141462D48504152474F454449205954494C4942495441504D4F43204B4A43202020202020206F4C2023204E203B43515F44464E203B2020202020202020202032314146,
  0x453141462D48504152474F454449205954494C4942495441504D4F43204B4A432E2E353141462D48504152474F454449205954494C4942495441504D4F43204B4A43205D30315B20206F4C2023204E203B43515F44464E203B20202020453141462E2E35314146,
  0x303241462D48504152474F454449205954494C4942495441504D4F43204B4A43202020202020206F4C2023204E203B43515F44464E203B2020202020202020202030324146,
  0x323241462D48504152474F454449205954494C4942495441504D4F43204B4A43202020202020206F4C2023204E203B43515F44464E203B2020202020202020202032324146,
  0x363241462D48504152474F454449205954494C4942495441504D4F43204B4A432E2E353241462D48504152474F454449205954494C4942495441504D4F43204B4A43205D325B2020206F4C2023204E203B43515F44464E203B20202020363241462E2E35324146,
  0x443641462D48504152474F454449205954494C4942495441504D4F43204B4A432E2E413241462D48504152474F454449205954494C4942495441504D4F43204B4A43205D38365B20206F4C2023204E203B43515F44464E203B20202020443641462E2E41324146,
  0x394441462D48504152474F454449205954494C4942495441504D4F43204B4A432E2E303741462D48504152474F454449205954494C4942495441504D4F43204B4A43205D3630315B206F4C2023204E203B43515F44464E203B20202020394441462E2E30374146,
  0x5149524948204854495720444F592052455454454C20574552424548202020202020206F4C2023204E203B43515F44464E203B2020202020202020202044314246,
  0x484154415020444F5920444F59204853494444495920455255544147494C20574552424548202020202020206F4C2023204E203B43515F44464E203B2020202020202020202046314246,
  0x4853454741442048544957204E4959415A2052455454454C205745524245482E2E544F44204E4948532048544957204E4948532052455454454C20574552424548205D33315B20206F4C2023204E203B43515F44464E203B20202020363342462E2E41324246,
  0x48534547414420485449572044454D414C2052455454454C205745524245482E2E4853454741442048544957205445542052455454454C20574552424548205D355B2020206F4C2023204E203B43515F44464E203B20202020433342462E2E38334246,
  0x4853454741442048544957204D454D2052455454454C20574552424548202020202020206F4C2023204E203B43515F44464E203B2020202020202020202045334246,
  0x485345474144204854495720484B454D41532052455454454C205745524245482E2E4853454741442048544957204E554E2052455454454C20574552424548205D325B2020206F4C2023204E203B43515F44464E203B20202020313442462E2E30344246,
  0x48534547414420485449572045502052455454454C205745524245482E2E4853454741442048544957204550204C414E49462052455454454C20574552424548205D325B2020206F4C2023204E203B43515F44464E203B20202020343442462E2E33344246,
  0x4546415220485449572045502052455454454C205745524245482E2E48534547414420485449572049444153542052455454454C20574552424548205D395B2020206F4C2023204E203B43515F44464E203B20202020453442462E2E36344246,
  0x41484444442052455454454C2049485449414B202020202020206F4C2023204E203B43515F44464E203B2020202020202020204139303131,
  0x4148522052455454454C2049485449414B202020202020206F4C2023204E203B43515F44464E203B2020202020202020204339303131,
  0x41562052455454454C2049485449414B202020202020206F4C2023204E203B43515F44464E203B2020202020202020204241303131,
  0x5541204E474953204C45574F5620414D4B4148432E2E4F204E474953204C45574F5620414D4B414843205D325B2020206E4D2023204E203B43515F44464E203B202046323131312E2E4532313131,
  0x5541204E474953204C45574F56204148544E4152472E2E4F4F204E474953204C45574F56204148544E415247205D325B202020634D2023204E203B43515F44464E203B202043343331312E2E4234333131,
  0x4F204E474953204C45574F5620415455485249542E2E4941204E474953204C45574F562041545548524954205D325B202020634D2023204E203B43515F44464E203B202043423431312E2E4242343131,
  0x5541204E474953204C45574F56204154554852495420202020202020634D2023204E203B43515F44464E203B2020202020202020204542343131,
  0x5541204E474953204C45574F56204D4148444449532E2E4F204E474953204C45574F56204D414844444953205D325B202020634D2023204E203B43515F44464E203B202042423531312E2E4142353131,
  0x4F204E474953204C45574F56205552554B4120534556494420202020202020634D2023204E203B43515F44464E203B2020202020202020203833393131,
  0x45544F4E204854484749452D59544E45575420444552444E554820454E4F204C4F424D5953204C41434953554D2E2E45544F4E20464C4148204C4F424D5953204C41434953554D205D375B2020206F532023204E203B43515F44464E203B202034363144312E2E4535314431,
  0x4B43414C422041535546204C4F424D5953204C41434953554D2E2E414D494E494D204C4F424D5953204C41434953554D205D365B2020206F532023204E203B43515F44464E203B202030433144312E2E4242314431,
  0x44314146322D48504152474F454449205954494C4942495441504D4F43204B4A432E2E30303846322D48504152474F454449205954494C4942495441504D4F43204B4A43205D3234355B206F4C2023204E203B43515F44464E203B202044314146322E2E3030384632,
  0x0,
  0x3333323331203A73746E696F702065646F63206C61746F542023,
  0x0,
  0x3D3D3D3D3D3D3D3D3D3D3D3D3D3D3D3D3D3D3D3D3D3D3D3D3D3D3D3D3D3D3D3D3D3D3D3D3D3D3D3D3D3D3D3D3D3D3D3D2023,
  0x0,
  0x6B636568435F6B636975515F43464E093A79747265706F72502023,
  0x0,
  0x6B636568435F6B636975515F43464E20726F662064657473696C20796C746963696C70786520746F6E2073746E696F702065646F63206C6C41202023]

def qcText4 : List Nat := [
  0x2E295928207365592065756C6176206568742065766168202023,
  0x0,
  0x736559203B43515F43464E203B4646464630312E2E30303030203A676E697373696D402023,
  0x0,
  0x3D3D3D3D3D3D3D3D3D3D3D3D3D3D3D3D3D3D3D3D3D3D3D3D3D3D3D3D3D3D3D3D3D3D3D3D3D3D3D3D3D3D3D3D3D3D3D3D2023,
  0x0,
  0x6F4E3D6B636568435F6B636975515F43464E2023,
  0x0,
  0x4B52414D20454E4F5420455455434120474E494E49424D4F432E2E4B52414D20454E4F5420455641524720474E494E49424D4F43205D325B2020206E4D2023204E203B43515F43464E203B20202020313433302E2E30343330,
  0x534F4E4F5420414B4954594C414944204B4545524720474E494E49424D4F432E2E53494E4F524F4B204B4545524720474E494E49424D4F43205D325B2020206E4D2023204E203B43515F43464E203B20202020343433302E2E33343330,
  0x4E474953204C4152454D554E204B45455247202020202020206D4C2023204E203B43515F43464E203B2020202020202020202034373330,
  0x4B52414D204E4F495453455551204B45455247202020202020206F502023204E203B43515F43464E203B2020202020202020202045373330,
  0x4149454C4554204F4E41204B45455247202020202020206F502023204E203B43515F43464E203B2020202020202020202037383330,
  0x4159592052455454454C2049524147414E415645442E2E41512052455454454C2049524147414E41564544205D385B2020206F4C2023204E203B43515F43464E203B20202020463539302E2E38353930,
  0x4148522052455454454C20494C41474E45422E2E4152522052455454454C20494C41474E4542205D325B2020206F4C2023204E203B43515F43464E203B20202020444439302E2E43443930,
  0x4159592052455454454C20494C41474E4542202020202020206F4C2023204E203B43515F43464E203B2020202020202020202046443930,
  0x414C4C2052455454454C2049484B554D525547202020202020206F4C2023204E203B43515F43464E203B2020202020202020202033334130,
  0x4148532052455454454C2049484B554D525547202020202020206F4C2023204E203B43515F43464E203B2020202020202020202036334130,
  0x415A2052455454454C2049484B554D5255472E2E4148484B2052455454454C2049484B554D525547205D335B2020206F4C2023204E203B43515F43464E203B20202020423541302E2E39354130,
  0x41462052455454454C2049484B554D525547202020202020206F4C2023204E203B43515F43464E203B2020202020202020202045354130,
  0x4148522052455454454C20415949524F2E2E4152522052455454454C20415949524F205D325B2020206F4C2023204E203B43515F43464E203B20202020443542302E2E43354230,
  0x4148472052455454454C204E415445424954202020202020206F4C2023204E203B43515F43464E203B2020202020202020202033344630,
  0x414844442052455454454C204E415445424954202020202020206F4C2023204E203B43515F43464E203B2020202020202020202044344630,
  0x4148442052455454454C204E415445424954202020202020206F4C2023204E203B43515F43464E203B2020202020202020202032354630,
  0x4148422052455454454C204E415445424954202020202020206F4C2023204E203B43515F43464E203B2020202020202020202037354630,
  0x41485A442052455454454C204E415445424954202020202020206F4C2023204E203B43515F43464E203B2020202020202020202043354630,
  0x4153534B2052455454454C204E415445424954202020202020206F4C2023204E203B43515F43464E203B2020202020202020202039364630,
  0x4949204E474953204C45574F56204E415445424954202020202020206E4D2023204E203B43515F43464E203B2020202020202020202033374630,
  0x522043494C41434F56204E474953204C45574F56204E4154454249542E2E5555204E474953204C45574F56204E415445424954205D325B2020206E4D2023204E203B43515F43464E203B20202020363746302E2E35374630,
  0x4C2043494C41434F56204E474953204C45574F56204E415445424954202020202020206E4D2023204E203B43515F43464E203B2020202020202020202038374630,
  0x4949204445535245564552204E474953204C45574F56204E415445424954202020202020206E4D2023204E203B43515F43464E203B2020202020202020202031384630,
  0x4148472052455454454C2044454E494F4A425553204E415445424954202020202020206E4D2023204E203B43515F43464E203B2020202020202020202033394630,
  0x414844442052455454454C2044454E494F4A425553204E415445424954202020202020206E4D2023204E203B43515F43464E203B2020202020202020202044394630,
  0x4148442052455454454C2044454E494F4A425553204E415445424954202020202020206E4D2023204E203B43515F43464E203B2020202020202020202032414630,
  0x4148422052455454454C2044454E494F4A425553204E415445424954202020202020206E4D2023204E203B43515F43464E203B2020202020202020202037414630,
  0x41485A442052455454454C2044454E494F4A425553204E415445424954202020202020206E4D2023204E203B43515F43464E203B2020202020202020202043414630,
  0x4153534B2052455454454C2044454E494F4A425553204E415445424954202020202020206E4D2023204E203B43515F43464E203B2020202020202020202039424630,
  0x4149584F2048544957204148504C412052455454454C204C4C414D53204B4545524720202020202020264C2023204E203B43515F43464E203B2020202020202020202031374631,
  0x4149584F2048544957204E4F4C495350452052455454454C204C4C414D53204B4545524720202020202020264C2023204E203B43515F43464E203B2020202020202020202033374631,
  0x4149584F2048544957204154452052455454454C204C4C414D53204B4545524720202020202020264C2023204E203B43515F43464E203B2020202020202020202035374631,
  0x4149584F20485449572041544F492052455454454C204C4C414D53204B4545524720202020202020264C2023204E203B43515F43464E203B2020202020202020202037374631,
  0x4149584F2048544957204E4F5243494D4F2052455454454C204C4C414D53204B4545524720202020202020264C2023204E203B43515F43464E203B2020202020202020202039374631,
  0x4149584F2048544957204E4F4C495350552052455454454C204C4C414D53204B4545524720202020202020264C2023204E203B43515F43464E203B2020202020202020202042374631,
  0x4149584F2048544957204147454D4F2052455454454C204C4C414D53204B4545524720202020202020264C2023204E203B43515F43464E203B2020202020202020202044374631,
  0x4149584F2048544957204148504C412052455454454C204C415449504143204B4545524720202020202020264C2023204E203B43515F43464E203B2020202020202020202042424631,
  0x494E454D4D4152474547534F5250204B4545524720202020202020264C2023204E203B43515F43464E203B2020202020202020202045424631,
  0x4149584F2048544957204E4F4C495350452052455454454C204C415449504143204B4545524720202020202020264C2023204E203B43515F43464E203B2020202020202020202039434631,
  0x4149584F2048544957204154452052455454454C204C415449504143204B4545524720202020202020264C2023204E203B43515F43464E203B2020202020202020202042434631,
  0x4149584F20444E4120414B4954594C41494420485449572041544F492052455454454C204C4C414D53204B4545524720202020202020264C2023204E203B43515F43464E203B2020202020202020202033444631,
  0x4149584F20485449572041544F492052455454454C204C415449504143204B4545524720202020202020264C2023204E203B43515F43464E203B2020202020202020202042444631,
  0x4149584F20444E4120414B4954594C4149442048544957204E4F4C495350552052455454454C204C4C414D53204B4545524720202020202020264C2023204E203B43515F43464E203B2020202020202020202033454631,
  0x4149584F2048544957204E4F4C495350552052455454454C204C415449504143204B4545524720202020202020264C2023204E203B43515F43464E203B2020202020202020202042454631,
  0x4149524156204B454552472E2E4149584F20444E4120414B4954594C414944204B45455247205D325B2020206B532023204E203B43515F43464E203B20202020464546312E2E45454631,
  0x4149584F2048544957204E4F5243494D4F2052455454454C204C415449504143204B4545524720202020202020264C2023204E203B43515F43464E203B2020202020202020202039464631,
  0x4149584F2048544957204147454D4F2052455454454C204C415449504143204B4545524720202020202020264C2023204E203B43515F43464E203B2020202020202020202042464631,
  0x4149584F204B45455247202020202020206B532023204E203B43515F43464E203B2020202020202020202044464631,
  0x44415551204D452E2E44415551204E45205D325B202020735A2023204E203B43515F43464E203B20202020313030322E2E30303032,
  0x4E474953204D484F20202020202020264C2023204E203B43515F43464E203B2020202020202020202036323132,
  0x4E474953204D4F525453474E412E2E4E474953204E49564C454B205D325B202020264C2023204E203B43515F43464E203B20202020423231322E2E41323132,
  0x54454B4341524220454C474E4120474E49544E494F502D5446454C2020202020202073502023204E203B43515F43464E203B2020202020202020202039323332,
  0x54454B4341524220454C474E4120474E49544E494F502D54484749522020202020202065502023204E203B43515F43464E203B2020202020202020202041323332,
  0x474E494B524F46202020202020206D532023204E203B43515F43464E203B2020202020202020202043444132,
  0x443041462D48504152474F454449205954494C4942495441504D4F43204B4A432E2E303039462D48504152474F454449205954494C4942495441504D4F43204B4A43205D3037325B206F4C2023204E203B43515F43464E203B20202020443041462E2E30303946,
  0x303141462D48504152474F454449205954494C4942495441504D4F43204B4A43202020202020206F4C2023204E203B43515F43464E203B2020202020202020202030314146,
  0x323141462D48504152474F454449205954494C4942495441504D4F43204B4A43202020202020206F4C2023204E203B43515F43464E203B2020202020202020202032314146,
  0x453141462D48504152474F454449205954494C4942495441504D4F43204B4A432E2E353141462D48504152474F454449205954494C4942495441504D4F43204B4A43205D30315B20206F4C2023204E203B43515F43464E203B20202020453141462E2E35314146,
  0x303241462D48504152474F454449205954494C4942495441504D4F43204B4A43202020202020206F4C2023204E203B43515F43464E203B2020202020202020202030324146,
  0x323241462D48504152474F454449205954494C4942495441504D4F43204B4A43202020202020206F4C2023204E203B43515F43464E203B2020202020202020202032324146,
  0x363241462D48504152474F454449205954494C4942495441504D4F43204B4A432E2E353241462D48504152474F454449205954494C4942495441504D4F43204B4A43205D325B2020206F4C2023204E203B43515F43464E203B20202020363241462E2E35324146,
  0x443641462D48504152474F454449205954494C4942495441504D4F43204B4A432E2E413241462D48504152474F454449205954494C4942495441504D4F43204B4A43205D38365B20206F4C2023204E203B43515F43464E203B20202020443641462E2E41324146,
  0x394441462D48504152474F454449205954494C4942495441504D4F43204B4A432E2E303741462D48504152474F454449205954494C4942495441504D4F43204B4A43205D3630315B206F4C2023204E203B43515F43464E203B20202020394441462E2E30374146,
  0x5149524948204854495720444F592052455454454C20574552424548202020202020206F4C2023204E203B43515F43464E203B2020202020202020202044314246,
  0x484154415020444F5920444F59204853494444495920455255544147494C20574552424548202020202020206F4C2023204E203B43515F43464E203B2020202020202020202046314246,
  0x4853454741442048544957204E4959415A2052455454454C205745524245482E2E544F44204E4948532048544957204E4948532052455454454C20574552424548205D33315B20206F4C2023204E203B43515F43464E203B20202020363342462E2E41324246,
  0x48534547414420485449572044454D414C2052455454454C205745524245482E2E4853454741442048544957205445542052455454454C20574552424548205D355B2020206F4C2023204E203B43515F43464E203B20202020433342462E2E38334246,
  0x4853454741442048544957204D454D2052455454454C20574552424548202020202020206F4C2023204E203B43515F43464E203B2020202020202020202045334246,
  0x485345474144204854495720484B454D41532052455454454C205745524245482E2E4853454741442048544957204E554E2052455454454C20574552424548205D325B2020206F4C2023204E203B43515F43464E203B20202020313442462E2E30344246,
  0x48534547414420485449572045502052455454454C205745524245482E2E4853454741442048544957204550204C414E49462052455454454C20574552424548205D325B2020206F4C2023204E203B43515F43464E203B20202020343442462E2E33344246,
  0x4546415220485449572045502052455454454C205745524245482E2E48534547414420485449572049444153542052455454454C20574552424548205D395B2020206F4C2023204E203B43515F43464E203B20202020453442462E2E36344246,
  0x45544F4E204854484749452D59544E45575420444552444E554820454E4F204C4F424D5953204C41434953554D2E2E45544F4E20464C4148204C4F424D5953204C41434953554D205D375B2020206F532023204E203B43515F43464E203B202034363144312E2E4535314431,
  0x4B43414C422041535546204C4F424D5953204C41434953554D2E2E414D494E494D204C4F424D5953204C41434953554D205D365B2020206F532023204E203B43515F43464E203B202030433144312E2E4242314431,
  0x44314146322D48504152474F454449205954494C4942495441504D4F43204B4A432E2E30303846322D48504152474F454449205954494C4942495441504D4F43204B4A43205D3234355B206F4C2023204E203B43515F43464E203B202044314146322E2E3030384632,
  0x0,
  0x30323131203A73746E696F702065646F63206C61746F542023,
  0x0,
  0x3D3D3D3D3D3D3D3D3D3D3D3D3D3D3D3D3D3D3D3D3D3D3D3D3D3D3D3D3D3D3D3D3D3D3D3D3D3D3D3D3D3D3D3D3D3D3D3D2023,
  0x0,
  0x656279614D3D6B636568435F6B636975515F43464E2023,
  0x0,
  0x4E4F5243414D20474E494E49424D4F432E2E544E4543434120455641524720474E494E49424D4F43205D355B2020206E4D2023204D203B43515F43464E203B20202020343033302E2E30303330,
  0x4E4F52414320474E494E49424D4F432E2E455645524220474E494E49424D4F43205D375B2020206E4D2023204D203B43515F43464E203B20202020433033302E2E36303330,
  0x544E4543434120455641524720454C42554F4420474E494E49424D4F43202020202020206E4D2023204D203B43515F43464E203B2020202020202020202046303330,
  0x4556455242204445545245564E4920474E494E49424D4F43202020202020206E4D2023204D203B43515F43464E203B2020202020202020202031313330,
  0x45564F424120414D4D4F4320444553524556455220474E494E49424D4F432E2E45564F424120414D4D4F4320474E494E49424D4F43205D325B2020206E4D2023204D203B43515F43464E203B20202020343133302E2E33313330,
  0x4E524F4820474E494E49424D4F43202020202020206E4D2023204D203B43515F43464E203B2020202020202020202042313330,
  0x4B454E4F474F20474E494E49424D4F432E2E574F4C454220544F4420474E494E49424D4F43205D365B2020206E4D2023204D203B43515F43464E203B20202020383233302E2E33323330,
  0x574F4C454220455645524220474E494E49424D4F432E2E574F4C454220544E454343412058454C464D554352494320474E494E49424D4F43205D325B2020206E4D2023204D203B43515F43464E203B20202020453233302E2E44323330,
  0x574F4C4542204E4F5243414D20474E494E49424D4F432E2E574F4C45422045444C495420474E494E49424D4F43205D325B2020206E4D2023204D203B43515F43464E203B20202020313333302E2E30333330,
  0x59414C5245564F20535544494C4F5320474E4F4C20474E494E49424D4F43202020202020206E4D2023204D203B43515F43464E203B2020202020202020202038333330,
  0x494E454D4F505349524550204B4545524720474E494E49424D4F43202020202020206E4D2023204D203B43515F43464E203B2020202020202020202032343330,
  0x494E454D4D41524745474F5059204B4545524720474E494E49424D4F43202020202020206E4D2023204D203B43515F43464E203B2020202020202020202035343330,
  0x574F4C454220415A4D4148204349424152412E2E45564F42412048414444414D20434942415241205D335B2020206E4D2023204D203B43515F43464E203B20202020353536302E2E33353630,
  0x41544B554E204E4749532049524147414E41564544202020202020206E4D2023204D203B43515F43464E203B2020202020202020202043333930,
  0x4141204E474953204C45574F5620494C41474E454220202020202020634D2023204D203B43515F43464E203B2020202020202020202045423930,
  0x4B52414D204854474E454C20554120494C41474E454220202020202020634D2023204D203B43515F43464E203B2020202020202020202037443930,
  0x4141204E474953204C45574F5620415949524F20202020202020634D2023204D203B43515F43464E203B2020202020202020202045334230,
  0x4B52414D204854474E454C20494120415949524F202020202020206E4D2023204D203B43515F43464E203B2020202020202020202036354230,
  0x4B52414D204854474E454C20554120415949524F20202020202020634D2023204D203B43515F43464E203B2020202020202020202037354230,
  0x4141204E474953204C45574F56204C494D415420202020202020634D2023204D203B43515F43464E203B2020202020202020202045424230,
  0x4B52414D204854474E454C205541204C494D415420202020202020634D2023204D203B43515F43464E203B2020202020202020202037444230,
  0x4B52414D204854474E454C204941205547554C4554202020202020206E4D2023204D203B43515F43464E203B2020202020202020202036354330,
  0x5555204E474953204C45574F56204144414E4E414B20202020202020634D2023204D203B43515F43464E203B2020202020202020202032434330,
  0x4B52414D204854474E454C204941204144414E4E414B2E2E4B52414D204854474E454C204144414E4E414B205D325B202020634D2023204D203B43515F43464E203B20202020364443302E2E35444330,
  0x4141204E474953204C45574F56204D414C4159414C414D20202020202020634D2023204D203B43515F43464E203B2020202020202020202045334430,
  0x4B52414D204854474E454C205541204D414C4159414C414D20202020202020634D2023204D203B43515F43464E203B2020202020202020202037354430,
  0x414E554B414C2D4C41204E47495320414C41484E4953202020202020206E4D2023204D203B43515F43464E203B2020202020202020202041434430,
  0x414C4C49502D414C4541204E474953204C45574F5620414C41484E495320202020202020634D2023204D203B43515F43464E203B2020202020202020202046434430,
  0x415454494B554E41594147204E474953204C45574F5620414C41484E495320202020202020634D2023204D203B43515F43464E203B2020202020202020202046444430,
  0x4949204E474953204C45574F562052414D4E41594D202020202020206E4D2023204D203B43515F43464E203B2020202020202020202045323031,
  0x4920474E4F4553474E554A204C55474E41482E2E4120474E4F4553474E554A204C55474E4148205D31325B20206F4C2023204D203B43515F43464E203B20202020353731312E2E31363131,
  0x485545494820474E4F4553474E4F4A204C55474E41482E2E4B4F4559494B20474E4F4553474E4F4A204C55474E4148205D37325B20206F4C2023204D203B43515F43464E203B20202020324331312E2E38413131,
  0x474E55444554204E474953204C45574F56204553454E494C414220202020202020634D2023204D203B43515F43464E203B2020202020202020202035334231,
  0x4B52414D20444E554F5320444543494F562D494D455320414E4147415249482D414E414B4154414B20474E494E49424D4F432E2E4B52414D20444E554F5320444543494F5620414E4147415249482D414E414B4154414B20474E494E49424D4F43205D325B2020206E4D2023204D203B43515F43464E203B20202020413930332E2E39393033,
  0x41544B554E204E4749532049485449414B202020202020206E4D2023204D203B43515F43464E203B2020202020202020204142303131,
  0x41204E474953204C45574F5620414D4B414843202020202020206E4D2023204D203B43515F43464E203B2020202020202020203732313131,
  0x4141204E474953204C45574F56204148544E41524720202020202020634D2023204D203B43515F43464E203B2020202020202020204533333131,
  0x4B52414D204854474E454C205541204148544E41524720202020202020634D2023204D203B43515F43464E203B2020202020202020203735333131,
  0x4141204E474953204C45574F56204154554852495420202020202020634D2023204D203B43515F43464E203B2020202020202020203042343131,
  0x452054524F4853204E474953204C45574F562041545548524954202020202020206E4D2023204D203B43515F43464E203B2020202020202020204142343131,
  0x4F2054524F4853204E474953204C45574F56204154554852495420202020202020634D2023204D203B43515F43464E203B2020202020202020204442343131,
  0x4141204E474953204C45574F56204D41484444495320202020202020634D2023204D203B43515F43464E203B2020202020202020204641353131,
  0x4141204E474953204C45574F56205552554B4120534556494420202020202020634D2023204D203B43515F43464E203B2020202020202020203033393131,
  0x0,
  0x313131203A73746E696F702065646F63206C61746F542023,
  0x0,
  0x3D3D3D3D3D3D3D3D3D3D3D3D3D3D3D3D3D3D3D3D3D3D3D3D3D3D3D3D3D3D3D3D3D3D3D3D3D3D3D3D3D3D3D3D3D3D3D3D2023,
  0x0,
  0x6B636568435F6B636975515F444B464E093A79747265706F72502023,
  0x0,
  0x6B636568435F6B636975515F444B464E20726F662064657473696C20796C746963696C70786520746F6E2073746E696F702065646F63206C6C41202023,
  0x2E295928207365592065756C6176206568742065766168202023,
  0x0,
  0x736559203B43515F444B464E203B4646464630312E2E30303030203A676E697373696D402023,
  0x0,
  0x3D3D3D3D3D3D3D3D3D3D3D3D3D3D3D3D3D3D3D3D3D3D3D3D3D3D3D3D3D3D3D3D3D3D3D3D3D3D3D3D3D3D3D3D3D3D3D3D2023,
  0x0,
  0x6F4E3D6B636568435F6B636975515F444B464E2023,
  0x0,
  0x4543415053204B414552422D4F4E20202020202020735A2023204E203B43515F444B464E203B2020202020202020202030413030,
  0x534953455245414944202020202020206B532023204E203B43515F444B464E203B2020202020202020202038413030,
  0x524F54414349444E49204C414E4944524F20454E494E494D4546202020202020206F4C2023204E203B43515F444B464E203B2020202020202020202041413030,
  0x4E4F5243414D202020202020206B532023204E203B43515F444B464E203B2020202020202020202046413030,
  0x45455248542054504952435352455055532E2E4F5754205450495243535245505553205D325B2020206F4E2023204E203B43515F444B464E203B20202020334230302E2E32423030,
  0x544E45434341204554554341202020202020206B532023204E203B43515F444B464E203B2020202020202020202034423030,
  0x4E474953204F5243494D20202020202020264C2023204E203B43515F444B464E203B2020202020202020202035423030,
  0x414C4C49444543202020202020206B532023204E203B43515F444B464E203B2020202020202020202038423030,
  0x454E4F205450495243535245505553202020202020206F4E2023204E203B43515F444B464E203B2020202020202020202039423030,
  0x524F54414349444E49204C414E4944524F20454E494C554353414D202020202020206F4C2023204E203B43515F444B464E203B2020202020202020202041423030,
  0x5352455452415551204545524854204E4F495443415246205241474C55562E2E5245545241555120454E4F204E4F495443415246205241474C5556205D335B2020206F4E2023204E203B43515F444B464E203B20202020454230302E2E43423030,
  0x45564F424120474E4952204854495720412052455454454C204C415449504143204E4954414C2E2E4556415247204854495720412052455454454C204C415449504143204E4954414C205D365B202020264C2023204E203B43515F444B464E203B20202020354330302E2E30433030,
  0x534953455245414944204854495720492052455454454C204C415449504143204E4954414C2E2E414C4C49444543204854495720432052455454454C204C415449504143204E4954414C205D395B202020264C2023204E203B43515F444B464E203B20202020464330302E2E37433030,
  0x5349534552454149442048544957204F2052455454454C204C415449504143204E4954414C2E2E45444C49542048544957204E2052455454454C204C415449504143204E4954414C205D365B202020264C2023204E203B43515F444B464E203B20202020364430302E2E31443030,
  0x4554554341204854495720592052455454454C204C415449504143204E4954414C2E2E4556415247204854495720552052455454454C204C415449504143204E4954414C205D355B202020264C2023204E203B43515F444B464E203B20202020444430302E2E39443030,
  0x45564F424120474E4952204854495720412052455454454C204C4C414D53204E4954414C2E2E4556415247204854495720412052455454454C204C4C414D53204E4954414C205D365B202020264C2023204E203B43515F444B464E203B20202020354530302E2E30453030,
  0x534953455245414944204854495720492052455454454C204C4C414D53204E4954414C2E2E414C4C49444543204854495720432052455454454C204C4C414D53204E4954414C205D395B202020264C2023204E203B43515F444B464E203B20202020464530302E2E37453030,
  0x5349534552454149442048544957204F2052455454454C204C4C414D53204E4954414C2E2E45444C49542048544957204E2052455454454C204C4C414D53204E4954414C205D365B202020264C2023204E203B43515F444B464E203B20202020364630302E2E31463030,
  0x4554554341204854495720592052455454454C204C4C414D53204E4954414C2E2E4556415247204854495720552052455454454C204C4C414D53204E4954414C205D355B202020264C2023204E203B43515F444B464E203B20202020444630302E2E39463030,
  0x4E4F524143204854495720442052455454454C204C4C414D53204E4954414C2E2E534953455245414944204854495720592052455454454C204C4C414D53204E4954414C205D37315B2020264C2023204E203B43515F444B464E203B20202020463031302E2E46463030,
  0x58454C464D5543524943204854495720482052455454454C204C4C414D53204E4954414C2E2E4E4F5243414D204854495720452052455454454C204C415449504143204E4954414C205D30325B2020264C2023204E203B43515F444B464E203B20202020353231302E2E32313130,
  0x45564F424120544F44204854495720492052455454454C204C415449504143204E4954414C2E2E45444C4954204854495720492052455454454C204C415449504143204E4954414C205D395B202020264C2023204E203B43515F444B464E203B20202020303331302E2E38323130,
  0x414C4C494445432048544957204B2052455454454C204C4C414D53204E4954414C2E2E4A4920455255544147494C204C415449504143204E4954414C205D365B202020264C2023204E203B43515F444B464E203B20202020373331302E2E32333130,
  0x544F4420454C4444494D2048544957204C2052455454454C204C4C414D53204E4954414C2E2E45545543412048544957204C2052455454454C204C415449504143204E4954414C205D385B202020264C2023204E203B43515F444B464E203B20202020303431302E2E39333130,
  0x4548504F5254534F5041205942204445444543455250204E2052455454454C204C4C414D53204E4954414C2E2E45545543412048544957204E2052455454454C204C415449504143204E4954414C205D375B202020264C2023204E203B43515F444B464E203B20202020393431302E2E33343130,
  0x455455434120454C42554F442048544957204F2052455454454C204C4C414D53204E4954414C2E2E4E4F5243414D2048544957204F2052455454454C204C415449504143204E4954414C205D365B202020264C2023204E203B43515F444B464E203B20202020313531302E2E43343130,
  0x4E4F524143204854495720542052455454454C204C4C414D53204E4954414C2E2E4554554341204854495720522052455454454C204C415449504143204E4954414C205D38315B2020264C2023204E203B43515F444B464E203B20202020353631302E2E34353130,
  0x5320474E4F4C2052455454454C204C4C414D53204E4954414C2E2E45444C4954204854495720552052455454454C204C415449504143204E4954414C205D34325B2020264C2023204E203B43515F444B464E203B20202020463731302E2E38363130,
  0x4E524F482048544957204F2052455454454C204C4C414D53204E4954414C2E2E4E524F482048544957204F2052455454454C204C415449504143204E4954414C205D325B202020264C2023204E203B43515F444B464E203B20202020314131302E2E30413130,
  0x4E524F48204854495720552052455454454C204C4C414D53204E4954414C2E2E4E524F48204854495720552052455454454C204C415449504143204E4954414C205D325B202020264C2023204E203B43515F444B464E203B20202020304231302E2E46413130,
  0x455641524720444E4120534953455245414944204854495720552052455454454C204C4C414D53204E4954414C2E2E4E4F5241432048544957205A442052455454454C204C415449504143204E4954414C205D35325B2020264C2023204E203B43515F444B464E203B20202020434431302E2E34433130,
  0x4E4F5243414D20485449572045412052455454454C204C4C414D53204E4954414C2E2E4E4F5243414D20444E4120534953455245414944204854495720412052455454454C204C415449504143204E4954414C205D365B202020264C2023204E203B43515F444B464E203B20202020334531302E2E45443130,
  0x4554554341204854495720472052455454454C204C4C414D53204E4954414C2E2E4E4F524143204854495720472052455454454C204C415449504143204E4954414C205D36315B2020264C2023204E203B43515F444B464E203B20202020354631302E2E36453130,
  0x574F4C454220414D4D4F43204854495720542052455454454C204C4C414D53204E4954414C2E2E45564152472048544957204E2052455454454C204C415449504143204E4954414C205D36335B2020264C2023204E203B43515F444B464E203B20202020423132302E2E38463130,
  0x4E4F524143204854495720482052455454454C204C4C414D53204E4954414C2E2E4E4F524143204854495720482052455454454C204C415449504143204E4954414C205D325B202020264C2023204E203B43515F444B464E203B20202020463132302E2E45313230,
  0x4E4F5243414D204854495720592052455454454C204C4C414D53204E4954414C2E2E45564F424120544F44204854495720412052455454454C204C415449504143204E4954414C205D34315B2020264C2023204E203B43515F444B464E203B20202020333332302E2E36323230,
  0x59204C4C414D532052455454454C205245494649444F4D2E2E48204C4C414D532052455454454C205245494649444F4D205D395B2020206D4C2023204E203B43515F444B464E203B20202020384232302E2E30423230,
  0x544E4543434120455455434120454C42554F442E2E4556455242205D365B2020206B532023204E203B43515F444B464E203B20202020444432302E2E38443230,
  0x504F5453204C4154544F4C47204445535245564552204C4C414D532052455454454C205245494649444F4D2E2E414D4D4147204C4C414D532052455454454C205245494649444F4D205D355B2020206D4C2023204E203B43515F444B464E203B20202020344532302E2E30453230,
  0x4B52414D20454E4F5420455455434120474E494E49424D4F432E2E4B52414D20454E4F5420455641524720474E494E49424D4F43205D325B2020206E4D2023204E203B43515F444B464E203B20202020313433302E2E30343330,
  0x534F4E4F5420414B4954594C414944204B4545524720474E494E49424D4F432E2E53494E4F524F4B204B4545524720474E494E49424D4F43205D325B2020206E4D2023204E203B43515F444B464E203B20202020343433302E2E33343330,
  0x4E474953204C4152454D554E204B45455247202020202020206D4C2023204E203B43515F444B464E203B2020202020202020202034373330,
  0x494E454D4D41524745474F5059204B45455247202020202020206D4C2023204E203B43515F444B464E203B2020202020202020202041373330,
  0x4B52414D204E4F495453455551204B45455247202020202020206F502023204E203B43515F444B464E203B2020202020202020202045373330,
  0x534F4E4F5420414B4954594C414944204B454552472E2E534F4E4F54204B45455247205D325B2020206B532023204E203B43515F444B464E203B20202020353833302E2E34383330,
  0x534F4E4F542048544957204148504C412052455454454C204C415449504143204B4545524720202020202020264C2023204E203B43515F444B464E203B2020202020202020202036383330,
  0x4149454C4554204F4E41204B45455247202020202020206F502023204E203B43515F444B464E203B2020202020202020202037383330,
  0x534F4E4F5420485449572041544F492052455454454C204C415449504143204B454552472E2E534F4E4F542048544957204E4F4C495350452052455454454C204C415449504143204B45455247205D335B202020264C2023204E203B43515F444B464E203B20202020413833302E2E38383330,
  0x534F4E4F542048544957204E4F5243494D4F2052455454454C204C415449504143204B4545524720202020202020264C2023204E203B43515F444B464E203B2020202020202020202043383330,
  0x534F4E4F5420444E4120414B4954594C41494420485449572041544F492052455454454C204C4C414D53204B454552472E2E534F4E4F542048544957204E4F4C495350552052455454454C204C415449504143204B45455247205D335B202020264C2023204E203B43515F444B464E203B20202020303933302E2E45383330,
  0x534F4E4F5420444E4120414B4954594C4149442048544957204E4F4C495350552052455454454C204C4C414D53204B454552472E2E414B4954594C41494420485449572041544F492052455454454C204C415449504143204B45455247205D375B202020264C2023204E203B43515F444B464E203B20202020304233302E2E41413330,
  0x534F4E4F542048544957204147454D4F2052455454454C204C4C414D53204B454552472E2E414B4954594C41494420485449572041544F492052455454454C204C4C414D53204B45455247205D355B202020264C2023204E203B43515F444B464E203B20202020454333302E2E41433330,
  0x4C4F424D5953204950204B454552472E2E4C4F424D59532041544542204B45455247205D375B202020264C2023204E203B43515F444B464E203B20202020364433302E2E30443330,
  0x4C4F424D595320414D474953204554414E554C204B454552472E2E4C4F424D595320415050414B204B45455247205D335B202020264C2023204E203B43515F444B464E203B20202020324633302E2E30463330,
  0x4C4F424D5953204E4F4C49535045204554414E554C204B454552472E2E4C4F424D5953204154454854204C415449504143204B45455247205D325B202020264C2023204E203B43515F444B464E203B20202020354633302E2E34463330,
  0x4C4F424D595320414D474953204554414E554C204C415449504143204B4545524720202020202020264C2023204E203B43515F444B464E203B2020202020202020202039463330,
  0x4F492052455454454C204C4154495041432043494C4C495259432E2E455641524720485449572045492052455454454C204C4154495041432043494C4C49525943205D325B202020264C2023204E203B43515F444B464E203B20202020313034302E2E30303430,
  0x454A472052455454454C204C4154495041432043494C4C4952594320202020202020264C2023204E203B43515F444B464E203B2020202020202020202033303430,
  0x49592052455454454C204C4154495041432043494C4C4952594320202020202020264C2023204E203B43515F444B464E203B2020202020202020202037303430,
  0x552054524F48532052455454454C204C4154495041432043494C4C495259432E2E454A4B2052455454454C204C4154495041432043494C4C49525943205D335B202020264C2023204E203B43515F444B464E203B20202020453034302E2E43303430,
  0x492054524F48532052455454454C204C4154495041432043494C4C4952594320202020202020264C2023204E203B43515F444B464E203B2020202020202020202039313430,
  0x492054524F48532052455454454C204C4C414D532043494C4C4952594320202020202020264C2023204E203B43515F444B464E203B2020202020202020202039333430,
  0x4F492052455454454C204C4C414D532043494C4C495259432E2E455641524720485449572045492052455454454C204C4C414D532043494C4C49525943205D325B202020264C2023204E203B43515F444B464E203B20202020313534302E2E30353430,
  0x454A472052455454454C204C4C414D532043494C4C4952594320202020202020264C2023204E203B43515F444B464E203B2020202020202020202033353430,
  0x49592052455454454C204C4C414D532043494C4C4952594320202020202020264C2023204E203B43515F444B464E203B2020202020202020202037353430,
  0x552054524F48532052455454454C204C4C414D532043494C4C495259432E2E454A4B2052455454454C204C4C414D532043494C4C49525943205D335B202020264C2023204E203B43515F444B464E203B20202020453534302E2E43353430,
  0x544E4543434120455641524720454C42554F4420485449572041535449485A492052455454454C204C4C414D532043494C4C495259432E2E544E4543434120455641524720454C42554F4420485449572041535449485A492052455454454C204C4154495041432043494C4C49525943205D325B202020264C2023204E203B43515F444B464E203B20202020373734302E2E36373430,
  0x455645524220485449572045485A2052455454454C204C4C414D532043494C4C495259432E2E455645524220485449572045485A2052455454454C204C4154495041432043494C4C49525943205D325B202020264C2023204E203B43515F444B464E203B20202020324334302E2E31433430,
  0x534953455245414944204854495720412052455454454C204C4C414D532043494C4C495259432E2E4556455242204854495720412052455454454C204C4154495041432043494C4C49525943205D345B202020264C2023204E203B43515F444B464E203B20202020334434302E2E30443430,
  0x455645524220485449572045492052455454454C204C4C414D532043494C4C495259432E2E455645524220485449572045492052455454454C204C4154495041432043494C4C49525943205D325B202020264C2023204E203B43515F444B464E203B20202020374434302E2E36443430,
  0x534953455245414944204854495720455A2052455454454C204C4C414D532043494C4C495259432E2E53495345524541494420485449572041574843532052455454454C204C4154495041432043494C4C49525943205D365B202020264C2023204E203B43515F444B464E203B20202020464434302E2E41443430,
  0x5349534552454149442048544957204F2052455454454C204C4C414D532043494C4C495259432E2E4E4F5243414D204854495720492052455454454C204C4154495041432043494C4C49525943205D365B202020264C2023204E203B43515F444B464E203B20202020374534302E2E32453430,
  0x5349534552454149442048544957204548432052455454454C204C4C414D532043494C4C495259432E2E5349534552454149442048544957204F204445525241422052455454454C204C4154495041432043494C4C49525943205D32315B2020264C2023204E203B43515F444B464E203B20202020354634302E2E41453430,
  0x534953455245414944204854495720555245592052455454454C204C4C414D532043494C4C495259432E2E534953455245414944204854495720555245592052455454454C204C4154495041432043494C4C49525943205D325B202020264C2023204E203B43515F444B464E203B20202020394634302E2E38463430,
  0x4E5749592048434520455255544147494C204C4C414D53204E41494E454D524120202020202020264C2023204E203B43515F444B464E203B2020202020202020202037383530,
  0x45564F424120415A4D41482048544957204845592052455454454C204349424152412E2E45564F424120414444414D20485449572046454C412052455454454C20434942415241205D355B2020206F4C2023204E203B43515F444B464E203B20202020363236302E2E32323630,
  0x48455920415A4D414820484749482052455454454C204349424152412E2E46454C4120415A4D414820484749482052455454454C20434942415241205D345B2020206F4C2023204E203B43515F444B464E203B20202020383736302E2E35373630,
  0x45564F4241204845592048544957204845482052455454454C20434942415241202020202020206F4C2023204E203B43515F444B464E203B2020202020202020202030433630,
  0x45564F424120415A4D41482048544957204C414F47204845482052455454454C20434942415241202020202020206F4C2023204E203B43515F444B464E203B2020202020202020202032433630,
  0x45564F424120415A4D4148204854495720454552524142204845592052455454454C20434942415241202020202020206F4C2023204E203B43515F444B464E203B2020202020202020202033443630,
  0x414E4E4E2052455454454C2049524147414E41564544202020202020206F4C2023204E203B43515F444B464E203B2020202020202020202039323930,
  0x4152522052455454454C2049524147414E41564544202020202020206F4C2023204E203B43515F444B464E203B2020202020202020202031333930,
  0x414C4C4C2052455454454C2049524147414E41564544202020202020206F4C2023204E203B43515F444B464E203B2020202020202020202034333930,
  0x4159592052455454454C2049524147414E415645442E2E41512052455454454C2049524147414E41564544205D385B2020206F4C2023204E203B43515F444B464E203B20202020463539302E2E38353930,
  0x5541204E474953204C45574F5620494C41474E45422E2E4F204E474953204C45574F5620494C41474E4542205D325B202020634D2023204E203B43515F444B464E203B20202020434339302E2E42433930,
  0x4148522052455454454C20494C41474E45422E2E4152522052455454454C20494C41474E4542205D325B2020206F4C2023204E203B43515F444B464E203B20202020444439302E2E43443930,
  0x4159592052455454454C20494C41474E4542202020202020206F4C2023204E203B43515F444B464E203B2020202020202020202046443930,
  0x414C4C2052455454454C2049484B554D525547202020202020206F4C2023204E203B43515F444B464E203B2020202020202020202033334130,
  0x4148532052455454454C2049484B554D525547202020202020206F4C2023204E203B43515F444B464E203B2020202020202020202036334130,
  0x415A2052455454454C2049484B554D5255472E2E4148484B2052455454454C2049484B554D525547205D335B2020206F4C2023204E203B43515F444B464E203B20202020423541302E2E39354130,
  0x41462052455454454C2049484B554D525547202020202020206F4C2023204E203B43515F444B464E203B2020202020202020202045354130,
  0x4941204E474953204C45574F5620415949524F20202020202020634D2023204E203B43515F444B464E203B2020202020202020202038344230,
  0x5541204E474953204C45574F5620415949524F2E2E4F204E474953204C45574F5620415949524F205D325B202020634D2023204E203B43515F444B464E203B20202020433442302E2E42344230,
  0x4148522052455454454C20415949524F2E2E4152522052455454454C20415949524F205D325B2020206F4C2023204E203B43515F444B464E203B20202020443542302E2E43354230,
  0x55412052455454454C204C494D4154202020202020206F4C2023204E203B43515F444B464E203B2020202020202020202034394230,
  0x5541204E474953204C45574F56204C494D41542E2E4F204E474953204C45574F56204C494D4154205D335B202020634D2023204E203B43515F444B464E203B20202020434342302E2E41434230,
  0x4941204E474953204C45574F56205547554C4554202020202020206E4D2023204E203B43515F444B464E203B2020202020202020202038344330,
  0x4949204E474953204C45574F56204144414E4E414B20202020202020634D2023204E203B43515F444B464E203B2020202020202020202030434330,
  0x4941204E474953204C45574F56204144414E4E414B2E2E4545204E474953204C45574F56204144414E4E414B205D325B202020634D2023204E203B43515F444B464E203B20202020384343302E2E37434330,
  0x4F4F204E474953204C45574F56204144414E4E414B2E2E4F204E474953204C45574F56204144414E4E414B205D325B202020634D2023204E203B43515F444B464E203B20202020424343302E2E41434330,
  0x5541204E474953204C45574F56204D414C4159414C414D2E2E4F204E474953204C45574F56204D414C4159414C414D205D335B202020634D2023204E203B43515F444B464E203B20202020433444302E2E41344430,
  0x415655424D4F4B2041474944204E474953204C45574F5620414C41484E495320202020202020634D2023204E203B43515F444B464E203B2020202020202020202041444430]

def qcText5 : List Nat := [
  0x415454494B554E415941472041414820415655424D4F4B204E474953204C45574F5620414C41484E49532E2E414C4C49502D414C45412041414820415655424D4F4B204E474953204C45574F5620414C41484E4953205D335B202020634D2023204E203B43515F444B464E203B20202020454444302E2E43444430,
  0x4D412041524153205245544341524148432049414854202020202020206F4C2023204E203B43515F444B464E203B2020202020202020202033334530,
  0x4D41204E474953204C45574F56204F414C202020202020206F4C2023204E203B43515F444B464E203B2020202020202020202033424530,
  0x4F4D204F48204F414C2E2E4F4E204F48204F414C205D325B2020206F4C2023204E203B43515F444B464E203B20202020444445302E2E43444530,
  0x524154534220474548535420524554494D494C4544204B52414D204E415445424954202020202020206F502023204E203B43515F444B464E203B2020202020202020202043304630,
  0x4148472052455454454C204E415445424954202020202020206F4C2023204E203B43515F444B464E203B2020202020202020202033344630,
  0x414844442052455454454C204E415445424954202020202020206F4C2023204E203B43515F444B464E203B2020202020202020202044344630,
  0x4148442052455454454C204E415445424954202020202020206F4C2023204E203B43515F444B464E203B2020202020202020202032354630,
  0x4148422052455454454C204E415445424954202020202020206F4C2023204E203B43515F444B464E203B2020202020202020202037354630,
  0x41485A442052455454454C204E415445424954202020202020206F4C2023204E203B43515F444B464E203B2020202020202020202043354630,
  0x4153534B2052455454454C204E415445424954202020202020206F4C2023204E203B43515F444B464E203B2020202020202020202039364630,
  0x4949204E474953204C45574F56204E415445424954202020202020206E4D2023204E203B43515F444B464E203B2020202020202020202033374630,
  0x4C4C2043494C41434F56204E474953204C45574F56204E4154454249542E2E5555204E474953204C45574F56204E415445424954205D355B2020206E4D2023204E203B43515F444B464E203B20202020393746302E2E35374630,
  0x4949204445535245564552204E474953204C45574F56204E415445424954202020202020206E4D2023204E203B43515F444B464E203B2020202020202020202031384630,
  0x4148472052455454454C2044454E494F4A425553204E415445424954202020202020206E4D2023204E203B43515F444B464E203B2020202020202020202033394630,
  0x414844442052455454454C2044454E494F4A425553204E415445424954202020202020206E4D2023204E203B43515F444B464E203B2020202020202020202044394630,
  0x4148442052455454454C2044454E494F4A425553204E415445424954202020202020206E4D2023204E203B43515F444B464E203B2020202020202020202032414630,
  0x4148422052455454454C2044454E494F4A425553204E415445424954202020202020206E4D2023204E203B43515F444B464E203B2020202020202020202037414630,
  0x41485A442052455454454C2044454E494F4A425553204E415445424954202020202020206E4D2023204E203B43515F444B464E203B2020202020202020202043414630,
  0x4153534B2052455454454C2044454E494F4A425553204E415445424954202020202020206E4D2023204E203B43515F444B464E203B2020202020202020202039424630,
  0x55552052455454454C2052414D4E41594D202020202020206F4C2023204E203B43515F444B464E203B2020202020202020202036323031,
  0x52414E204E414947524F45472052455454454C205245494649444F4D202020202020206D4C2023204E203B43515F444B464E203B2020202020202020202043463031,
  0x474E55444554204152414B412052455454454C204553454E494C4142202020202020206F4C2023204E203B43515F444B464E203B2020202020202020202036304231,
  0x474E55444554204152414B492052455454454C204553454E494C4142202020202020206F4C2023204E203B43515F444B464E203B2020202020202020202038304231,
  0x474E55444554204152414B552052455454454C204553454E494C4142202020202020206F4C2023204E203B43515F444B464E203B2020202020202020202041304231,
  0x474E5544455420415045522041522052455454454C204553454E494C4142202020202020206F4C2023204E203B43515F444B464E203B2020202020202020202043304231,
  0x474E554445542041474E454C20414C2052455454454C204553454E494C4142202020202020206F4C2023204E203B43515F444B464E203B2020202020202020202045304231,
  0x474E55444554204152414B4F2052455454454C204553454E494C4142202020202020206F4C2023204E203B43515F444B464E203B2020202020202020202032314231,
  0x474E554445542041504552204152204E474953204C45574F56204553454E494C414220202020202020634D2023204E203B43515F444B464E203B2020202020202020202042334231,
  0x474E554445542041474E454C20414C204E474953204C45574F56204553454E494C414220202020202020634D2023204E203B43515F444B464E203B2020202020202020202044334231,
  0x474E55444554204150455220474E494C4154204E474953204C45574F56204553454E494C41422E2E474E5544455420474E494C4154204E474953204C45574F56204553454E494C4142205D325B202020634D2023204E203B43515F444B464E203B20202020313442312E2E30344231,
  0x474E55444554205445504550204E474953204C45574F56204553454E494C414220202020202020634D2023204E203B43515F444B464E203B2020202020202020202033344231,
  0x42204C4154495041432052455454454C205245494649444F4D2E2E41204C4154495041432052455454454C205245494649444F4D205D335B2020206D4C2023204E203B43515F444B464E203B20202020453244312E2E43324431,
  0x4E204C4154495041432052455454454C205245494649444F4D2E2E44204C4154495041432052455454454C205245494649444F4D205D31315B20206D4C2023204E203B43515F444B464E203B20202020413344312E2E30334431,
  0x47204C4C414D532052455454454C205245494649444F4D2E2E4F204C4154495041432052455454454C205245494649444F4D205D38315B20206D4C2023204E203B43515F444B464E203B20202020443444312E2E43334431,
  0x4948432052455454454C204C4C414D5320545049524353425553204B454552472E2E4B204C4C414D532052455454454C205245494649444F4D205D38325B20206D4C2023204E203B43515F444B464E203B20202020413644312E2E46344431,
  0x4E452043494C4C495259432052455454454C205245494649444F4D202020202020206D4C2023204E203B43515F444B464E203B2020202020202020202038374431,
  0x4154454854204C4C414D532052455454454C205245494649444F4D2E2E4148504C412044454E525554204C4C414D532052455454454C205245494649444F4D205D37335B20206D4C2023204E203B43515F444B464E203B20202020464244312E2E42394431,
  0x45564F424120544F442048544957205320474E4F4C2052455454454C204C4C414D53204E4954414C2E2E574F4C454220474E4952204854495720412052455454454C204C415449504143204E4954414C205D3635315B20264C2023204E203B43515F444B464E203B20202020423945312E2E30304531,
  0x45444C4954204854495720592052455454454C204C4C414D53204E4954414C2E2E574F4C454220544F44204854495720412052455454454C204C415449504143204E4954414C205D30395B2020264C2023204E203B43515F444B464E203B20202020394645312E2E30414531,
  0x4149584F20444E412041495341442048544957204E4F4C495350452052455454454C204C4C414D53204B454552472E2E494C4953502048544957204148504C412052455454454C204C4C414D53204B45455247205D32325B2020264C2023204E203B43515F444B464E203B20202020353146312E2E30304631,
  0x4149584F20444E412041495341442048544957204E4F4C495350452052455454454C204C415449504143204B454552472E2E494C4953502048544957204E4F4C495350452052455454454C204C415449504143204B45455247205D365B202020264C2023204E203B43515F444B464E203B20202020443146312E2E38314631,
  0x4149584F20444E412041495341442048544957204E4F5243494D4F2052455454454C204C4C414D53204B454552472E2E494C4953502048544957204154452052455454454C204C4C414D53204B45455247205D38335B2020264C2023204E203B43515F444B464E203B20202020353446312E2E30324631,
  0x4149584F20444E412041495341442048544957204E4F5243494D4F2052455454454C204C415449504143204B454552472E2E494C4953502048544957204E4F5243494D4F2052455454454C204C415449504143204B45455247205D365B202020264C2023204E203B43515F444B464E203B20202020443446312E2E38344631,
  0x494E454D4F50534952455020444E412041495341442048544957204E4F4C495350552052455454454C204C4C414D53204B454552472E2E494C4953502048544957204E4F4C495350552052455454454C204C4C414D53204B45455247205D385B202020264C2023204E203B43515F444B464E203B20202020373546312E2E30354631,
  0x41495341442048544957204E4F4C495350552052455454454C204C415449504143204B4545524720202020202020264C2023204E203B43515F444B464E203B2020202020202020202039354631,
  0x414952415620444E412041495341442048544957204E4F4C495350552052455454454C204C415449504143204B4545524720202020202020264C2023204E203B43515F444B464E203B2020202020202020202042354631,
  0x4149584F20444E412041495341442048544957204E4F4C495350552052455454454C204C415449504143204B4545524720202020202020264C2023204E203B43515F444B464E203B2020202020202020202044354631,
  0x4149584F2048544957204147454D4F2052455454454C204C4C414D53204B454552472E2E494E454D4F50534952455020444E412041495341442048544957204E4F4C495350552052455454454C204C415449504143204B45455247205D31335B2020264C2023204E203B43515F444B464E203B20202020443746312E2E46354631,
  0x494E454D4D41524745474F505920444E41204149584F2048544957204148504C412052455454454C204C4C414D53204B454552472E2E494E454D4D41524745474F505920444E4120494C4953502048544957204148504C412052455454454C204C4C414D53204B45455247205D33355B2020264C2023204E203B43515F444B464E203B20202020344246312E2E30384631,
  0x494E454D4D4152474547534F52502048544957204148504C412052455454454C204C415449504143204B454552472E2E494E454D4F5053495245502048544957204148504C412052455454454C204C4C414D53204B45455247205D375B202020264C2023204E203B43515F444B464E203B20202020434246312E2E36424631,
  0x53494E4F524F4B204B45455247202020202020206B532023204E203B43515F444B464E203B2020202020202020202044424631,
  0x494E454D4D4152474547534F5250204B4545524720202020202020264C2023204E203B43515F444B464E203B2020202020202020202045424631,
  0x494E454D4F50534952455020444E4120414B4954594C414944204B454552472E2E494C495350204B45455247205D335B2020206B532023204E203B43515F444B464E203B20202020314346312E2E46424631,
  0x494E454D4D41524745474F505920444E41204149584F2048544957204154452052455454454C204C4C414D53204B454552472E2E494E454D4D41524745474F505920444E412041495241562048544957204154452052455454454C204C4C414D53204B45455247205D335B202020264C2023204E203B43515F444B464E203B20202020344346312E2E32434631,
  0x494E454D4D4152474547534F52502048544957204154452052455454454C204C415449504143204B454552472E2E494E454D4F5053495245502048544957204154452052455454454C204C4C414D53204B45455247205D375B202020264C2023204E203B43515F444B464E203B20202020434346312E2E36434631,
  0x494E454D4F50534952455020444E4120494C495350204B454552472E2E414952415620444E4120494C495350204B45455247205D335B2020206B532023204E203B43515F444B464E203B20202020464346312E2E44434631,
  0x4149584F20444E4120414B4954594C41494420485449572041544F492052455454454C204C4C414D53204B454552472E2E59484341525620485449572041544F492052455454454C204C4C414D53204B45455247205D345B202020264C2023204E203B43515F444B464E203B20202020334446312E2E30444631,
  0x4149584F20485449572041544F492052455454454C204C415449504143204B454552472E2E494E454D4F50534952455020485449572041544F492052455454454C204C4C414D53204B45455247205D365B202020264C2023204E203B43515F444B464E203B20202020424446312E2E36444631,
  0x494E454D4F50534952455020444E41204149534144204B454552472E2E414952415620444E41204149534144204B45455247205D335B2020206B532023204E203B43515F444B464E203B20202020464446312E2E44444631,
  0x41495341442048544957204F48522052455454454C204C415449504143204B454552472E2E5948434152562048544957204E4F4C495350552052455454454C204C4C414D53204B45455247205D33315B2020264C2023204E203B43515F444B464E203B20202020434546312E2E30454631,
  0x4149524156204B454552472E2E414952415620444E4120414B4954594C414944204B45455247205D335B2020206B532023204E203B43515F444B464E203B20202020464546312E2E44454631,
  0x494E454D4D41524745474F505920444E41204149584F2048544957204147454D4F2052455454454C204C4C414D53204B454552472E2E494E454D4D41524745474F505920444E412041495241562048544957204147454D4F2052455454454C204C4C414D53204B45455247205D335B202020264C2023204E203B43515F444B464E203B20202020344646312E2E32464631,
  0x494E454D4D4152474547534F52502048544957204147454D4F2052455454454C204C415449504143204B454552472E2E494E454D4F5053495245502048544957204147454D4F2052455454454C204C4C414D53204B45455247205D375B202020264C2023204E203B43515F444B464E203B20202020434646312E2E36464631,
  0x4149534144204B454552472E2E4149584F204B45455247205D325B2020206B532023204E203B43515F444B464E203B20202020454646312E2E44464631,
  0x454341505320524941482E2E44415551204E45205D31315B2020735A2023204E203B43515F444B464E203B20202020413030322E2E30303032,
  0x4E454850594820474E494B414552422D4E4F4E2020202020202064502023204E203B43515F444B464E203B2020202020202020202031313032,
  0x454E494C20574F4C20454C42554F44202020202020206F502023204E203B43515F444B464E203B2020202020202020202037313032,
  0x53495350494C4C45204C41544E4F5A49524F482E2E52454441454C20544F4420454E4F205D335B2020206F502023204E203B43515F444B464E203B20202020363230322E2E34323032,
  0x4543415053204B414552422D4F4E20574F5252414E20202020202020735A2023204E203B43515F444B464E203B2020202020202020202046323032,
  0x454D49525020454C504952542E2E454D49525020454C42554F44205D325B2020206F502023204E203B43515F444B464E203B20202020343330322E2E33333032,
  0x454D49525020454C504952542044455352455645522E2E454D49525020454C42554F44204445535245564552205D325B2020206F502023204E203B43515F444B464E203B20202020373330322E2E36333032,
  0x4B52414D204E4F4954414D414C43584520454C42554F44202020202020206F502023204E203B43515F444B464E203B2020202020202020202043333032,
  0x454E494C5245564F202020202020206F502023204E203B43515F444B464E203B2020202020202020202045333032,
  0x4B52414D204E4F495453455551204E4F4954414D414C4358452E2E4B52414D204E4F49545345555120454C42554F44205D335B2020206F502023204E203B43515F444B464E203B20202020393430322E2E37343032,
  0x454D49525020454C50555244415551202020202020206F502023204E203B43515F444B464E203B2020202020202020202037353032,
  0x4543415053204C41434954414D454854414D204D554944454D20202020202020735A2023204E203B43515F444B464E203B2020202020202020202046353032,
  0x4F52455A205450495243535245505553202020202020206F4E2023204E203B43515F444B464E203B2020202020202020202030373032,
  0x492052455454454C204C4C414D53204E4954414C205450495243535245505553202020202020206D4C2023204E203B43515F444B464E203B2020202020202020202031373032,
  0x454E494E2054504952435352455055532E2E52554F46205450495243535245505553205D365B2020206F4E2023204E203B43515F444B464E203B20202020393730322E2E34373032,
  0x4E47495320534C415551452054504952435352455055532E2E4E4749532053554C50205450495243535245505553205D335B2020206D532023204E203B43515F444B464E203B20202020433730322E2E41373032,
  0x5349534548544E45524150205446454C2054504952435352455055532020202020202073502023204E203B43515F444B464E203B2020202020202020202044373032,
  0x5349534548544E455241502054484749522054504952435352455055532020202020202065502023204E203B43515F444B464E203B2020202020202020202045373032,
  0x4E2052455454454C204C4C414D53204E4954414C205450495243535245505553202020202020206D4C2023204E203B43515F444B464E203B2020202020202020202046373032,
  0x454E494E205450495243534255532E2E4F52455A20545049524353425553205D30315B20206F4E2023204E203B43515F444B464E203B20202020393830322E2E30383032,
  0x4E47495320534C41555145205450495243534255532E2E4E4749532053554C5020545049524353425553205D335B2020206D532023204E203B43515F444B464E203B20202020433830322E2E41383032,
  0x5349534548544E45524150205446454C205450495243534255532020202020202073502023204E203B43515F444B464E203B2020202020202020202044383032,
  0x5349534548544E45524150205448474952205450495243534255532020202020202065502023204E203B43515F444B464E203B2020202020202020202045383032,
  0x542052455454454C204C4C414D5320545049524353425553204E4954414C2E2E412052455454454C204C4C414D5320545049524353425553204E4954414C205D33315B20206D4C2023204E203B43515F444B464E203B20202020433930322E2E30393032,
  0x4E4749532045455055522020202020202063532023204E203B43515F444B464E203B2020202020202020202038413032,
  0x5443454A42555320454854204F54204445535345524444412E2E464F20544E554F434341205D325B2020206F532023204E203B43515F444B464E203B20202020313031322E2E30303132,
  0x43204C415449504143204B43555254532D454C42554F4420202020202020264C2023204E203B43515F444B464E203B2020202020202020202032303132,
  0x535549534C454320454552474544202020202020206F532023204E203B43515F444B464E203B2020202020202020202033303132,
  0x414E5520414441432E2E464F2045524143205D325B2020206F532023204E203B43515F444B464E203B20202020363031322E2E35303132,
  0x544E4154534E4F432052454C554520202020202020264C2023204E203B43515F444B464E203B2020202020202020202037303132,
  0x544945484E455248414620454552474544202020202020206F532023204E203B43515F444B464E203B2020202020202020202039303132,
  0x4C204C4C414D53205450495243532E2E47204C4C414D5320545049524353205D30315B2020264C2023204E203B43515F444B464E203B20202020333131322E2E41303132,
  0x4E204C415449504143204B43555254532D454C42554F4420202020202020264C2023204E203B43515F444B464E203B2020202020202020202035313132,
  0x4E474953204F52454D554E202020202020206F532023204E203B43515F444B464E203B2020202020202020202036313132,
  0x52204C415449504143204B43555254532D454C42554F442E2E50204C415449504143204B43555254532D454C42554F44205D355B202020264C2023204E203B43515F444B464E203B20202020443131322E2E39313132,
  0x4E474953204B52414D2045444152542E2E4B52414D2045434956524553205D335B2020206F532023204E203B43515F444B464E203B20202020323231322E2E30323132,
  0x5A204C415449504143204B43555254532D454C42554F4420202020202020264C2023204E203B43515F444B464E203B2020202020202020202034323132,
  0x4E474953204D484F20202020202020264C2023204E203B43515F444B464E203B2020202020202020202036323132,
  0x5A204C4154495041432052455454454C2D4B43414C4220202020202020264C2023204E203B43515F444B464E203B2020202020202020202038323132,
  0x43204C4154495041432052455454454C2D4B43414C422E2E4E474953204E49564C454B205D345B202020264C2023204E203B43515F444B464E203B20202020443231322E2E41323132,
  0x46204C415449504143205450495243532E2E45204C4C414D5320545049524353205D335B202020264C2023204E203B43515F444B464E203B20202020313331322E2E46323132,
  0x4F204C4C414D53205450495243532E2E4D204C41544950414320545049524353205D325B202020264C2023204E203B43515F444B464E203B20202020343331322E2E33333132,
  0x4C4F424D59532054454C41442E2E4C4F424D59532046454C41205D345B2020206F4C2023204E203B43515F444B464E203B20202020383331322E2E35333132,
  0x454352554F53204E4F4954414D524F464E4920202020202020264C2023204E203B43515F444B464E203B2020202020202020202039333132,
  0x4E47495320454C494D4953434146202020202020206F532023204E203B43515F444B464E203B2020202020202020202042333132,
  0x4950204C415449504143204B43555254532D454C42554F442E2E4950204C4C414D53204B43555254532D454C42554F44205D345B202020264C2023204E203B43515F444B464E203B20202020463331322E2E43333132,
  0x4E4F4954414D4D5553205952412D4E204B43555254532D454C42554F44202020202020206D532023204E203B43515F444B464E203B2020202020202020202030343132,
  0x4A204C4C414D532043494C415449204B43555254532D454C42554F442E2E44204C4154495041432043494C415449204B43555254532D454C42554F44205D355B202020264C2023204E203B43515F444B464E203B20202020393431322E2E35343132,
  0x454E4F20524F544152454D554E204E4F4954434152462E2E48544E4556455320454E4F204E4F495443415246205241474C5556205D36315B20206F4E2023204E203B43515F444B464E203B20202020463531322E2E30353132,
  0x444E4153554F485420454E4F204C4152454D554E204E414D4F52204C4C414D532E2E454E4F204C4152454D554E204E414D4F52205D32335B20206C4E2023204E203B43515F444B464E203B20202020463731322E2E30363132,
  0x534452494854204F52455A204E4F495443415246205241474C5556202020202020206F4E2023204E203B43515F444B464E203B2020202020202020202039383132,
  0x454B4F525453204854495720574F52524120534452415754484749522E2E454B4F525453204854495720574F5252412053445241575446454C205D325B2020206D532023204E203B43515F444B464E203B20202020423931322E2E41393132,
  0x454B4F525453204854495720574F525241205448474952205446454C202020202020206D532023204E203B43515F444B464E203B2020202020202020202045413132,
  0x454B4F525453204854495720574F52524120454C42554F442053445241575446454C202020202020206F532023204E203B43515F444B464E203B2020202020202020202044433132,
  0x454B4F525453204854495720574F52524120454C42554F4420534452415754484749522E2E454B4F525453204854495720574F52524120454C42554F44205448474952205446454C205D325B2020206D532023204E203B43515F444B464E203B20202020464331322E2E45433132,
  0x545349584520544F4E2053454F44204552454854202020202020206D532023204E203B43515F444B464E203B2020202020202020202034303232,
  0x464F20544E454D454C45204E4120544F4E202020202020206D532023204E203B43515F444B464E203B2020202020202020202039303232,
  0x5245424D454D205341204E4941544E4F4320544F4E2053454F44202020202020206D532023204E203B43515F444B464E203B2020202020202020202043303232,
  0x45444956494420544F4E2053454F44202020202020206D532023204E203B43515F444B464E203B2020202020202020202034323232,
  0x4F54204C454C4C4152415020544F4E202020202020206D532023204E203B43515F444B464E203B2020202020202020202036323232,
  0x4C41524745544E4920454C504952542E2E4C41524745544E4920454C42554F44205D325B2020206D532023204E203B43515F444B464E203B20202020443232322E2E43323232,
  0x4C41524745544E4920454D554C4F562E2E4C41524745544E492045434146525553205D325B2020206D532023204E203B43515F444B464E203B20202020303332322E2E46323232,
  0x45444C495420544F4E202020202020206D532023204E203B43515F444B464E203B2020202020202020202031343232,
  0x4F54204C4155514520594C4C414349544F54504D59534120544F4E202020202020206D532023204E203B43515F444B464E203B2020202020202020202034343232,
  0x4F54204C4155514520594C4C415554434120524F4E20594C4554414D49584F52505041205245485449454E202020202020206D532023204E203B43515F444B464E203B2020202020202020202037343232,
  0x4F54204C415551452054534F4D4C4120544F4E202020202020206D532023204E203B43515F444B464E203B2020202020202020202039343232,
  0x4F54204C4155514520544F4E202020202020206D532023204E203B43515F444B464E203B2020202020202020202030363232,
  0x4F54204C414349544E45444920544F4E202020202020206D532023204E203B43515F444B464E203B2020202020202020202032363232,
  0x4F54204C4155514520524F4E204E4148542D52455441455247205245485449454E2E2E4F5420544E454C41564955514520544F4E205D355B2020206D532023204E203B43515F444B464E203B20202020313732322E2E44363232,
  0x4F5420544E454C41564955514520524F4E204E4148542D52455441455247205245485449454E2E2E4F5420544E454C41564955514520524F4E204E4148542D5353454C205245485449454E205D325B2020206D532023204E203B43515F444B464E203B20202020353732322E2E34373232,
  0x4E4148542D5353454C20524F4E204E4148542D52455441455247205245485449454E2E2E4E4148542D5245544145524720524F4E204E4148542D5353454C205245485449454E205D325B2020206D532023204E203B43515F444B464E203B20202020393732322E2E38373232,
  0x4445454343555320544F4E2053454F442E2E4544454345525020544F4E2053454F44205D325B2020206D532023204E203B43515F444B464E203B20202020313832322E2E30383232,
  0x464F205445535245505553204120544F4E2E2E464F20544553425553204120544F4E205D325B2020206D532023204E203B43515F444B464E203B20202020353832322E2E34383232,
  0x4F54204C4155514520524F4E20464F2054455352455055532041205245485449454E2E2E4F54204C4155514520524F4E20464F205445534255532041205245485449454E205D325B2020206D532023204E203B43515F444B464E203B20202020393832322E2E38383232,
  0x454C4954534E52555420544847495220454C42554F4420524142204C4143495452455620454C42554F44204445544147454E2E2E45564F525020544F4E2053454F44205D345B2020206D532023204E203B43515F444B464E203B20202020464132322E2E43413232,
  0x4F54204C4155514520524F20464F204C414E494749524F2045524155515320544F4E2E2E4C4155514520524F204544454345525020544F4E2053454F44205D345B2020206D532023204E203B43515F444B464E203B20202020334532322E2E30453232,
  0x4C4155514520524F2050554F5247425553204C414D524F4E205341204E4941544E4F4320544F4E2053454F442E2E464F2050554F5247425553204C414D524F4E20544F4E205D345B2020206D532023204E203B43515F444B464E203B20202020444532322E2E41453232,
  0x54454B4341524220454C474E4120474E49544E494F502D5446454C2020202020202073502023204E203B43515F444B464E203B2020202020202020202039323332,
  0x54454B4341524220454C474E4120474E49544E494F502D54484749522020202020202065502023204E203B43515F444B464E203B2020202020202020202041323332,
  0x504F5453204C4C55462059544E455754205245424D554E2E2E454E4F2054494749442044454C43524943205D30365B20206F4E2023204E203B43515F444B464E203B20202020423934322E2E30363432,
  0x5A2052455454454C204C4C414D53204E4954414C2044454C435249432E2E412052455454454C204C4C414D53204E4954414C2044455A49534548544E45524150205D38375B20206F532023204E203B43515F444B464E203B20202020394534322E2E43393432,
  0x4F52455A2054494749442044454C43524943202020202020206F4E2023204E203B43515F444B464E203B2020202020202020202041453432,
  0x524F54415245504F204C41524745544E4920454C50555244415551202020202020206D532023204E203B43515F444B464E203B2020202020202020202043304132,
  0x534E47495320534C415551452045564954554345534E4F432045455248542E2E4C41555145204E4F4C4F4320454C42554F44205D335B2020206D532023204E203B43515F444B464E203B20202020363741322E2E34374132,
  0x474E494B524F46202020202020206D532023204E203B43515F444B464E203B2020202020202020202043444132,
  0x56204C4154495041432052455454454C205245494649444F4D2E2E4A2052455454454C204C4C414D5320545049524353425553204E4954414C205D325B2020206D4C2023204E203B43515F444B464E203B20202020443743322E2E43374332,
  0x4B52414D204E4F4954415A494C414942414C2052455454454C205245494649444F4D204847414E49464954202020202020206D4C2023204E203B43515F444B464E203B2020202020202020202046364432,
  0x524548544F4D204C414349444152204B4A43202020202020206F532023204E203B43515F444B464E203B2020202020202020202046394532,
  0x454C545255542044454946494C504D49532D43204C414349444152204B4A43202020202020206F532023204E203B43515F444B464E203B2020202020202020202033464532,
  0x4554554C46204C414349444152204958474E414B2E2E454E4F204C414349444152204958474E414B205D3431325B206F532023204E203B43515F444B464E203B20202020354446322E2E30304632,
  0x454341505320434948504152474F45444920202020202020735A2023204E203B43515F444B464E203B2020202020202020202030303033,
  0x4B52414D204C4154534F502044454C43524943202020202020206F532023204E203B43515F444B464E203B2020202020202020202036333033,
  0x595452494854204C4152454D554E20554F485A474E41482E2E4E4554204C4152454D554E20554F485A474E4148205D335B2020206C4E2023204E203B43515F444B464E203B20202020413330332E2E38333033,
  0x41472052455454454C20414E414741524948202020202020206F4C2023204E203B43515F444B464E203B2020202020202020202043343033,
  0x49472052455454454C20414E414741524948202020202020206F4C2023204E203B43515F444B464E203B2020202020202020202045343033,
  0x55472052455454454C20414E414741524948202020202020206F4C2023204E203B43515F444B464E203B2020202020202020202030353033,
  0x45472052455454454C20414E414741524948202020202020206F4C2023204E203B43515F444B464E203B2020202020202020202032353033,
  0x4F472052455454454C20414E414741524948202020202020206F4C2023204E203B43515F444B464E203B2020202020202020202034353033,
  0x415A2052455454454C20414E414741524948202020202020206F4C2023204E203B43515F444B464E203B2020202020202020202036353033,
  0x495A2052455454454C20414E414741524948202020202020206F4C2023204E203B43515F444B464E203B2020202020202020202038353033,
  0x555A2052455454454C20414E414741524948202020202020206F4C2023204E203B43515F444B464E203B2020202020202020202041353033,
  0x455A2052455454454C20414E414741524948202020202020206F4C2023204E203B43515F444B464E203B2020202020202020202043353033,
  0x4F5A2052455454454C20414E414741524948202020202020206F4C2023204E203B43515F444B464E203B2020202020202020202045353033,
  0x41442052455454454C20414E414741524948202020202020206F4C2023204E203B43515F444B464E203B2020202020202020202030363033,
  0x49442052455454454C20414E414741524948202020202020206F4C2023204E203B43515F444B464E203B2020202020202020202032363033,
  0x55442052455454454C20414E414741524948202020202020206F4C2023204E203B43515F444B464E203B2020202020202020202035363033,
  0x45442052455454454C20414E414741524948202020202020206F4C2023204E203B43515F444B464E203B2020202020202020202037363033,
  0x4F442052455454454C20414E414741524948202020202020206F4C2023204E203B43515F444B464E203B2020202020202020202039363033,
  0x41502052455454454C20414E4147415249482E2E41422052455454454C20414E414741524948205D325B2020206F4C2023204E203B43515F444B464E203B20202020313730332E2E30373033,
  0x49502052455454454C20414E4147415249482E2E49422052455454454C20414E414741524948205D325B2020206F4C2023204E203B43515F444B464E203B20202020343730332E2E33373033,
  0x55502052455454454C20414E4147415249482E2E55422052455454454C20414E414741524948205D325B2020206F4C2023204E203B43515F444B464E203B20202020373730332E2E36373033,
  0x45502052455454454C20414E4147415249482E2E45422052455454454C20414E414741524948205D325B2020206F4C2023204E203B43515F444B464E203B20202020413730332E2E39373033,
  0x4F502052455454454C20414E4147415249482E2E4F422052455454454C20414E414741524948205D325B2020206F4C2023204E203B43515F444B464E203B20202020443730332E2E43373033,
  0x55562052455454454C20414E414741524948202020202020206F4C2023204E203B43515F444B464E203B2020202020202020202034393033,
  0x4B52414D20444E554F5320444543494F562D494D455320414E4147415249482D414E414B4154414B2E2E4B52414D20444E554F5320444543494F5620414E4147415249482D414E414B4154414B205D325B2020206B532023204E203B43515F444B464E203B20202020433930332E2E42393033,
  0x4B52414D204E4F4954415245544920444543494F5620414E414741524948202020202020206D4C2023204E203B43515F444B464E203B2020202020202020202045393033,
  0x49524F59204850415247494420414E414741524948202020202020206F4C2023204E203B43515F444B464E203B2020202020202020202046393033,
  0x41472052455454454C20414E414B4154414B202020202020206F4C2023204E203B43515F444B464E203B2020202020202020202043413033,
  0x49472052455454454C20414E414B4154414B202020202020206F4C2023204E203B43515F444B464E203B2020202020202020202045413033,
  0x55472052455454454C20414E414B4154414B202020202020206F4C2023204E203B43515F444B464E203B2020202020202020202030423033,
  0x45472052455454454C20414E414B4154414B202020202020206F4C2023204E203B43515F444B464E203B2020202020202020202032423033,
  0x4F472052455454454C20414E414B4154414B202020202020206F4C2023204E203B43515F444B464E203B2020202020202020202034423033,
  0x415A2052455454454C20414E414B4154414B202020202020206F4C2023204E203B43515F444B464E203B2020202020202020202036423033,
  0x495A2052455454454C20414E414B4154414B202020202020206F4C2023204E203B43515F444B464E203B2020202020202020202038423033,
  0x555A2052455454454C20414E414B4154414B202020202020206F4C2023204E203B43515F444B464E203B2020202020202020202041423033,
  0x455A2052455454454C20414E414B4154414B202020202020206F4C2023204E203B43515F444B464E203B2020202020202020202043423033,
  0x4F5A2052455454454C20414E414B4154414B202020202020206F4C2023204E203B43515F444B464E203B2020202020202020202045423033,
  0x41442052455454454C20414E414B4154414B202020202020206F4C2023204E203B43515F444B464E203B2020202020202020202030433033,
  0x49442052455454454C20414E414B4154414B202020202020206F4C2023204E203B43515F444B464E203B2020202020202020202032433033,
  0x55442052455454454C20414E414B4154414B202020202020206F4C2023204E203B43515F444B464E203B2020202020202020202035433033,
  0x45442052455454454C20414E414B4154414B202020202020206F4C2023204E203B43515F444B464E203B2020202020202020202037433033,
  0x4F442052455454454C20414E414B4154414B202020202020206F4C2023204E203B43515F444B464E203B2020202020202020202039433033,
  0x41502052455454454C20414E414B4154414B2E2E41422052455454454C20414E414B4154414B205D325B2020206F4C2023204E203B43515F444B464E203B20202020314430332E2E30443033,
  0x49502052455454454C20414E414B4154414B2E2E49422052455454454C20414E414B4154414B205D325B2020206F4C2023204E203B43515F444B464E203B20202020344430332E2E33443033,
  0x55502052455454454C20414E414B4154414B2E2E55422052455454454C20414E414B4154414B205D325B2020206F4C2023204E203B43515F444B464E203B20202020374430332E2E36443033,
  0x45502052455454454C20414E414B4154414B2E2E45422052455454454C20414E414B4154414B205D325B2020206F4C2023204E203B43515F444B464E203B20202020414430332E2E39443033,
  0x4F502052455454454C20414E414B4154414B2E2E4F422052455454454C20414E414B4154414B205D325B2020206F4C2023204E203B43515F444B464E203B20202020444430332E2E43443033,
  0x55562052455454454C20414E414B4154414B202020202020206F4C2023204E203B43515F444B464E203B2020202020202020202034463033,
  0x4F562052455454454C20414E414B4154414B2E2E41562052455454454C20414E414B4154414B205D345B2020206F4C2023204E203B43515F444B464E203B20202020414630332E2E37463033,
  0x4B52414D204E4F4954415245544920444543494F5620414E414B4154414B202020202020206D4C2023204E203B43515F444B464E203B2020202020202020202045463033,
  0x4F544F4B204850415247494420414E414B4154414B202020202020206F4C2023204E203B43515F444B464E203B2020202020202020202046463033,
  0x4541454152412052455454454C204C55474E41482E2E4B4F4559494B2052455454454C204C55474E4148205D34395B20206F4C2023204E203B43515F444B464E203B20202020453831332E2E31333133,
  0x4B52414D2052554F46204E4F495441544F4E4E4120434948504152474F4544492E2E4B52414D20454E4F204E4F495441544F4E4E4120434948504152474F454449205D345B2020206F4E2023204E203B43515F444B464E203B20202020353931332E2E32393133,
  0x4B52414D204E414D204E4F495441544F4E4E4120434948504152474F4544492E2E4B52414D20504F54204E4F495441544F4E4E4120434948504152474F454449205D30315B20206F532023204E203B43515F444B464E203B20202020463931332E2E36393133,
  0x5548204F20524554434152414843204E4145524F4B2044455A49534548544E455241502E2E4B4F4559494B204C55474E41482044455A49534548544E45524150205D31335B20206F532023204E203B43515F444B464E203B20202020453132332E2E30303233,
  0x4E45542048504152474F4544492044455A49534548544E455241502E2E454E4F2048504152474F4544492044455A49534548544E45524150205D30315B20206F4E2023204E203B43515F444B464E203B20202020393232332E2E30323233,
  0x4F544F4B2048504152474F4544492044454C435249432E2E4E4F4F4D2048504152474F4544492044455A49534548544E45524150205D30335B20206F532023204E203B43515F444B464E203B20202020373432332E2E41323233,
  0x4E474953205049485352454E54524150202020202020206F532023204E203B43515F444B464E203B2020202020202020202030353233,
  0x4556494620595452494854205245424D554E2044454C435249432E2E454E4F2059544E455754205245424D554E2044454C43524943205D35315B20206F4E2023204E203B43515F444B464E203B20202020463532332E2E31353233,
  0x5520474E554549204C55474E41482044454C435249432E2E4B4F4559494B204C55474E41482044454C43524943205D31335B20206F532023204E203B43515F444B464E203B20202020453732332E2E30363233,
  0x4E45542048504152474F4544492044454C435249432E2E454E4F2048504152474F4544492044454C43524943205D30315B20206F4E2023204E203B43515F444B464E203B20202020393832332E2E30383233,
  0x544847494E2048504152474F4544492044454C435249432E2E4E4F4F4D2048504152474F4544492044454C43524943205D39335B20206F532023204E203B43515F444B464E203B20202020304232332E2E41383233,
  0x5954464946205245424D554E2044454C435249432E2E58495320595452494854205245424D554E2044454C43524943205D35315B20206F4E2023204E203B43515F444B464E203B20202020464232332E2E31423233,
  0x4C4147204552415551532E2E595241554E414A20524F46204C4F424D5953204850415247454C455420434948504152474F454449205D3032335B206F532023204E203B43515F444B464E203B20202020464633332E2E30433233,
  0x4E4749532054464F532043494C4C495259432052455454454C205245494649444F4D2E2E4E47495320445241482043494C4C495259432052455454454C205245494649444F4D205D325B2020206D4C2023204E203B43515F444B464E203B20202020443936412E2E43393641,
  0x53552052455454454C205245494649444F4D202020202020206D4C2023204E203B43515F444B464E203B2020202020202020202030373741,
  0x454F20455255544147494C204C4C414D532052455454454C205245494649444F4D2E2E454B4F52545320485449572048204C4154495041432052455454454C205245494649444F4D205D325B2020206D4C2023204E203B43515F444B464E203B20202020394637412E2E38463741,
  0x4B4F4F48205446454C20485449572055204C4C414D532052455454454C205245494649444F4D2E2E474E4548204C4C414D532052455454454C205245494649444F4D205D345B2020206D4C2023204E203B43515F444B464E203B20202020463542412E2E43354241,
  0x572044454E525554204C4C414D532052455454454C205245494649444F4D202020202020206D4C2023204E203B43515F444B464E203B2020202020202020202039364241,
  0x48494820454C42414C4C5953204C55474E41482E2E414720454C42414C4C5953204C55474E4148205D32373131315B206F4C2023204E203B43515F444B464E203B20202020334137442E2E30304341,
  0x443041462D48504152474F454449205954494C4942495441504D4F43204B4A432E2E303039462D48504152474F454449205954494C4942495441504D4F43204B4A43205D3037325B206F4C2023204E203B43515F444B464E203B20202020443041462E2E30303946,
  0x303141462D48504152474F454449205954494C4942495441504D4F43204B4A43202020202020206F4C2023204E203B43515F444B464E203B2020202020202020202030314146,
  0x323141462D48504152474F454449205954494C4942495441504D4F43204B4A43202020202020206F4C2023204E203B43515F444B464E203B2020202020202020202032314146,
  0x453141462D48504152474F454449205954494C4942495441504D4F43204B4A432E2E353141462D48504152474F454449205954494C4942495441504D4F43204B4A43205D30315B20206F4C2023204E203B43515F444B464E203B20202020453141462E2E35314146,
  0x303241462D48504152474F454449205954494C4942495441504D4F43204B4A43202020202020206F4C2023204E203B43515F444B464E203B2020202020202020202030324146,
  0x323241462D48504152474F454449205954494C4942495441504D4F43204B4A43202020202020206F4C2023204E203B43515F444B464E203B2020202020202020202032324146,
  0x363241462D48504152474F454449205954494C4942495441504D4F43204B4A432E2E353241462D48504152474F454449205954494C4942495441504D4F43204B4A43205D325B2020206F4C2023204E203B43515F444B464E203B20202020363241462E2E35324146,
  0x443641462D48504152474F454449205954494C4942495441504D4F43204B4A432E2E413241462D48504152474F454449205954494C4942495441504D4F43204B4A43205D38365B20206F4C2023204E203B43515F444B464E203B20202020443641462E2E41324146,
  0x394441462D48504152474F454449205954494C4942495441504D4F43204B4A432E2E303741462D48504152474F454449205954494C4942495441504D4F43204B4A43205D3630315B206F4C2023204E203B43515F444B464E203B20202020394441462E2E30374146,
  0x545320455255544147494C204C4C414D53204E4954414C2E2E464620455255544147494C204C4C414D53204E4954414C205D375B202020264C2023204E203B43515F444B464E203B20202020363042462E2E30304246,
  0x484558204E454D20455255544147494C204C4C414D53204E41494E454D52412E2E574F4E204E454D20455255544147494C204C4C414D53204E41494E454D5241205D355B202020264C2023204E203B43515F444B464E203B20202020373142462E2E33314246,
  0x5149524948204854495720444F592052455454454C20574552424548202020202020206F4C2023204E203B43515F444B464E203B2020202020202020202044314246,
  0x56415420454449572052455454454C205745524245482E2E484154415020444F5920444F59204853494444495920455255544147494C20574552424548205D30315B20206F4C2023204E203B43515F444B464E203B20202020383242462E2E46314246,
  0x4E4749532053554C502045564954414E5245544C412052455454454C20574552424548202020202020206D532023204E203B43515F444B464E203B2020202020202020202039324246,
  0x4853454741442048544957204E4959415A2052455454454C205745524245482E2E544F44204E4948532048544957204E4948532052455454454C20574552424548205D33315B20206F4C2023204E203B43515F444B464E203B20202020363342462E2E41324246,
  0x48534547414420485449572044454D414C2052455454454C205745524245482E2E4853454741442048544957205445542052455454454C20574552424548205D355B2020206F4C2023204E203B43515F444B464E203B20202020433342462E2E38334246,
  0x4853454741442048544957204D454D2052455454454C20574552424548202020202020206F4C2023204E203B43515F444B464E203B2020202020202020202045334246,
  0x485345474144204854495720484B454D41532052455454454C205745524245482E2E4853454741442048544957204E554E2052455454454C20574552424548205D325B2020206F4C2023204E203B43515F444B464E203B20202020313442462E2E30344246,
  0x48534547414420485449572045502052455454454C205745524245482E2E4853454741442048544957204550204C414E49462052455454454C20574552424548205D325B2020206F4C2023204E203B43515F444B464E203B20202020343442462E2E33344246,
  0x4D524F46204C414E49462045564F424120415A4D4148204854495720454552524142204845592052455454454C204349424152412E2E48534547414420485449572049444153542052455454454C20574552424548205D3830315B206F4C2023204E203B43515F444B464E203B20202020314242462E2E36344246,
  0x4D524F4620444554414C4F5349204E4154414854414620485449572046454C4120455255544147494C204349424152412E2E4D524F4620444554414C4F534920474E2052455454454C20434942415241205D3336335B206F4C2023204E203B43515F444B464E203B20202020443344462E2E33444246,
  0x4D524F46204C414954494E49204D45454D2048544957204841484B2048544957204D45454D20455255544147494C204349424152412E2E4D524F46204C414954494E49204D45454D2048544957204D45454A20485449572048455420455255544147494C20434942415241205D34365B20206F4C2023204E203B43515F444B464E203B20202020463844462E2E30354446,
  0x4D524F46204C414E4946204845592048544957204D45454A2048544957204E4F4F4E20455255544147494C204349424152412E2E4D524F46204C414954494E49204841484B2048544957204D45454A2048544957204D45454D20455255544147494C20434942415241205D34355B20206F4C2023204E203B43515F444B464E203B20202020374344462E2E32394446,
  0x554F48554F4C414C414A414C4C414A20455255544147494C204349424152412E2E4D524F4620444554414C4F5349204E47495320504F54532043494E41524F4B205341204445535520414C4C415320455255544147494C20434942415241205D32315B20206F4C2023204E203B43515F444B464E203B20202020424644462E2E30464446,
  0x4E474953204C4149522020202020202063532023204E203B43515F444B464E203B2020202020202020202043464446]

def qcText6 : List Nat := [
  0x4B52414D204E4F495453455551204C4143495452455620524F46204D524F46204E4F495441544E45534552502E2E414D4D4F43204C4143495452455620524F46204D524F46204E4F495441544E4553455250205D375B2020206F502023204E203B43515F444B464E203B20202020363145462E2E30314546,
  0x54454B434152422052414C554349544E454C204554494857205446454C204C4143495452455620524F46204D524F46204E4F495441544E45534552502020202020202073502023204E203B43515F444B464E203B2020202020202020202037314546,
  0x5445434B4152422052414C554349544E454C204554494857205448474952204C4143495452455620524F46204D524F46204E4F495441544E45534552502020202020202065502023204E203B43515F444B464E203B2020202020202020202038314546,
  0x53495350494C4C45204C41544E4F5A49524F48204C4143495452455620524F46204D524F46204E4F495441544E4553455250202020202020206F502023204E203B43515F444B464E203B2020202020202020202039314546,
  0x52454441454C20544F44204F5754204C4143495452455620524F46204D524F46204E4F495441544E4553455250202020202020206F502023204E203B43515F444B464E203B2020202020202020202030334546,
  0x48534144204E45204C4143495452455620524F46204D524F46204E4F495441544E45534552502E2E48534144204D45204C4143495452455620524F46204D524F46204E4F495441544E4553455250205D325B20202064502023204E203B43515F444B464E203B20202020323345462E2E31334546,
  0x454E494C20574F4C2059564157204C4143495452455620524F46204D524F46204E4F495441544E45534552502E2E454E494C20574F4C204C4143495452455620524F46204D524F46204E4F495441544E4553455250205D325B20202063502023204E203B43515F444B464E203B20202020343345462E2E33334546,
  0x5349534548544E45524150205446454C204C4143495452455620524F46204D524F46204E4F495441544E45534552502020202020202073502023204E203B43515F444B464E203B2020202020202020202035334546,
  0x5349534548544E45524150205448474952204C4143495452455620524F46204D524F46204E4F495441544E45534552502020202020202065502023204E203B43515F444B464E203B2020202020202020202036334546,
  0x54454B4341524220594C525543205446454C204C4143495452455620524F46204D524F46204E4F495441544E45534552502020202020202073502023204E203B43515F444B464E203B2020202020202020202037334546,
  0x54454B4341524220594C525543205448474952204C4143495452455620524F46204D524F46204E4F495441544E45534552502020202020202065502023204E203B43515F444B464E203B2020202020202020202038334546,
  0x54454B43415242204C4C454853204553494F54524F54205446454C204C4143495452455620524F46204D524F46204E4F495441544E45534552502020202020202073502023204E203B43515F444B464E203B2020202020202020202039334546,
  0x54454B43415242204C4C454853204553494F54524F54205448474952204C4143495452455620524F46204D524F46204E4F495441544E45534552502020202020202065502023204E203B43515F444B464E203B2020202020202020202041334546,
  0x54454B434152422052414C554349544E454C204B43414C42205446454C204C4143495452455620524F46204D524F46204E4F495441544E45534552502020202020202073502023204E203B43515F444B464E203B2020202020202020202042334546,
  0x54454B434152422052414C554349544E454C204B43414C42205448474952204C4143495452455620524F46204D524F46204E4F495441544E45534552502020202020202065502023204E203B43515F444B464E203B2020202020202020202043334546,
  0x54454B4341524220454C474E4120454C42554F44205446454C204C4143495452455620524F46204D524F46204E4F495441544E45534552502020202020202073502023204E203B43515F444B464E203B2020202020202020202044334546,
  0x54454B4341524220454C474E4120454C42554F44205448474952204C4143495452455620524F46204D524F46204E4F495441544E45534552502020202020202065502023204E203B43515F444B464E203B2020202020202020202045334546,
  0x54454B4341524220454C474E41205446454C204C4143495452455620524F46204D524F46204E4F495441544E45534552502020202020202073502023204E203B43515F444B464E203B2020202020202020202046334546,
  0x54454B4341524220454C474E41205448474952204C4143495452455620524F46204D524F46204E4F495441544E45534552502020202020202065502023204E203B43515F444B464E203B2020202020202020202030344546,
  0x54454B434152422052454E524F43205446454C204C4143495452455620524F46204D524F46204E4F495441544E45534552502020202020202073502023204E203B43515F444B464E203B2020202020202020202031344546,
  0x54454B434152422052454E524F43205448474952204C4143495452455620524F46204D524F46204E4F495441544E45534552502020202020202065502023204E203B43515F444B464E203B2020202020202020202032344546,
  0x54454B434152422052454E524F43204554494857205446454C204C4143495452455620524F46204D524F46204E4F495441544E45534552502020202020202073502023204E203B43515F444B464E203B2020202020202020202033344546,
  0x54454B434152422052454E524F43204554494857205448474952204C4143495452455620524F46204D524F46204E4F495441544E45534552502020202020202065502023204E203B43515F444B464E203B2020202020202020202034344546,
  0x54454B4341524220455241555153205446454C204C4143495452455620524F46204D524F46204E4F495441544E45534552502020202020202073502023204E203B43515F444B464E203B2020202020202020202037344546,
  0x54454B4341524220455241555153205448474952204C4143495452455620524F46204D524F46204E4F495441544E45534552502020202020202065502023204E203B43515F444B464E203B2020202020202020202038344546,
  0x454E494C5245564F205956415720454C42554F442E2E454E494C5245564F20444548534144205D345B2020206F502023204E203B43515F444B464E203B20202020433445462E2E39344546,
  0x454E494C20574F4C20595641572E2E454E494C20574F4C20444548534144205D335B20202063502023204E203B43515F444B464E203B20202020463445462E2E44344546,
  0x504F5453204C4C5546204C4C414D532E2E414D4D4F43204C4C414D53205D335B2020206F502023204E203B43515F444B464E203B20202020323545462E2E30354546,
  0x4B52414D204E4F4954414D414C435845204C4C414D532E2E4E4F4C4F43494D4553204C4C414D53205D345B2020206F502023204E203B43515F444B464E203B20202020373545462E2E34354546,
  0x48534144204D45204C4C414D532020202020202064502023204E203B43515F444B464E203B2020202020202020202038354546,
  0x5349534548544E45524150205446454C204C4C414D532020202020202073502023204E203B43515F444B464E203B2020202020202020202039354546,
  0x5349534548544E45524150205448474952204C4C414D532020202020202065502023204E203B43515F444B464E203B2020202020202020202041354546,
  0x54454B4341524220594C525543205446454C204C4C414D532020202020202073502023204E203B43515F444B464E203B2020202020202020202042354546,
  0x54454B4341524220594C525543205448474952204C4C414D532020202020202065502023204E203B43515F444B464E203B2020202020202020202043354546,
  0x54454B43415242204C4C454853204553494F54524F54205446454C204C4C414D532020202020202073502023204E203B43515F444B464E203B2020202020202020202044354546,
  0x54454B43415242204C4C454853204553494F54524F54205448474952204C4C414D532020202020202065502023204E203B43515F444B464E203B2020202020202020202045354546,
  0x4B53495245545341204C4C414D532E2E4E474953205245424D554E204C4C414D53205D335B2020206F502023204E203B43515F444B464E203B20202020313645462E2E46354546,
  0x4E4749532053554C50204C4C414D53202020202020206D532023204E203B43515F444B464E203B2020202020202020202032364546,
  0x53554E494D2D4E4548505948204C4C414D532020202020202064502023204E203B43515F444B464E203B2020202020202020202033364546,
  0x4E47495320534C41555145204C4C414D532E2E4E474953204E4148542D5353454C204C4C414D53205D335B2020206D532023204E203B43515F444B464E203B20202020363645462E2E34364546,
  0x535544494C4F532045535245564552204C4C414D53202020202020206F502023204E203B43515F444B464E203B2020202020202020202038364546,
  0x4E4749532052414C4C4F44204C4C414D532020202020202063532023204E203B43515F444B464E203B2020202020202020202039364546,
  0x5441204C41494352454D4D4F43204C4C414D532E2E4E47495320544E4543524550204C4C414D53205D325B2020206F502023204E203B43515F444B464E203B20202020423645462E2E41364546,
  0x4D524F4620444554414C4F5349204E4154414D4D4144204349424152412E2E4D524F4620444554414C4F5349204E4154414854414620434942415241205D335B2020206F4C2023204E203B43515F444B464E203B20202020323745462E2E30374546,
  0x4D524F4620444554414C4F5349204E4154415253414B20434942415241202020202020206F4C2023204E203B43515F444B464E203B2020202020202020202034374546,
  0x4D524F46204C414E49462046454C412048544957204D414C20455255544147494C204349424152412E2E4D524F4620444554414C4F534920414854414620434942415241205D3533315B206F4C2023204E203B43515F444B464E203B20202020434645462E2E36374546,
  0x4E474953205245424D554E2048544449574C4C55462E2E4B52414D204E4F4954414D414C4358452048544449574C4C5546205D335B2020206F502023204E203B43515F444B464E203B20202020333046462E2E31304646,
  0x4E4749532052414C4C4F442048544449574C4C55462020202020202063532023204E203B43515F444B464E203B2020202020202020202034304646,
  0x4548504F5254534F50412048544449574C4C55462E2E4E47495320544E45435245502048544449574C4C5546205D335B2020206F502023204E203B43515F444B464E203B20202020373046462E2E35304646,
  0x5349534548544E45524150205446454C2048544449574C4C55462020202020202073502023204E203B43515F444B464E203B2020202020202020202038304646,
  0x5349534548544E455241502054484749522048544449574C4C55462020202020202065502023204E203B43515F444B464E203B2020202020202020202039304646,
  0x4B534952455453412048544449574C4C5546202020202020206F502023204E203B43515F444B464E203B2020202020202020202041304646,
  0x4E4749532053554C502048544449574C4C5546202020202020206D532023204E203B43515F444B464E203B2020202020202020202042304646,
  0x414D4D4F432048544449574C4C5546202020202020206F502023204E203B43515F444B464E203B2020202020202020202043304646,
  0x53554E494D2D4E45485059482048544449574C4C55462020202020202064502023204E203B43515F444B464E203B2020202020202020202044304646,
  0x535544494C4F532048544449574C4C55462E2E504F5453204C4C55462048544449574C4C5546205D325B2020206F502023204E203B43515F444B464E203B20202020463046462E2E45304646,
  0x454E494E2054494749442048544449574C4C55462E2E4F52455A2054494749442048544449574C4C5546205D30315B2020644E2023204E203B43515F444B464E203B20202020393146462E2E30314646,
  0x4E4F4C4F43494D45532048544449574C4C55462E2E4E4F4C4F432048544449574C4C5546205D325B2020206F502023204E203B43515F444B464E203B20202020423146462E2E41314646,
  0x4E474953204E4148542D524554414552472048544449574C4C55462E2E4E474953204E4148542D5353454C2048544449574C4C5546205D335B2020206D532023204E203B43515F444B464E203B20202020453146462E2E43314646,
  0x5441204C41494352454D4D4F432048544449574C4C55462E2E4B52414D204E4F4954534555512048544449574C4C5546205D325B2020206F502023204E203B43515F444B464E203B20202020303246462E2E46314646,
  0x5A2052455454454C204C415449504143204E4954414C2048544449574C4C55462E2E412052455454454C204C415449504143204E4954414C2048544449574C4C5546205D36325B2020264C2023204E203B43515F444B464E203B20202020413346462E2E31324646,
  0x54454B4341524220455241555153205446454C2048544449574C4C55462020202020202073502023204E203B43515F444B464E203B2020202020202020202042334646,
  0x535544494C4F5320455352455645522048544449574C4C5546202020202020206F502023204E203B43515F444B464E203B2020202020202020202043334646,
  0x54454B43415242204552415551532054484749522048544449574C4C55462020202020202065502023204E203B43515F444B464E203B2020202020202020202044334646,
  0x544E454343412058454C464D55435249432048544449574C4C5546202020202020206B532023204E203B43515F444B464E203B2020202020202020202045334646,
  0x454E494C20574F4C2048544449574C4C55462020202020202063502023204E203B43515F444B464E203B2020202020202020202046334646,
  0x544E454343412045564152472048544449574C4C5546202020202020206B532023204E203B43515F444B464E203B2020202020202020202030344646,
  0x5A2052455454454C204C4C414D53204E4954414C2048544449574C4C55462E2E412052455454454C204C4C414D53204E4954414C2048544449574C4C5546205D36325B2020264C2023204E203B43515F444B464E203B20202020413546462E2E31344646,
  0x54454B4341524220594C525543205446454C2048544449574C4C55462020202020202073502023204E203B43515F444B464E203B2020202020202020202042354646,
  0x454E494C204C414349545245562048544449574C4C5546202020202020206D532023204E203B43515F444B464E203B2020202020202020202043354646,
  0x54454B4341524220594C5255432054484749522048544449574C4C55462020202020202065502023204E203B43515F444B464E203B2020202020202020202044354646,
  0x45444C49542048544449574C4C5546202020202020206D532023204E203B43515F444B464E203B2020202020202020202045354646,
  0x5349534548544E45524150204554494857205446454C2048544449574C4C55462020202020202073502023204E203B43515F444B464E203B2020202020202020202046354646,
  0x5349534548544E455241502045544948572054484749522048544449574C4C55462020202020202065502023204E203B43515F444B464E203B2020202020202020202030364646,
  0x504F5453204C4C554620434948504152474F454449204854444957464C4148202020202020206F502023204E203B43515F444B464E203B2020202020202020202031364646,
  0x54454B434152422052454E524F43205446454C204854444957464C41482020202020202073502023204E203B43515F444B464E203B2020202020202020202032364646,
  0x54454B434152422052454E524F43205448474952204854444957464C41482020202020202065502023204E203B43515F444B464E203B2020202020202020202033364646,
  0x544F4420454C4444494D20414E414B4154414B204854444957464C41482E2E414D4D4F4320434948504152474F454449204854444957464C4148205D325B2020206F502023204E203B43515F444B464E203B20202020353646462E2E34364646,
  0x5554204C4C414D532052455454454C20414E414B4154414B204854444957464C41482E2E4F572052455454454C20414E414B4154414B204854444957464C4148205D30315B20206F4C2023204E203B43515F444B464E203B20202020463646462E2E36364646,
  0x4B52414D20444E554F53204445474E4F4C4F525020414E4147415249482D414E414B4154414B204854444957464C4148202020202020206D4C2023204E203B43515F444B464E203B2020202020202020202030374646,
  0x4E2052455454454C20414E414B4154414B204854444957464C41482E2E412052455454454C20414E414B4154414B204854444957464C4148205D35345B20206F4C2023204E203B43515F444B464E203B20202020443946462E2E31374646,
  0x4B52414D20444E554F5320444543494F562D494D455320414E414B4154414B204854444957464C41482E2E4B52414D20444E554F5320444543494F5620414E414B4154414B204854444957464C4148205D325B2020206D4C2023204E203B43515F444B464E203B20202020463946462E2E45394646,
  0x48554549482052455454454C204C55474E4148204854444957464C41482E2E52454C4C4946204C55474E4148204854444957464C4148205D31335B20206F4C2023204E203B43515F444B464E203B20202020454246462E2E30414646,
  0x452052455454454C204C55474E4148204854444957464C41482E2E412052455454454C204C55474E4148204854444957464C4148205D365B2020206F4C2023204E203B43515F444B464E203B20202020374346462E2E32434646,
  0x454F2052455454454C204C55474E4148204854444957464C41482E2E4F45592052455454454C204C55474E4148204854444957464C4148205D365B2020206F4C2023204E203B43515F444B464E203B20202020464346462E2E41434646,
  0x55592052455454454C204C55474E4148204854444957464C41482E2E4F592052455454454C204C55474E4148204854444957464C4148205D365B2020206F4C2023204E203B43515F444B464E203B20202020374446462E2E32444646,
  0x492052455454454C204C55474E4148204854444957464C41482E2E55452052455454454C204C55474E4148204854444957464C4148205D335B2020206F4C2023204E203B43515F444B464E203B20202020434446462E2E41444646,
  0x4E47495320444E554F502048544449574C4C55462E2E4E47495320544E45432048544449574C4C5546205D325B20202063532023204E203B43515F444B464E203B20202020314546462E2E30454646,
  0x4E47495320544F4E2048544449574C4C5546202020202020206D532023204E203B43515F444B464E203B2020202020202020202032454646,
  0x4E4F5243414D2048544449574C4C5546202020202020206B532023204E203B43515F444B464E203B2020202020202020202033454646,
  0x524142204E454B4F52422048544449574C4C5546202020202020206F532023204E203B43515F444B464E203B2020202020202020202034454646,
  0x4E474953204E4F572048544449574C4C55462E2E4E474953204E45592048544449574C4C5546205D325B20202063532023204E203B43515F444B464E203B20202020364546462E2E35454646,
  0x4C4143495452455620544847494C20534D524F46204854444957464C4148202020202020206F532023204E203B43515F444B464E203B2020202020202020202038454646,
  0x574F5252412053445241574E574F44204854444957464C41482E2E574F5252412053445241575446454C204854444957464C4148205D345B2020206D532023204E203B43515F444B464E203B20202020434546462E2E39454646,
  0x454C43524943204554494857204854444957464C41482E2E455241555153204B43414C42204854444957464C4148205D325B2020206F532023204E203B43515F444B464E203B20202020454546462E2E44454646,
  0x41484444442052455454454C2049485449414B202020202020206F4C2023204E203B43515F444B464E203B2020202020202020204139303131,
  0x4148522052455454454C2049485449414B202020202020206F4C2023204E203B43515F444B464E203B2020202020202020204339303131,
  0x41562052455454454C2049485449414B202020202020206F4C2023204E203B43515F444B464E203B2020202020202020204241303131,
  0x5541204E474953204C45574F5620414D4B4148432E2E4F204E474953204C45574F5620414D4B414843205D325B2020206E4D2023204E203B43515F444B464E203B202046323131312E2E4532313131,
  0x5541204E474953204C45574F56204148544E4152472E2E4F4F204E474953204C45574F56204148544E415247205D325B202020634D2023204E203B43515F444B464E203B202043343331312E2E4234333131,
  0x4F204E474953204C45574F5620415455485249542E2E4941204E474953204C45574F562041545548524954205D325B202020634D2023204E203B43515F444B464E203B202043423431312E2E4242343131,
  0x5541204E474953204C45574F56204154554852495420202020202020634D2023204E203B43515F444B464E203B2020202020202020204542343131,
  0x5541204E474953204C45574F56204D4148444449532E2E4F204E474953204C45574F56204D414844444953205D325B202020634D2023204E203B43515F444B464E203B202042423531312E2E4142353131,
  0x4F204E474953204C45574F56205552554B4120534556494420202020202020634D2023204E203B43515F444B464E203B2020202020202020203833393131,
  0x45544F4E204854484749452D59544E45575420444552444E554820454E4F204C4F424D5953204C41434953554D2E2E45544F4E20464C4148204C4F424D5953204C41434953554D205D375B2020206F532023204E203B43515F444B464E203B202034363144312E2E4535314431,
  0x4B43414C422041535546204C4F424D5953204C41434953554D2E2E414D494E494D204C4F424D5953204C41434953554D205D365B2020206F532023204E203B43515F444B464E203B202030433144312E2E4242314431,
  0x47204C4C414D532043494C415449204C41434954414D454854414D2E2E41204C41544950414320444C4F42204C41434954414D454854414D205D35385B2020264C2023204E203B43515F444B464E203B202034353444312E2E3030344431,
  0x41204C41544950414320545049524353204C41434954414D454854414D2E2E49204C4C414D532043494C415449204C41434954414D454854414D205D31375B2020264C2023204E203B43515F444B464E203B202043393444312E2E3635344431,
  0x44204C41544950414320545049524353204C41434954414D454854414D2E2E43204C41544950414320545049524353204C41434954414D454854414D205D325B202020264C2023204E203B43515F444B464E203B202046393444312E2E4539344431,
  0x47204C41544950414320545049524353204C41434954414D454854414D20202020202020264C2023204E203B43515F444B464E203B2020202020202020203241344431,
  0x4B204C41544950414320545049524353204C41434954414D454854414D2E2E4A204C41544950414320545049524353204C41434954414D454854414D205D325B202020264C2023204E203B43515F444B464E203B202036413444312E2E3541344431,
  0x51204C41544950414320545049524353204C41434954414D454854414D2E2E4E204C41544950414320545049524353204C41434954414D454854414D205D345B202020264C2023204E203B43515F444B464E203B202043413444312E2E3941344431,
  0x44204C4C414D5320545049524353204C41434954414D454854414D2E2E53204C41544950414320545049524353204C41434954414D454854414D205D32315B2020264C2023204E203B43515F444B464E203B202039423444312E2E4541344431,
  0x46204C4C414D5320545049524353204C41434954414D454854414D20202020202020264C2023204E203B43515F444B464E203B2020202020202020204242344431,
  0x4E204C4C414D5320545049524353204C41434954414D454854414D2E2E48204C4C414D5320545049524353204C41434954414D454854414D205D375B202020264C2023204E203B43515F444B464E203B202033433444312E2E4442344431,
  0x42204C415449504143205255544B415246204C41434954414D454854414D2E2E50204C4C414D5320545049524353204C41434954414D454854414D205D35365B2020264C2023204E203B43515F444B464E203B202035303544312E2E3543344431,
  0x47204C415449504143205255544B415246204C41434954414D454854414D2E2E44204C415449504143205255544B415246204C41434954414D454854414D205D345B202020264C2023204E203B43515F444B464E203B202041303544312E2E3730354431,
  0x51204C415449504143205255544B415246204C41434954414D454854414D2E2E4A204C415449504143205255544B415246204C41434954414D454854414D205D385B202020264C2023204E203B43515F444B464E203B202034313544312E2E4430354431,
  0x59204C415449504143205255544B415246204C41434954414D454854414D2E2E53204C415449504143205255544B415246204C41434954414D454854414D205D375B202020264C2023204E203B43515F444B464E203B202043313544312E2E3631354431,
  0x42204C415449504143204B43555254532D454C42554F44204C41434954414D454854414D2E2E41204C4C414D53205255544B415246204C41434954414D454854414D205D38325B2020264C2023204E203B43515F444B464E203B202039333544312E2E4531354431,
  0x47204C415449504143204B43555254532D454C42554F44204C41434954414D454854414D2E2E44204C415449504143204B43555254532D454C42554F44204C41434954414D454854414D205D345B202020264C2023204E203B43515F444B464E203B202045333544312E2E4233354431,
  0x4D204C415449504143204B43555254532D454C42554F44204C41434954414D454854414D2E2E49204C415449504143204B43555254532D454C42554F44204C41434954414D454854414D205D355B202020264C2023204E203B43515F444B464E203B202034343544312E2E3034354431,
  0x4F204C415449504143204B43555254532D454C42554F44204C41434954414D454854414D20202020202020264C2023204E203B43515F444B464E203B2020202020202020203634354431,
  0x59204C415449504143204B43555254532D454C42554F44204C41434954414D454854414D2E2E53204C415449504143204B43555254532D454C42554F44204C41434954414D454854414D205D375B202020264C2023204E203B43515F444B464E203B202030353544312E2E4134354431,
  0x4A205353454C544F44204C4C414D532043494C415449204C41434954414D454854414D2E2E41204C4C414D53204B43555254532D454C42554F44204C41434954414D454854414D205D3034335B20264C2023204E203B43515F444B464E203B202035413644312E2E3235354431,
  0x4147454D4F204C41544950414320444C4F42204C41434954414D454854414D2E2E4148504C41204C41544950414320444C4F42204C41434954414D454854414D205D35325B2020264C2023204E203B43515F444B464E203B202030433644312E2E3841364431,
  0x414C42414E20444C4F42204C41434954414D454854414D202020202020206D532023204E203B43515F444B464E203B2020202020202020203143364431,
  0x4147454D4F204C4C414D5320444C4F42204C41434954414D454854414D2E2E4148504C41204C4C414D5320444C4F42204C41434954414D454854414D205D35325B2020264C2023204E203B43515F444B464E203B202041443644312E2E3243364431,
  0x4C4149544E45524546464944204C41495452415020444C4F42204C41434954414D454854414D202020202020206D532023204E203B43515F444B464E203B2020202020202020204244364431,
  0x4147454D4F204C4154495041432043494C415449204C41434954414D454854414D2E2E4C4F424D5953204E4F4C4953504520444C4F42204C41434954414D454854414D205D31335B2020264C2023204E203B43515F444B464E203B202041463644312E2E4344364431,
  0x414C42414E2043494C415449204C41434954414D454854414D202020202020206D532023204E203B43515F444B464E203B2020202020202020204246364431,
  0x4147454D4F204C4C414D532043494C415449204C41434954414D454854414D2E2E4148504C41204C4C414D532043494C415449204C41434954414D454854414D205D35325B2020264C2023204E203B43515F444B464E203B202034313744312E2E4346364431,
  0x4C4149544E45524546464944204C4149545241502043494C415449204C41434954414D454854414D202020202020206D532023204E203B43515F444B464E203B2020202020202020203531374431,
  0x4147454D4F204C4154495041432043494C41544920444C4F42204C41434954414D454854414D2E2E4C4F424D5953204E4F4C495350452043494C415449204C41434954414D454854414D205D31335B2020264C2023204E203B43515F444B464E203B202034333744312E2E3631374431,
  0x414C42414E2043494C41544920444C4F42204C41434954414D454854414D202020202020206D532023204E203B43515F444B464E203B2020202020202020203533374431,
  0x4147454D4F204C4C414D532043494C41544920444C4F42204C41434954414D454854414D2E2E4148504C41204C4C414D532043494C41544920444C4F42204C41434954414D454854414D205D35325B2020264C2023204E203B43515F444B464E203B202045343744312E2E3633374431,
  0x4C4149544E45524546464944204C4149545241502043494C41544920444C4F42204C41434954414D454854414D202020202020206D532023204E203B43515F444B464E203B2020202020202020204634374431,
  0x4147454D4F204C41544950414320444C4F422046495245532D534E4153204C41434954414D454854414D2E2E4C4F424D5953204E4F4C495350452043494C41544920444C4F42204C41434954414D454854414D205D31335B2020264C2023204E203B43515F444B464E203B202045363744312E2E3035374431,
  0x414C42414E20444C4F422046495245532D534E4153204C41434954414D454854414D202020202020206D532023204E203B43515F444B464E203B2020202020202020204636374431,
  0x4147454D4F204C4C414D5320444C4F422046495245532D534E4153204C41434954414D454854414D2E2E4148504C41204C4C414D5320444C4F422046495245532D534E4153204C41434954414D454854414D205D35325B2020264C2023204E203B43515F444B464E203B202038383744312E2E3037374431,
  0x4C4149544E45524546464944204C41495452415020444C4F422046495245532D534E4153204C41434954414D454854414D202020202020206D532023204E203B43515F444B464E203B2020202020202020203938374431,
  0x4147454D4F204C4154495041432043494C41544920444C4F422046495245532D534E4153204C41434954414D454854414D2E2E4C4F424D5953204E4F4C4953504520444C4F422046495245532D534E4153204C41434954414D454854414D205D31335B2020264C2023204E203B43515F444B464E203B202038413744312E2E4138374431,
  0x414C42414E2043494C41544920444C4F422046495245532D534E4153204C41434954414D454854414D202020202020206D532023204E203B43515F444B464E203B2020202020202020203941374431,
  0x4147454D4F204C4C414D532043494C41544920444C4F422046495245532D534E4153204C41434954414D454854414D2E2E4148504C41204C4C414D532043494C41544920444C4F422046495245532D534E4153204C41434954414D454854414D205D35325B2020264C2023204E203B43515F444B464E203B202032433744312E2E4141374431,
  0x4C4149544E45524546464944204C4149545241502043494C41544920444C4F422046495245532D534E4153204C41434954414D454854414D202020202020206D532023204E203B43515F444B464E203B2020202020202020203343374431,
  0x414D4D41474944204C4C414D5320444C4F42204C41434954414D454854414D2E2E4C4F424D5953204E4F4C495350452043494C41544920444C4F422046495245532D534E4153204C41434954414D454854414D205D385B202020264C2023204E203B43515F444B464E203B202042433744312E2E3443374431,
  0x454E494E2054494749442045434150534F4E4F4D204C41434954414D454854414D2E2E4F52455A20544947494420444C4F42204C41434954414D454854414D205D30355B2020644E2023204E203B43515F444B464E203B202046463744312E2E4543374431,
  0x4C4144204C41434954414D454854414D204349424152412E2E46454C41204C41434954414D454854414D20434942415241205D345B2020206F4C2023204E203B43515F444B464E203B202033304545312E2E3030454531,
  0x464151205353454C544F44204C41434954414D454854414D204349424152412E2E574157204C41434954414D454854414D20434942415241205D37325B20206F4C2023204E203B43515F444B464E203B202046314545312E2E3530454531,
  0x4D45454A204C414954494E49204C41434954414D454854414D204349424152412E2E484542204C414954494E49204C41434954414D454854414D20434942415241205D325B2020206F4C2023204E203B43515F444B464E203B202032324545312E2E3132454531,
  0x484548204C414954494E49204C41434954414D454854414D20434942415241202020202020206F4C2023204E203B43515F444B464E203B2020202020202020203432454531,
  0x484148204C414954494E49204C41434954414D454854414D20434942415241202020202020206F4C2023204E203B43515F444B464E203B2020202020202020203732454531,
  0x464151204C414954494E49204C41434954414D454854414D204349424152412E2E484559204C414954494E49204C41434954414D454854414D20434942415241205D30315B20206F4C2023204E203B43515F444B464E203B202032334545312E2E3932454531,
  0x4841484B204C414954494E49204C41434954414D454854414D204349424152412E2E4E45454853204C414954494E49204C41434954414D454854414D20434942415241205D345B2020206F4C2023204E203B43515F444B464E203B202037334545312E2E3433454531,
  0x444144204C414954494E49204C41434954414D454854414D20434942415241202020202020206F4C2023204E203B43515F444B464E203B2020202020202020203933454531,
  0x4E49414847204C414954494E49204C41434954414D454854414D20434942415241202020202020206F4C2023204E203B43515F444B464E203B2020202020202020204233454531,
  0x4D45454A2044454C494154204C41434954414D454854414D20434942415241202020202020206F4C2023204E203B43515F444B464E203B2020202020202020203234454531,
  0x4841482044454C494154204C41434954414D454854414D20434942415241202020202020206F4C2023204E203B43515F444B464E203B2020202020202020203734454531,
  0x4845592044454C494154204C41434954414D454854414D20434942415241202020202020206F4C2023204E203B43515F444B464E203B2020202020202020203934454531,
  0x4D414C2044454C494154204C41434954414D454854414D20434942415241202020202020206F4C2023204E203B43515F444B464E203B2020202020202020204234454531,
  0x4E49412044454C494154204C41434954414D454854414D204349424152412E2E4E4F4F4E2044454C494154204C41434954414D454854414D20434942415241205D335B2020206F4C2023204E203B43515F444B464E203B202046344545312E2E4434454531,
  0x4641512044454C494154204C41434954414D454854414D204349424152412E2E4441532044454C494154204C41434954414D454854414D20434942415241205D325B2020206F4C2023204E203B43515F444B464E203B202032354545312E2E3135454531,
  0x4E454548532044454C494154204C41434954414D454854414D20434942415241202020202020206F4C2023204E203B43515F444B464E203B2020202020202020203435454531,
  0x4841484B2044454C494154204C41434954414D454854414D20434942415241202020202020206F4C2023204E203B43515F444B464E203B2020202020202020203735454531,
  0x4441442044454C494154204C41434954414D454854414D20434942415241202020202020206F4C2023204E203B43515F444B464E203B2020202020202020203935454531,
  0x4E494148472044454C494154204C41434954414D454854414D20434942415241202020202020206F4C2023204E203B43515F444B464E203B2020202020202020204235454531,
  0x4E4F4F4E205353454C544F442044454C494154204C41434954414D454854414D20434942415241202020202020206F4C2023204E203B43515F444B464E203B2020202020202020204435454531,
  0x464151205353454C544F442044454C494154204C41434954414D454854414D20434942415241202020202020206F4C2023204E203B43515F444B464E203B2020202020202020204635454531,
  0x4D45454A20444548435445525453204C41434954414D454854414D204349424152412E2E48454220444548435445525453204C41434954414D454854414D20434942415241205D325B2020206F4C2023204E203B43515F444B464E203B202032364545312E2E3136454531,
  0x48454820444548435445525453204C41434954414D454854414D20434942415241202020202020206F4C2023204E203B43515F444B464E203B2020202020202020203436454531,
  0x46414B20444548435445525453204C41434954414D454854414D204349424152412E2E48414820444548435445525453204C41434954414D454854414D20434942415241205D345B2020206F4C2023204E203B43515F444B464E203B202041364545312E2E3736454531,
  0x46415120444548435445525453204C41434954414D454854414D204349424152412E2E4D45454D20444548435445525453204C41434954414D454854414D20434942415241205D375B2020206F4C2023204E203B43515F444B464E203B202032374545312E2E4336454531,
  0x4841484B20444548435445525453204C41434954414D454854414D204349424152412E2E4E4545485320444548435445525453204C41434954414D454854414D20434942415241205D345B2020206F4C2023204E203B43515F444B464E203B202037374545312E2E3437454531,
  0x484542205353454C544F4420444548435445525453204C41434954414D454854414D204349424152412E2E44414420444548435445525453204C41434954414D454854414D20434942415241205D345B2020206F4C2023204E203B43515F444B464E203B202043374545312E2E3937454531,
  0x484546205353454C544F4420444548435445525453204C41434954414D454854414D20434942415241202020202020206F4C2023204E203B43515F444B464E203B2020202020202020204537454531,
  0x484559204445504F4F4C204C41434954414D454854414D204349424152412E2E46454C41204445504F4F4C204C41434954414D454854414D20434942415241205D30315B20206F4C2023204E203B43515F444B464E203B202039384545312E2E3038454531,
  0x4E49414847204445504F4F4C204C41434954414D454854414D204349424152412E2E4D414C204445504F4F4C204C41434954414D454854414D20434942415241205D37315B20206F4C2023204E203B43515F444B464E203B202042394545312E2E4238454531,
  0x4C4144204B43555254532D454C42554F44204C41434954414D454854414D204349424152412E2E484542204B43555254532D454C42554F44204C41434954414D454854414D20434942415241205D335B2020206F4C2023204E203B43515F444B464E203B202033414545312E2E3141454531,
  0x484559204B43555254532D454C42554F44204C41434954414D454854414D204349424152412E2E574157204B43555254532D454C42554F44204C41434954414D454854414D20434942415241205D355B2020206F4C2023204E203B43515F444B464E203B202039414545312E2E3541454531,
  0x4E49414847204B43555254532D454C42554F44204C41434954414D454854414D204349424152412E2E4D414C204B43555254532D454C42554F44204C41434954414D454854414D20434942415241205D37315B20206F4C2023204E203B43515F444B464E203B202042424545312E2E4241454531,
  0x414D4D4F4320454E494E2054494749442E2E504F5453204C4C5546204F52455A205449474944205D31315B20206F4E2023204E203B43515F444B464E203B202041303146312E2E3030314631,
  0x5A572044454C435249432E2E412052455454454C204C415449504143204E4954414C2044455A49534548544E45524150205D31335B20206F532023204E203B43515F444B464E203B202045323146312E2E3031314631,
  0x435720444552415551532E2E412052455454454C204C415449504143204E4954414C2044455241555153205D32335B20206F532023204E203B43515F444B464E203B202046343146312E2E3033314631,
  0x4E47495320524D204445534941522E2E4E47495320434D20444553494152205D335B2020206F532023204E203B43515F444B464E203B202043363146312E2E4136314631,
  0x4A4420455241555153202020202020206F532023204E203B43515F444B464E203B2020202020202020203039314631,
  0x415320414E414B4154414B20444552415551532E2E414B4F4820414E41474152494820455241555153205D335B2020206F532023204E203B43515F444B464E203B202032303246312E2E3030324631,
  0x443431392D48504152474F4544492044454946494E55204B4A4320444552415551532E2E423432362D48504152474F4544492044454946494E55204B4A432044455241555153205D34345B20206F532023204E203B43515F444B464E203B202042333246312E2E3031324631,
  0x373535362D48504152474F4544492044454946494E55204B4A4320444554454B43415242204C4C454853204553494F54524F542E2E433237362D48504152474F4544492044454946494E55204B4A4320444554454B43415242204C4C454853204553494F54524F54205D395B2020206F532023204E203B43515F444B464E203B202038343246312E2E3034324631,
  0x5450454343412048504152474F4544492044454C435249432E2E454741544E415644412048504152474F4544492044454C43524943205D325B2020206F532023204E203B43515F444B464E203B202031353246312E2E3035324631,
  0x454E494E205449474944204445544E454D4745532E2E4F52455A205449474944204445544E454D474553205D30315B2020644E2023204E203B43515F444B464E203B202039464246312E2E3046424631,
  0x44314146322D48504152474F454449205954494C4942495441504D4F43204B4A432E2E30303846322D48504152474F454449205954494C4942495441504D4F43204B4A43205D3234355B206F4C2023204E203B43515F444B464E203B202044314146322E2E3030384632,
  0x0,
  0x3830393631203A73746E696F702065646F63206C61746F542023,
  0x0,
  0x3D3D3D3D3D3D3D3D3D3D3D3D3D3D3D3D3D3D3D3D3D3D3D3D3D3D3D3D3D3D3D3D3D3D3D3D3D3D3D3D3D3D3D3D3D3D3D3D2023,
  0x0,
  0x6B636568435F6B636975515F434B464E093A79747265706F72502023,
  0x0,
  0x6B636568435F6B636975515F434B464E20726F662064657473696C20796C746963696C70786520746F6E2073746E696F702065646F63206C6C41202023,
  0x2E295928207365592065756C6176206568742065766168202023,
  0x0,
  0x736559203B43515F434B464E203B4646464630312E2E30303030203A676E697373696D402023,
  0x0,
  0x3D3D3D3D3D3D3D3D3D3D3D3D3D3D3D3D3D3D3D3D3D3D3D3D3D3D3D3D3D3D3D3D3D3D3D3D3D3D3D3D3D3D3D3D3D3D3D3D2023,
  0x0,
  0x6F4E3D6B636568435F6B636975515F434B464E2023,
  0x0,
  0x4543415053204B414552422D4F4E20202020202020735A2023204E203B43515F434B464E203B2020202020202020202030413030,
  0x534953455245414944202020202020206B532023204E203B43515F434B464E203B2020202020202020202038413030,
  0x524F54414349444E49204C414E4944524F20454E494E494D4546202020202020206F4C2023204E203B43515F434B464E203B2020202020202020202041413030,
  0x4E4F5243414D202020202020206B532023204E203B43515F434B464E203B2020202020202020202046413030,
  0x45455248542054504952435352455055532E2E4F5754205450495243535245505553205D325B2020206F4E2023204E203B43515F434B464E203B20202020334230302E2E32423030,
  0x544E45434341204554554341202020202020206B532023204E203B43515F434B464E203B2020202020202020202034423030,
  0x4E474953204F5243494D20202020202020264C2023204E203B43515F434B464E203B2020202020202020202035423030,
  0x414C4C49444543202020202020206B532023204E203B43515F434B464E203B2020202020202020202038423030,
  0x454E4F205450495243535245505553202020202020206F4E2023204E203B43515F434B464E203B2020202020202020202039423030,
  0x524F54414349444E49204C414E4944524F20454E494C554353414D202020202020206F4C2023204E203B43515F434B464E203B2020202020202020202041423030,
  0x5352455452415551204545524854204E4F495443415246205241474C55562E2E5245545241555120454E4F204E4F495443415246205241474C5556205D335B2020206F4E2023204E203B43515F434B464E203B20202020454230302E2E43423030,
  0x4A4920455255544147494C204C4C414D53204E4954414C2E2E4A4920455255544147494C204C415449504143204E4954414C205D325B202020264C2023204E203B43515F434B464E203B20202020333331302E2E32333130,
  0x544F4420454C4444494D2048544957204C2052455454454C204C4C414D53204E4954414C2E2E544F4420454C4444494D2048544957204C2052455454454C204C415449504143204E4954414C205D325B202020264C2023204E203B43515F434B464E203B20202020303431302E2E46333130,
  0x4548504F5254534F5041205942204445444543455250204E2052455454454C204C4C414D53204E4954414C20202020202020264C2023204E203B43515F434B464E203B2020202020202020202039343130,
  0x5320474E4F4C2052455454454C204C4C414D53204E4954414C20202020202020264C2023204E203B43515F434B464E203B2020202020202020202046373130,
  0x4A4E2052455454454C204C4C414D53204E4954414C2E2E4E4F5241432048544957205A442052455454454C204C415449504143204E4954414C205D395B202020264C2023204E203B43515F434B464E203B20202020434331302E2E34433130,
  0x5A442052455454454C204C4C414D53204E4954414C2E2E5A442052455454454C204C415449504143204E4954414C205D335B202020264C2023204E203B43515F434B464E203B20202020334631302E2E31463130,
  0x59204C4C414D532052455454454C205245494649444F4D2E2E48204C4C414D532052455454454C205245494649444F4D205D395B2020206D4C2023204E203B43515F434B464E203B20202020384232302E2E30423230,
  0x544E4543434120455455434120454C42554F442E2E4556455242205D365B2020206B532023204E203B43515F434B464E203B20202020444432302E2E38443230,
  0x504F5453204C4154544F4C47204445535245564552204C4C414D532052455454454C205245494649444F4D2E2E414D4D4147204C4C414D532052455454454C205245494649444F4D205D355B2020206D4C2023204E203B43515F434B464E203B20202020344532302E2E30453230,
  0x4B52414D20454E4F5420455455434120474E494E49424D4F432E2E4B52414D20454E4F5420455641524720474E494E49424D4F43205D325B2020206E4D2023204E203B43515F434B464E203B20202020313433302E2E30343330,
  0x534F4E4F5420414B4954594C414944204B4545524720474E494E49424D4F432E2E53494E4F524F4B204B4545524720474E494E49424D4F43205D325B2020206E4D2023204E203B43515F434B464E203B20202020343433302E2E33343330,
  0x4E474953204C4152454D554E204B45455247202020202020206D4C2023204E203B43515F434B464E203B2020202020202020202034373330,
  0x494E454D4D41524745474F5059204B45455247202020202020206D4C2023204E203B43515F434B464E203B2020202020202020202041373330,
  0x4B52414D204E4F495453455551204B45455247202020202020206F502023204E203B43515F434B464E203B2020202020202020202045373330,
  0x534F4E4F5420414B4954594C414944204B454552472E2E534F4E4F54204B45455247205D325B2020206B532023204E203B43515F434B464E203B20202020353833302E2E34383330,
  0x4149454C4554204F4E41204B45455247202020202020206F502023204E203B43515F434B464E203B2020202020202020202037383330,
  0x4C4F424D5953204950204B454552472E2E4C4F424D59532041544542204B45455247205D375B202020264C2023204E203B43515F434B464E203B20202020364433302E2E30443330,
  0x4C4F424D595320414D474953204554414E554C204B454552472E2E4C4F424D595320415050414B204B45455247205D335B202020264C2023204E203B43515F434B464E203B20202020324633302E2E30463330,
  0x4C4F424D5953204E4F4C49535045204554414E554C204B454552472E2E4C4F424D5953204154454854204C415449504143204B45455247205D325B202020264C2023204E203B43515F434B464E203B20202020354633302E2E34463330,
  0x4C4F424D595320414D474953204554414E554C204C415449504143204B4545524720202020202020264C2023204E203B43515F434B464E203B2020202020202020202039463330,
  0x4E5749592048434520455255544147494C204C4C414D53204E41494E454D524120202020202020264C2023204E203B43515F434B464E203B2020202020202020202037383530,
  0x48455920415A4D414820484749482052455454454C204349424152412E2E46454C4120415A4D414820484749482052455454454C20434942415241205D345B2020206F4C2023204E203B43515F434B464E203B20202020383736302E2E35373630,
  0x4159592052455454454C2049524147414E415645442E2E41512052455454454C2049524147414E41564544205D385B2020206F4C2023204E203B43515F434B464E203B20202020463539302E2E38353930,
  0x4148522052455454454C20494C41474E45422E2E4152522052455454454C20494C41474E4542205D325B2020206F4C2023204E203B43515F434B464E203B20202020444439302E2E43443930,
  0x4159592052455454454C20494C41474E4542202020202020206F4C2023204E203B43515F434B464E203B2020202020202020202046443930,
  0x414C4C2052455454454C2049484B554D525547202020202020206F4C2023204E203B43515F434B464E203B2020202020202020202033334130,
  0x4148532052455454454C2049484B554D525547202020202020206F4C2023204E203B43515F434B464E203B2020202020202020202036334130,
  0x415A2052455454454C2049484B554D5255472E2E4148484B2052455454454C2049484B554D525547205D335B2020206F4C2023204E203B43515F434B464E203B20202020423541302E2E39354130,
  0x41462052455454454C2049484B554D525547202020202020206F4C2023204E203B43515F434B464E203B2020202020202020202045354130,
  0x4148522052455454454C20415949524F2E2E4152522052455454454C20415949524F205D325B2020206F4C2023204E203B43515F434B464E203B20202020443542302E2E43354230,
  0x4D412041524153205245544341524148432049414854202020202020206F4C2023204E203B43515F434B464E203B2020202020202020202033334530,
  0x4D41204E474953204C45574F56204F414C202020202020206F4C2023204E203B43515F434B464E203B2020202020202020202033424530]

def qcText7 : List Nat := [
  0x4F4D204F48204F414C2E2E4F4E204F48204F414C205D325B2020206F4C2023204E203B43515F434B464E203B20202020444445302E2E43444530,
  0x524154534220474548535420524554494D494C4544204B52414D204E415445424954202020202020206F502023204E203B43515F434B464E203B2020202020202020202043304630,
  0x4148472052455454454C204E415445424954202020202020206F4C2023204E203B43515F434B464E203B2020202020202020202033344630,
  0x414844442052455454454C204E415445424954202020202020206F4C2023204E203B43515F434B464E203B2020202020202020202044344630,
  0x4148442052455454454C204E415445424954202020202020206F4C2023204E203B43515F434B464E203B2020202020202020202032354630,
  0x4148422052455454454C204E415445424954202020202020206F4C2023204E203B43515F434B464E203B2020202020202020202037354630,
  0x41485A442052455454454C204E415445424954202020202020206F4C2023204E203B43515F434B464E203B2020202020202020202043354630,
  0x4153534B2052455454454C204E415445424954202020202020206F4C2023204E203B43515F434B464E203B2020202020202020202039364630,
  0x4949204E474953204C45574F56204E415445424954202020202020206E4D2023204E203B43515F434B464E203B2020202020202020202033374630,
  0x4C4C2043494C41434F56204E474953204C45574F56204E4154454249542E2E5555204E474953204C45574F56204E415445424954205D355B2020206E4D2023204E203B43515F434B464E203B20202020393746302E2E35374630,
  0x4949204445535245564552204E474953204C45574F56204E415445424954202020202020206E4D2023204E203B43515F434B464E203B2020202020202020202031384630,
  0x4148472052455454454C2044454E494F4A425553204E415445424954202020202020206E4D2023204E203B43515F434B464E203B2020202020202020202033394630,
  0x414844442052455454454C2044454E494F4A425553204E415445424954202020202020206E4D2023204E203B43515F434B464E203B2020202020202020202044394630,
  0x4148442052455454454C2044454E494F4A425553204E415445424954202020202020206E4D2023204E203B43515F434B464E203B2020202020202020202032414630,
  0x4148422052455454454C2044454E494F4A425553204E415445424954202020202020206E4D2023204E203B43515F434B464E203B2020202020202020202037414630,
  0x41485A442052455454454C2044454E494F4A425553204E415445424954202020202020206E4D2023204E203B43515F434B464E203B2020202020202020202043414630,
  0x4153534B2052455454454C2044454E494F4A425553204E415445424954202020202020206E4D2023204E203B43515F434B464E203B2020202020202020202039424630,
  0x52414E204E414947524F45472052455454454C205245494649444F4D202020202020206D4C2023204E203B43515F434B464E203B2020202020202020202043463031,
  0x42204C4154495041432052455454454C205245494649444F4D2E2E41204C4154495041432052455454454C205245494649444F4D205D335B2020206D4C2023204E203B43515F434B464E203B20202020453244312E2E43324431,
  0x4E204C4154495041432052455454454C205245494649444F4D2E2E44204C4154495041432052455454454C205245494649444F4D205D31315B20206D4C2023204E203B43515F434B464E203B20202020413344312E2E30334431,
  0x47204C4C414D532052455454454C205245494649444F4D2E2E4F204C4154495041432052455454454C205245494649444F4D205D38315B20206D4C2023204E203B43515F434B464E203B20202020443444312E2E43334431,
  0x4948432052455454454C204C4C414D5320545049524353425553204B454552472E2E4B204C4C414D532052455454454C205245494649444F4D205D38325B20206D4C2023204E203B43515F434B464E203B20202020413644312E2E46344431,
  0x4E452043494C4C495259432052455454454C205245494649444F4D202020202020206D4C2023204E203B43515F434B464E203B2020202020202020202038374431,
  0x4154454854204C4C414D532052455454454C205245494649444F4D2E2E4148504C412044454E525554204C4C414D532052455454454C205245494649444F4D205D37335B20206D4C2023204E203B43515F434B464E203B20202020464244312E2E42394431,
  0x45564F424120544F442048544957205320474E4F4C2052455454454C204C4C414D53204E4954414C2E2E474E495220464C4148205448474952204854495720412052455454454C204C4C414D53204E4954414C205D325B202020264C2023204E203B43515F434B464E203B20202020423945312E2E41394531,
  0x4149584F2048544957204148504C412052455454454C204C4C414D53204B4545524720202020202020264C2023204E203B43515F434B464E203B2020202020202020202031374631,
  0x4149584F2048544957204E4F4C495350452052455454454C204C4C414D53204B4545524720202020202020264C2023204E203B43515F434B464E203B2020202020202020202033374631,
  0x4149584F2048544957204154452052455454454C204C4C414D53204B4545524720202020202020264C2023204E203B43515F434B464E203B2020202020202020202035374631,
  0x4149584F20485449572041544F492052455454454C204C4C414D53204B4545524720202020202020264C2023204E203B43515F434B464E203B2020202020202020202037374631,
  0x4149584F2048544957204E4F5243494D4F2052455454454C204C4C414D53204B4545524720202020202020264C2023204E203B43515F434B464E203B2020202020202020202039374631,
  0x4149584F2048544957204E4F4C495350552052455454454C204C4C414D53204B4545524720202020202020264C2023204E203B43515F434B464E203B2020202020202020202042374631,
  0x4149584F2048544957204147454D4F2052455454454C204C4C414D53204B4545524720202020202020264C2023204E203B43515F434B464E203B2020202020202020202044374631,
  0x4149584F2048544957204148504C412052455454454C204C415449504143204B4545524720202020202020264C2023204E203B43515F434B464E203B2020202020202020202042424631,
  0x53494E4F524F4B204B45455247202020202020206B532023204E203B43515F434B464E203B2020202020202020202044424631,
  0x494E454D4D4152474547534F5250204B4545524720202020202020264C2023204E203B43515F434B464E203B2020202020202020202045424631,
  0x494E454D4F50534952455020444E4120414B4954594C414944204B454552472E2E494C495350204B45455247205D335B2020206B532023204E203B43515F434B464E203B20202020314346312E2E46424631,
  0x4149584F2048544957204E4F4C495350452052455454454C204C415449504143204B4545524720202020202020264C2023204E203B43515F434B464E203B2020202020202020202039434631,
  0x4149584F2048544957204154452052455454454C204C415449504143204B4545524720202020202020264C2023204E203B43515F434B464E203B2020202020202020202042434631,
  0x494E454D4F50534952455020444E4120494C495350204B454552472E2E414952415620444E4120494C495350204B45455247205D335B2020206B532023204E203B43515F434B464E203B20202020464346312E2E44434631,
  0x4149584F20444E4120414B4954594C41494420485449572041544F492052455454454C204C4C414D53204B4545524720202020202020264C2023204E203B43515F434B464E203B2020202020202020202033444631,
  0x4149584F20485449572041544F492052455454454C204C415449504143204B4545524720202020202020264C2023204E203B43515F434B464E203B2020202020202020202042444631,
  0x494E454D4F50534952455020444E41204149534144204B454552472E2E414952415620444E41204149534144204B45455247205D335B2020206B532023204E203B43515F434B464E203B20202020464446312E2E44444631,
  0x4149584F20444E4120414B4954594C4149442048544957204E4F4C495350552052455454454C204C4C414D53204B4545524720202020202020264C2023204E203B43515F434B464E203B2020202020202020202033454631,
  0x4149584F2048544957204E4F4C495350552052455454454C204C415449504143204B4545524720202020202020264C2023204E203B43515F434B464E203B2020202020202020202042454631,
  0x4149524156204B454552472E2E414952415620444E4120414B4954594C414944204B45455247205D335B2020206B532023204E203B43515F434B464E203B20202020464546312E2E44454631,
  0x4149584F2048544957204E4F5243494D4F2052455454454C204C415449504143204B4545524720202020202020264C2023204E203B43515F434B464E203B2020202020202020202039464631,
  0x4149584F2048544957204147454D4F2052455454454C204C415449504143204B4545524720202020202020264C2023204E203B43515F434B464E203B2020202020202020202042464631,
  0x4149534144204B454552472E2E4149584F204B45455247205D325B2020206B532023204E203B43515F434B464E203B20202020454646312E2E44464631,
  0x454341505320524941482E2E44415551204E45205D31315B2020735A2023204E203B43515F434B464E203B20202020413030322E2E30303032,
  0x4E454850594820474E494B414552422D4E4F4E2020202020202064502023204E203B43515F434B464E203B2020202020202020202031313032,
  0x454E494C20574F4C20454C42554F44202020202020206F502023204E203B43515F434B464E203B2020202020202020202037313032,
  0x53495350494C4C45204C41544E4F5A49524F482E2E52454441454C20544F4420454E4F205D335B2020206F502023204E203B43515F434B464E203B20202020363230322E2E34323032,
  0x4543415053204B414552422D4F4E20574F5252414E20202020202020735A2023204E203B43515F434B464E203B2020202020202020202046323032,
  0x454D49525020454C504952542E2E454D49525020454C42554F44205D325B2020206F502023204E203B43515F434B464E203B20202020343330322E2E33333032,
  0x454D49525020454C504952542044455352455645522E2E454D49525020454C42554F44204445535245564552205D325B2020206F502023204E203B43515F434B464E203B20202020373330322E2E36333032,
  0x4B52414D204E4F4954414D414C43584520454C42554F44202020202020206F502023204E203B43515F434B464E203B2020202020202020202043333032,
  0x454E494C5245564F202020202020206F502023204E203B43515F434B464E203B2020202020202020202045333032,
  0x4B52414D204E4F495453455551204E4F4954414D414C4358452E2E4B52414D204E4F49545345555120454C42554F44205D335B2020206F502023204E203B43515F434B464E203B20202020393430322E2E37343032,
  0x454D49525020454C50555244415551202020202020206F502023204E203B43515F434B464E203B2020202020202020202037353032,
  0x4543415053204C41434954414D454854414D204D554944454D20202020202020735A2023204E203B43515F434B464E203B2020202020202020202046353032,
  0x4F52455A205450495243535245505553202020202020206F4E2023204E203B43515F434B464E203B2020202020202020202030373032,
  0x492052455454454C204C4C414D53204E4954414C205450495243535245505553202020202020206D4C2023204E203B43515F434B464E203B2020202020202020202031373032,
  0x454E494E2054504952435352455055532E2E52554F46205450495243535245505553205D365B2020206F4E2023204E203B43515F434B464E203B20202020393730322E2E34373032,
  0x4E47495320534C415551452054504952435352455055532E2E4E4749532053554C50205450495243535245505553205D335B2020206D532023204E203B43515F434B464E203B20202020433730322E2E41373032,
  0x5349534548544E45524150205446454C2054504952435352455055532020202020202073502023204E203B43515F434B464E203B2020202020202020202044373032,
  0x5349534548544E455241502054484749522054504952435352455055532020202020202065502023204E203B43515F434B464E203B2020202020202020202045373032,
  0x4E2052455454454C204C4C414D53204E4954414C205450495243535245505553202020202020206D4C2023204E203B43515F434B464E203B2020202020202020202046373032,
  0x454E494E205450495243534255532E2E4F52455A20545049524353425553205D30315B20206F4E2023204E203B43515F434B464E203B20202020393830322E2E30383032,
  0x4E47495320534C41555145205450495243534255532E2E4E4749532053554C5020545049524353425553205D335B2020206D532023204E203B43515F434B464E203B20202020433830322E2E41383032,
  0x5349534548544E45524150205446454C205450495243534255532020202020202073502023204E203B43515F434B464E203B2020202020202020202044383032,
  0x5349534548544E45524150205448474952205450495243534255532020202020202065502023204E203B43515F434B464E203B2020202020202020202045383032,
  0x542052455454454C204C4C414D5320545049524353425553204E4954414C2E2E412052455454454C204C4C414D5320545049524353425553204E4954414C205D33315B20206D4C2023204E203B43515F434B464E203B20202020433930322E2E30393032,
  0x4E4749532045455055522020202020202063532023204E203B43515F434B464E203B2020202020202020202038413032,
  0x5443454A42555320454854204F54204445535345524444412E2E464F20544E554F434341205D325B2020206F532023204E203B43515F434B464E203B20202020313031322E2E30303132,
  0x43204C415449504143204B43555254532D454C42554F4420202020202020264C2023204E203B43515F434B464E203B2020202020202020202032303132,
  0x535549534C454320454552474544202020202020206F532023204E203B43515F434B464E203B2020202020202020202033303132,
  0x414E5520414441432E2E464F2045524143205D325B2020206F532023204E203B43515F434B464E203B20202020363031322E2E35303132,
  0x544E4154534E4F432052454C554520202020202020264C2023204E203B43515F434B464E203B2020202020202020202037303132,
  0x544945484E455248414620454552474544202020202020206F532023204E203B43515F434B464E203B2020202020202020202039303132,
  0x4C204C4C414D53205450495243532E2E47204C4C414D5320545049524353205D30315B2020264C2023204E203B43515F434B464E203B20202020333131322E2E41303132,
  0x4E204C415449504143204B43555254532D454C42554F4420202020202020264C2023204E203B43515F434B464E203B2020202020202020202035313132,
  0x4E474953204F52454D554E202020202020206F532023204E203B43515F434B464E203B2020202020202020202036313132,
  0x52204C415449504143204B43555254532D454C42554F442E2E50204C415449504143204B43555254532D454C42554F44205D355B202020264C2023204E203B43515F434B464E203B20202020443131322E2E39313132,
  0x4E474953204B52414D2045444152542E2E4B52414D2045434956524553205D335B2020206F532023204E203B43515F434B464E203B20202020323231322E2E30323132,
  0x5A204C415449504143204B43555254532D454C42554F4420202020202020264C2023204E203B43515F434B464E203B2020202020202020202034323132,
  0x4E474953204D484F20202020202020264C2023204E203B43515F434B464E203B2020202020202020202036323132,
  0x5A204C4154495041432052455454454C2D4B43414C4220202020202020264C2023204E203B43515F434B464E203B2020202020202020202038323132,
  0x43204C4154495041432052455454454C2D4B43414C422E2E4E474953204E49564C454B205D345B202020264C2023204E203B43515F434B464E203B20202020443231322E2E41323132,
  0x46204C415449504143205450495243532E2E45204C4C414D5320545049524353205D335B202020264C2023204E203B43515F434B464E203B20202020313331322E2E46323132,
  0x4F204C4C414D53205450495243532E2E4D204C41544950414320545049524353205D325B202020264C2023204E203B43515F434B464E203B20202020343331322E2E33333132,
  0x4C4F424D59532054454C41442E2E4C4F424D59532046454C41205D345B2020206F4C2023204E203B43515F434B464E203B20202020383331322E2E35333132,
  0x454352554F53204E4F4954414D524F464E4920202020202020264C2023204E203B43515F434B464E203B2020202020202020202039333132,
  0x4E47495320454C494D4953434146202020202020206F532023204E203B43515F434B464E203B2020202020202020202042333132,
  0x4950204C415449504143204B43555254532D454C42554F442E2E4950204C4C414D53204B43555254532D454C42554F44205D345B202020264C2023204E203B43515F434B464E203B20202020463331322E2E43333132,
  0x4E4F4954414D4D5553205952412D4E204B43555254532D454C42554F44202020202020206D532023204E203B43515F434B464E203B2020202020202020202030343132,
  0x4A204C4C414D532043494C415449204B43555254532D454C42554F442E2E44204C4154495041432043494C415449204B43555254532D454C42554F44205D355B202020264C2023204E203B43515F434B464E203B20202020393431322E2E35343132,
  0x454E4F20524F544152454D554E204E4F4954434152462E2E48544E4556455320454E4F204E4F495443415246205241474C5556205D36315B20206F4E2023204E203B43515F434B464E203B20202020463531322E2E30353132,
  0x444E4153554F485420454E4F204C4152454D554E204E414D4F52204C4C414D532E2E454E4F204C4152454D554E204E414D4F52205D32335B20206C4E2023204E203B43515F434B464E203B20202020463731322E2E30363132,
  0x534452494854204F52455A204E4F495443415246205241474C5556202020202020206F4E2023204E203B43515F434B464E203B2020202020202020202039383132,
  0x4C41524745544E4920454C504952542E2E4C41524745544E4920454C42554F44205D325B2020206D532023204E203B43515F434B464E203B20202020443232322E2E43323232,
  0x4C41524745544E4920454D554C4F562E2E4C41524745544E492045434146525553205D325B2020206D532023204E203B43515F434B464E203B20202020303332322E2E46323232,
  0x54454B4341524220454C474E4120474E49544E494F502D5446454C2020202020202073502023204E203B43515F434B464E203B2020202020202020202039323332,
  0x54454B4341524220454C474E4120474E49544E494F502D54484749522020202020202065502023204E203B43515F434B464E203B2020202020202020202041323332,
  0x504F5453204C4C55462059544E455754205245424D554E2E2E454E4F2054494749442044454C43524943205D30365B20206F4E2023204E203B43515F434B464E203B20202020423934322E2E30363432,
  0x5A2052455454454C204C4C414D53204E4954414C2044454C435249432E2E412052455454454C204C4C414D53204E4954414C2044455A49534548544E45524150205D38375B20206F532023204E203B43515F434B464E203B20202020394534322E2E43393432,
  0x4F52455A2054494749442044454C43524943202020202020206F4E2023204E203B43515F434B464E203B2020202020202020202041453432,
  0x524F54415245504F204C41524745544E4920454C50555244415551202020202020206D532023204E203B43515F434B464E203B2020202020202020202043304132,
  0x534E47495320534C415551452045564954554345534E4F432045455248542E2E4C41555145204E4F4C4F4320454C42554F44205D335B2020206D532023204E203B43515F434B464E203B20202020363741322E2E34374132,
  0x474E494B524F46202020202020206D532023204E203B43515F434B464E203B2020202020202020202043444132,
  0x56204C4154495041432052455454454C205245494649444F4D2E2E4A2052455454454C204C4C414D5320545049524353425553204E4954414C205D325B2020206D4C2023204E203B43515F434B464E203B20202020443743322E2E43374332,
  0x4B52414D204E4F4954415A494C414942414C2052455454454C205245494649444F4D204847414E49464954202020202020206D4C2023204E203B43515F434B464E203B2020202020202020202046364432,
  0x524548544F4D204C414349444152204B4A43202020202020206F532023204E203B43515F434B464E203B2020202020202020202046394532,
  0x454C545255542044454946494C504D49532D43204C414349444152204B4A43202020202020206F532023204E203B43515F434B464E203B2020202020202020202033464532,
  0x4554554C46204C414349444152204958474E414B2E2E454E4F204C414349444152204958474E414B205D3431325B206F532023204E203B43515F434B464E203B20202020354446322E2E30304632,
  0x454341505320434948504152474F45444920202020202020735A2023204E203B43515F434B464E203B2020202020202020202030303033,
  0x4B52414D204C4154534F502044454C43524943202020202020206F532023204E203B43515F434B464E203B2020202020202020202036333033,
  0x595452494854204C4152454D554E20554F485A474E41482E2E4E4554204C4152454D554E20554F485A474E4148205D335B2020206C4E2023204E203B43515F434B464E203B20202020413330332E2E38333033,
  0x4B52414D20444E554F5320444543494F562D494D455320414E4147415249482D414E414B4154414B2E2E4B52414D20444E554F5320444543494F5620414E4147415249482D414E414B4154414B205D325B2020206B532023204E203B43515F434B464E203B20202020433930332E2E42393033,
  0x49524F59204850415247494420414E414741524948202020202020206F4C2023204E203B43515F434B464E203B2020202020202020202046393033,
  0x4F544F4B204850415247494420414E414B4154414B202020202020206F4C2023204E203B43515F434B464E203B2020202020202020202046463033,
  0x4541454152412052455454454C204C55474E41482E2E4B4F4559494B2052455454454C204C55474E4148205D34395B20206F4C2023204E203B43515F434B464E203B20202020453831332E2E31333133,
  0x4B52414D2052554F46204E4F495441544F4E4E4120434948504152474F4544492E2E4B52414D20454E4F204E4F495441544F4E4E4120434948504152474F454449205D345B2020206F4E2023204E203B43515F434B464E203B20202020353931332E2E32393133,
  0x4B52414D204E414D204E4F495441544F4E4E4120434948504152474F4544492E2E4B52414D20504F54204E4F495441544F4E4E4120434948504152474F454449205D30315B20206F532023204E203B43515F434B464E203B20202020463931332E2E36393133,
  0x5548204F20524554434152414843204E4145524F4B2044455A49534548544E455241502E2E4B4F4559494B204C55474E41482044455A49534548544E45524150205D31335B20206F532023204E203B43515F434B464E203B20202020453132332E2E30303233,
  0x4E45542048504152474F4544492044455A49534548544E455241502E2E454E4F2048504152474F4544492044455A49534548544E45524150205D30315B20206F4E2023204E203B43515F434B464E203B20202020393232332E2E30323233,
  0x4F544F4B2048504152474F4544492044454C435249432E2E4E4F4F4D2048504152474F4544492044455A49534548544E45524150205D30335B20206F532023204E203B43515F434B464E203B20202020373432332E2E41323233,
  0x4E474953205049485352454E54524150202020202020206F532023204E203B43515F434B464E203B2020202020202020202030353233,
  0x4556494620595452494854205245424D554E2044454C435249432E2E454E4F2059544E455754205245424D554E2044454C43524943205D35315B20206F4E2023204E203B43515F434B464E203B20202020463532332E2E31353233,
  0x5520474E554549204C55474E41482044454C435249432E2E4B4F4559494B204C55474E41482044454C43524943205D31335B20206F532023204E203B43515F434B464E203B20202020453732332E2E30363233,
  0x4E45542048504152474F4544492044454C435249432E2E454E4F2048504152474F4544492044454C43524943205D30315B20206F4E2023204E203B43515F434B464E203B20202020393832332E2E30383233,
  0x544847494E2048504152474F4544492044454C435249432E2E4E4F4F4D2048504152474F4544492044454C43524943205D39335B20206F532023204E203B43515F434B464E203B20202020304232332E2E41383233,
  0x5954464946205245424D554E2044454C435249432E2E58495320595452494854205245424D554E2044454C43524943205D35315B20206F4E2023204E203B43515F434B464E203B20202020464232332E2E31423233,
  0x4C4147204552415551532E2E595241554E414A20524F46204C4F424D5953204850415247454C455420434948504152474F454449205D3032335B206F532023204E203B43515F434B464E203B20202020464633332E2E30433233,
  0x4E4749532054464F532043494C4C495259432052455454454C205245494649444F4D2E2E4E47495320445241482043494C4C495259432052455454454C205245494649444F4D205D325B2020206D4C2023204E203B43515F434B464E203B20202020443936412E2E43393641,
  0x53552052455454454C205245494649444F4D202020202020206D4C2023204E203B43515F434B464E203B2020202020202020202030373741,
  0x454F20455255544147494C204C4C414D532052455454454C205245494649444F4D2E2E454B4F52545320485449572048204C4154495041432052455454454C205245494649444F4D205D325B2020206D4C2023204E203B43515F434B464E203B20202020394637412E2E38463741,
  0x4B4F4F48205446454C20485449572055204C4C414D532052455454454C205245494649444F4D2E2E474E4548204C4C414D532052455454454C205245494649444F4D205D345B2020206D4C2023204E203B43515F434B464E203B20202020463542412E2E43354241,
  0x572044454E525554204C4C414D532052455454454C205245494649444F4D202020202020206D4C2023204E203B43515F434B464E203B2020202020202020202039364241,
  0x443041462D48504152474F454449205954494C4942495441504D4F43204B4A432E2E303039462D48504152474F454449205954494C4942495441504D4F43204B4A43205D3037325B206F4C2023204E203B43515F434B464E203B20202020443041462E2E30303946,
  0x303141462D48504152474F454449205954494C4942495441504D4F43204B4A43202020202020206F4C2023204E203B43515F434B464E203B2020202020202020202030314146,
  0x323141462D48504152474F454449205954494C4942495441504D4F43204B4A43202020202020206F4C2023204E203B43515F434B464E203B2020202020202020202032314146,
  0x453141462D48504152474F454449205954494C4942495441504D4F43204B4A432E2E353141462D48504152474F454449205954494C4942495441504D4F43204B4A43205D30315B20206F4C2023204E203B43515F434B464E203B20202020453141462E2E35314146,
  0x303241462D48504152474F454449205954494C4942495441504D4F43204B4A43202020202020206F4C2023204E203B43515F434B464E203B2020202020202020202030324146,
  0x323241462D48504152474F454449205954494C4942495441504D4F43204B4A43202020202020206F4C2023204E203B43515F434B464E203B2020202020202020202032324146,
  0x363241462D48504152474F454449205954494C4942495441504D4F43204B4A432E2E353241462D48504152474F454449205954494C4942495441504D4F43204B4A43205D325B2020206F4C2023204E203B43515F434B464E203B20202020363241462E2E35324146,
  0x443641462D48504152474F454449205954494C4942495441504D4F43204B4A432E2E413241462D48504152474F454449205954494C4942495441504D4F43204B4A43205D38365B20206F4C2023204E203B43515F434B464E203B20202020443641462E2E41324146,
  0x394441462D48504152474F454449205954494C4942495441504D4F43204B4A432E2E303741462D48504152474F454449205954494C4942495441504D4F43204B4A43205D3630315B206F4C2023204E203B43515F434B464E203B20202020394441462E2E30374146,
  0x545320455255544147494C204C4C414D53204E4954414C2E2E464620455255544147494C204C4C414D53204E4954414C205D375B202020264C2023204E203B43515F434B464E203B20202020363042462E2E30304246,
  0x484558204E454D20455255544147494C204C4C414D53204E41494E454D52412E2E574F4E204E454D20455255544147494C204C4C414D53204E41494E454D5241205D355B202020264C2023204E203B43515F434B464E203B20202020373142462E2E33314246,
  0x5149524948204854495720444F592052455454454C20574552424548202020202020206F4C2023204E203B43515F434B464E203B2020202020202020202044314246,
  0x56415420454449572052455454454C205745524245482E2E484154415020444F5920444F59204853494444495920455255544147494C20574552424548205D30315B20206F4C2023204E203B43515F434B464E203B20202020383242462E2E46314246,
  0x4E4749532053554C502045564954414E5245544C412052455454454C20574552424548202020202020206D532023204E203B43515F434B464E203B2020202020202020202039324246,
  0x4853454741442048544957204E4959415A2052455454454C205745524245482E2E544F44204E4948532048544957204E4948532052455454454C20574552424548205D33315B20206F4C2023204E203B43515F434B464E203B20202020363342462E2E41324246,
  0x48534547414420485449572044454D414C2052455454454C205745524245482E2E4853454741442048544957205445542052455454454C20574552424548205D355B2020206F4C2023204E203B43515F434B464E203B20202020433342462E2E38334246,
  0x4853454741442048544957204D454D2052455454454C20574552424548202020202020206F4C2023204E203B43515F434B464E203B2020202020202020202045334246,
  0x485345474144204854495720484B454D41532052455454454C205745524245482E2E4853454741442048544957204E554E2052455454454C20574552424548205D325B2020206F4C2023204E203B43515F434B464E203B20202020313442462E2E30344246,
  0x48534547414420485449572045502052455454454C205745524245482E2E4853454741442048544957204550204C414E49462052455454454C20574552424548205D325B2020206F4C2023204E203B43515F434B464E203B20202020343442462E2E33344246,
  0x4D524F46204C414E49462045564F424120415A4D4148204854495720454552524142204845592052455454454C204349424152412E2E48534547414420485449572049444153542052455454454C20574552424548205D3830315B206F4C2023204E203B43515F434B464E203B20202020314242462E2E36344246,
  0x4D524F4620444554414C4F5349204E4154414854414620485449572046454C4120455255544147494C204349424152412E2E4D524F4620444554414C4F534920474E2052455454454C20434942415241205D3336335B206F4C2023204E203B43515F434B464E203B20202020443344462E2E33444246,
  0x4D524F46204C414954494E49204D45454D2048544957204841484B2048544957204D45454D20455255544147494C204349424152412E2E4D524F46204C414954494E49204D45454D2048544957204D45454A20485449572048455420455255544147494C20434942415241205D34365B20206F4C2023204E203B43515F434B464E203B20202020463844462E2E30354446,
  0x4D524F46204C414E4946204845592048544957204D45454A2048544957204E4F4F4E20455255544147494C204349424152412E2E4D524F46204C414954494E49204841484B2048544957204D45454A2048544957204D45454D20455255544147494C20434942415241205D34355B20206F4C2023204E203B43515F434B464E203B20202020374344462E2E32394446,
  0x554F48554F4C414C414A414C4C414A20455255544147494C204349424152412E2E4D524F4620444554414C4F5349204E47495320504F54532043494E41524F4B205341204445535520414C4C415320455255544147494C20434942415241205D32315B20206F4C2023204E203B43515F434B464E203B20202020424644462E2E30464446,
  0x4E474953204C4149522020202020202063532023204E203B43515F434B464E203B2020202020202020202043464446,
  0x4B52414D204E4F495453455551204C4143495452455620524F46204D524F46204E4F495441544E45534552502E2E414D4D4F43204C4143495452455620524F46204D524F46204E4F495441544E4553455250205D375B2020206F502023204E203B43515F434B464E203B20202020363145462E2E30314546,
  0x54454B434152422052414C554349544E454C204554494857205446454C204C4143495452455620524F46204D524F46204E4F495441544E45534552502020202020202073502023204E203B43515F434B464E203B2020202020202020202037314546,
  0x5445434B4152422052414C554349544E454C204554494857205448474952204C4143495452455620524F46204D524F46204E4F495441544E45534552502020202020202065502023204E203B43515F434B464E203B2020202020202020202038314546,
  0x53495350494C4C45204C41544E4F5A49524F48204C4143495452455620524F46204D524F46204E4F495441544E4553455250202020202020206F502023204E203B43515F434B464E203B2020202020202020202039314546,
  0x52454441454C20544F44204F5754204C4143495452455620524F46204D524F46204E4F495441544E4553455250202020202020206F502023204E203B43515F434B464E203B2020202020202020202030334546,
  0x48534144204E45204C4143495452455620524F46204D524F46204E4F495441544E45534552502E2E48534144204D45204C4143495452455620524F46204D524F46204E4F495441544E4553455250205D325B20202064502023204E203B43515F434B464E203B20202020323345462E2E31334546,
  0x454E494C20574F4C2059564157204C4143495452455620524F46204D524F46204E4F495441544E45534552502E2E454E494C20574F4C204C4143495452455620524F46204D524F46204E4F495441544E4553455250205D325B20202063502023204E203B43515F434B464E203B20202020343345462E2E33334546,
  0x5349534548544E45524150205446454C204C4143495452455620524F46204D524F46204E4F495441544E45534552502020202020202073502023204E203B43515F434B464E203B2020202020202020202035334546,
  0x5349534548544E45524150205448474952204C4143495452455620524F46204D524F46204E4F495441544E45534552502020202020202065502023204E203B43515F434B464E203B2020202020202020202036334546,
  0x54454B4341524220594C525543205446454C204C4143495452455620524F46204D524F46204E4F495441544E45534552502020202020202073502023204E203B43515F434B464E203B2020202020202020202037334546,
  0x54454B4341524220594C525543205448474952204C4143495452455620524F46204D524F46204E4F495441544E45534552502020202020202065502023204E203B43515F434B464E203B2020202020202020202038334546,
  0x54454B43415242204C4C454853204553494F54524F54205446454C204C4143495452455620524F46204D524F46204E4F495441544E45534552502020202020202073502023204E203B43515F434B464E203B2020202020202020202039334546,
  0x54454B43415242204C4C454853204553494F54524F54205448474952204C4143495452455620524F46204D524F46204E4F495441544E45534552502020202020202065502023204E203B43515F434B464E203B2020202020202020202041334546,
  0x54454B434152422052414C554349544E454C204B43414C42205446454C204C4143495452455620524F46204D524F46204E4F495441544E45534552502020202020202073502023204E203B43515F434B464E203B2020202020202020202042334546,
  0x54454B434152422052414C554349544E454C204B43414C42205448474952204C4143495452455620524F46204D524F46204E4F495441544E45534552502020202020202065502023204E203B43515F434B464E203B2020202020202020202043334546,
  0x54454B4341524220454C474E4120454C42554F44205446454C204C4143495452455620524F46204D524F46204E4F495441544E45534552502020202020202073502023204E203B43515F434B464E203B2020202020202020202044334546,
  0x54454B4341524220454C474E4120454C42554F44205448474952204C4143495452455620524F46204D524F46204E4F495441544E45534552502020202020202065502023204E203B43515F434B464E203B2020202020202020202045334546,
  0x54454B4341524220454C474E41205446454C204C4143495452455620524F46204D524F46204E4F495441544E45534552502020202020202073502023204E203B43515F434B464E203B2020202020202020202046334546,
  0x54454B4341524220454C474E41205448474952204C4143495452455620524F46204D524F46204E4F495441544E45534552502020202020202065502023204E203B43515F434B464E203B2020202020202020202030344546,
  0x54454B434152422052454E524F43205446454C204C4143495452455620524F46204D524F46204E4F495441544E45534552502020202020202073502023204E203B43515F434B464E203B2020202020202020202031344546,
  0x54454B434152422052454E524F43205448474952204C4143495452455620524F46204D524F46204E4F495441544E45534552502020202020202065502023204E203B43515F434B464E203B2020202020202020202032344546,
  0x54454B434152422052454E524F43204554494857205446454C204C4143495452455620524F46204D524F46204E4F495441544E45534552502020202020202073502023204E203B43515F434B464E203B2020202020202020202033344546,
  0x54454B434152422052454E524F43204554494857205448474952204C4143495452455620524F46204D524F46204E4F495441544E45534552502020202020202065502023204E203B43515F434B464E203B2020202020202020202034344546,
  0x54454B4341524220455241555153205446454C204C4143495452455620524F46204D524F46204E4F495441544E45534552502020202020202073502023204E203B43515F434B464E203B2020202020202020202037344546,
  0x54454B4341524220455241555153205448474952204C4143495452455620524F46204D524F46204E4F495441544E45534552502020202020202065502023204E203B43515F434B464E203B2020202020202020202038344546,
  0x454E494C5245564F205956415720454C42554F442E2E454E494C5245564F20444548534144205D345B2020206F502023204E203B43515F434B464E203B20202020433445462E2E39344546,
  0x454E494C20574F4C20595641572E2E454E494C20574F4C20444548534144205D335B20202063502023204E203B43515F434B464E203B20202020463445462E2E44344546,
  0x504F5453204C4C5546204C4C414D532E2E414D4D4F43204C4C414D53205D335B2020206F502023204E203B43515F434B464E203B20202020323545462E2E30354546,
  0x4B52414D204E4F4954414D414C435845204C4C414D532E2E4E4F4C4F43494D4553204C4C414D53205D345B2020206F502023204E203B43515F434B464E203B20202020373545462E2E34354546,
  0x48534144204D45204C4C414D532020202020202064502023204E203B43515F434B464E203B2020202020202020202038354546,
  0x5349534548544E45524150205446454C204C4C414D532020202020202073502023204E203B43515F434B464E203B2020202020202020202039354546,
  0x5349534548544E45524150205448474952204C4C414D532020202020202065502023204E203B43515F434B464E203B2020202020202020202041354546,
  0x54454B4341524220594C525543205446454C204C4C414D532020202020202073502023204E203B43515F434B464E203B2020202020202020202042354546,
  0x54454B4341524220594C525543205448474952204C4C414D532020202020202065502023204E203B43515F434B464E203B2020202020202020202043354546,
  0x54454B43415242204C4C454853204553494F54524F54205446454C204C4C414D532020202020202073502023204E203B43515F434B464E203B2020202020202020202044354546,
  0x54454B43415242204C4C454853204553494F54524F54205448474952204C4C414D532020202020202065502023204E203B43515F434B464E203B2020202020202020202045354546,
  0x4B53495245545341204C4C414D532E2E4E474953205245424D554E204C4C414D53205D335B2020206F502023204E203B43515F434B464E203B20202020313645462E2E46354546,
  0x4E4749532053554C50204C4C414D53202020202020206D532023204E203B43515F434B464E203B2020202020202020202032364546,
  0x53554E494D2D4E4548505948204C4C414D532020202020202064502023204E203B43515F434B464E203B2020202020202020202033364546,
  0x4E47495320534C41555145204C4C414D532E2E4E474953204E4148542D5353454C204C4C414D53205D335B2020206D532023204E203B43515F434B464E203B20202020363645462E2E34364546,
  0x535544494C4F532045535245564552204C4C414D53202020202020206F502023204E203B43515F434B464E203B2020202020202020202038364546,
  0x4E4749532052414C4C4F44204C4C414D532020202020202063532023204E203B43515F434B464E203B2020202020202020202039364546,
  0x5441204C41494352454D4D4F43204C4C414D532E2E4E47495320544E4543524550204C4C414D53205D325B2020206F502023204E203B43515F434B464E203B20202020423645462E2E41364546,
  0x4D524F4620444554414C4F5349204E4154414D4D4144204349424152412E2E4D524F4620444554414C4F5349204E4154414854414620434942415241205D335B2020206F4C2023204E203B43515F434B464E203B20202020323745462E2E30374546,
  0x4D524F4620444554414C4F5349204E4154415253414B20434942415241202020202020206F4C2023204E203B43515F434B464E203B2020202020202020202034374546,
  0x4D524F46204C414E49462046454C412048544957204D414C20455255544147494C204349424152412E2E4D524F4620444554414C4F534920414854414620434942415241205D3533315B206F4C2023204E203B43515F434B464E203B20202020434645462E2E36374546,
  0x4E474953205245424D554E2048544449574C4C55462E2E4B52414D204E4F4954414D414C4358452048544449574C4C5546205D335B2020206F502023204E203B43515F434B464E203B20202020333046462E2E31304646,
  0x4E4749532052414C4C4F442048544449574C4C55462020202020202063532023204E203B43515F434B464E203B2020202020202020202034304646,
  0x4548504F5254534F50412048544449574C4C55462E2E4E47495320544E45435245502048544449574C4C5546205D335B2020206F502023204E203B43515F434B464E203B20202020373046462E2E35304646,
  0x5349534548544E45524150205446454C2048544449574C4C55462020202020202073502023204E203B43515F434B464E203B2020202020202020202038304646,
  0x5349534548544E455241502054484749522048544449574C4C55462020202020202065502023204E203B43515F434B464E203B2020202020202020202039304646,
  0x4B534952455453412048544449574C4C5546202020202020206F502023204E203B43515F434B464E203B2020202020202020202041304646,
  0x4E4749532053554C502048544449574C4C5546202020202020206D532023204E203B43515F434B464E203B2020202020202020202042304646,
  0x414D4D4F432048544449574C4C5546202020202020206F502023204E203B43515F434B464E203B2020202020202020202043304646,
  0x53554E494D2D4E45485059482048544449574C4C55462020202020202064502023204E203B43515F434B464E203B2020202020202020202044304646,
  0x535544494C4F532048544449574C4C55462E2E504F5453204C4C55462048544449574C4C5546205D325B2020206F502023204E203B43515F434B464E203B20202020463046462E2E45304646,
  0x454E494E2054494749442048544449574C4C55462E2E4F52455A2054494749442048544449574C4C5546205D30315B2020644E2023204E203B43515F434B464E203B20202020393146462E2E30314646,
  0x4E4F4C4F43494D45532048544449574C4C55462E2E4E4F4C4F432048544449574C4C5546205D325B2020206F502023204E203B43515F434B464E203B20202020423146462E2E41314646,
  0x4E474953204E4148542D524554414552472048544449574C4C55462E2E4E474953204E4148542D5353454C2048544449574C4C5546205D335B2020206D532023204E203B43515F434B464E203B20202020453146462E2E43314646,
  0x5441204C41494352454D4D4F432048544449574C4C55462E2E4B52414D204E4F4954534555512048544449574C4C5546205D325B2020206F502023204E203B43515F434B464E203B20202020303246462E2E46314646,
  0x5A2052455454454C204C415449504143204E4954414C2048544449574C4C55462E2E412052455454454C204C415449504143204E4954414C2048544449574C4C5546205D36325B2020264C2023204E203B43515F434B464E203B20202020413346462E2E31324646,
  0x54454B4341524220455241555153205446454C2048544449574C4C55462020202020202073502023204E203B43515F434B464E203B2020202020202020202042334646,
  0x535544494C4F5320455352455645522048544449574C4C5546202020202020206F502023204E203B43515F434B464E203B2020202020202020202043334646,
  0x54454B43415242204552415551532054484749522048544449574C4C55462020202020202065502023204E203B43515F434B464E203B2020202020202020202044334646,
  0x544E454343412058454C464D55435249432048544449574C4C5546202020202020206B532023204E203B43515F434B464E203B2020202020202020202045334646,
  0x454E494C20574F4C2048544449574C4C55462020202020202063502023204E203B43515F434B464E203B2020202020202020202046334646,
  0x544E454343412045564152472048544449574C4C5546202020202020206B532023204E203B43515F434B464E203B2020202020202020202030344646,
  0x5A2052455454454C204C4C414D53204E4954414C2048544449574C4C55462E2E412052455454454C204C4C414D53204E4954414C2048544449574C4C5546205D36325B2020264C2023204E203B43515F434B464E203B20202020413546462E2E31344646,
  0x54454B4341524220594C525543205446454C2048544449574C4C55462020202020202073502023204E203B43515F434B464E203B2020202020202020202042354646,
  0x454E494C204C414349545245562048544449574C4C5546202020202020206D532023204E203B43515F434B464E203B2020202020202020202043354646,
  0x54454B4341524220594C5255432054484749522048544449574C4C55462020202020202065502023204E203B43515F434B464E203B2020202020202020202044354646,
  0x45444C49542048544449574C4C5546202020202020206D532023204E203B43515F434B464E203B2020202020202020202045354646,
  0x5349534548544E45524150204554494857205446454C2048544449574C4C55462020202020202073502023204E203B43515F434B464E203B2020202020202020202046354646,
  0x5349534548544E455241502045544948572054484749522048544449574C4C55462020202020202065502023204E203B43515F434B464E203B2020202020202020202030364646,
  0x504F5453204C4C554620434948504152474F454449204854444957464C4148202020202020206F502023204E203B43515F434B464E203B2020202020202020202031364646,
  0x54454B434152422052454E524F43205446454C204854444957464C41482020202020202073502023204E203B43515F434B464E203B2020202020202020202032364646,
  0x54454B434152422052454E524F43205448474952204854444957464C41482020202020202065502023204E203B43515F434B464E203B2020202020202020202033364646,
  0x544F4420454C4444494D20414E414B4154414B204854444957464C41482E2E414D4D4F4320434948504152474F454449204854444957464C4148205D325B2020206F502023204E203B43515F434B464E203B20202020353646462E2E34364646,
  0x5554204C4C414D532052455454454C20414E414B4154414B204854444957464C41482E2E4F572052455454454C20414E414B4154414B204854444957464C4148205D30315B20206F4C2023204E203B43515F434B464E203B20202020463646462E2E36364646,
  0x4B52414D20444E554F53204445474E4F4C4F525020414E4147415249482D414E414B4154414B204854444957464C4148202020202020206D4C2023204E203B43515F434B464E203B2020202020202020202030374646,
  0x4E2052455454454C20414E414B4154414B204854444957464C41482E2E412052455454454C20414E414B4154414B204854444957464C4148205D35345B20206F4C2023204E203B43515F434B464E203B20202020443946462E2E31374646,
  0x4B52414D20444E554F5320444543494F562D494D455320414E414B4154414B204854444957464C41482E2E4B52414D20444E554F5320444543494F5620414E414B4154414B204854444957464C4148205D325B2020206D4C2023204E203B43515F434B464E203B20202020463946462E2E45394646,
  0x48554549482052455454454C204C55474E4148204854444957464C41482E2E52454C4C4946204C55474E4148204854444957464C4148205D31335B20206F4C2023204E203B43515F434B464E203B20202020454246462E2E30414646,
  0x452052455454454C204C55474E4148204854444957464C41482E2E412052455454454C204C55474E4148204854444957464C4148205D365B2020206F4C2023204E203B43515F434B464E203B20202020374346462E2E32434646,
  0x454F2052455454454C204C55474E4148204854444957464C41482E2E4F45592052455454454C204C55474E4148204854444957464C4148205D365B2020206F4C2023204E203B43515F434B464E203B20202020464346462E2E41434646,
  0x55592052455454454C204C55474E4148204854444957464C41482E2E4F592052455454454C204C55474E4148204854444957464C4148205D365B2020206F4C2023204E203B43515F434B464E203B20202020374446462E2E32444646,
  0x492052455454454C204C55474E4148204854444957464C41482E2E55452052455454454C204C55474E4148204854444957464C4148205D335B2020206F4C2023204E203B43515F434B464E203B20202020434446462E2E41444646]

def qcText8 : List Nat := [
  0x4E47495320444E554F502048544449574C4C55462E2E4E47495320544E45432048544449574C4C5546205D325B20202063532023204E203B43515F434B464E203B20202020314546462E2E30454646,
  0x4E47495320544F4E2048544449574C4C5546202020202020206D532023204E203B43515F434B464E203B2020202020202020202032454646,
  0x4E4F5243414D2048544449574C4C5546202020202020206B532023204E203B43515F434B464E203B2020202020202020202033454646,
  0x524142204E454B4F52422048544449574C4C5546202020202020206F532023204E203B43515F434B464E203B2020202020202020202034454646,
  0x4E474953204E4F572048544449574C4C55462E2E4E474953204E45592048544449574C4C5546205D325B20202063532023204E203B43515F434B464E203B20202020364546462E2E35454646,
  0x4C4143495452455620544847494C20534D524F46204854444957464C4148202020202020206F532023204E203B43515F434B464E203B2020202020202020202038454646,
  0x574F5252412053445241574E574F44204854444957464C41482E2E574F5252412053445241575446454C204854444957464C4148205D345B2020206D532023204E203B43515F434B464E203B20202020434546462E2E39454646,
  0x454C43524943204554494857204854444957464C41482E2E455241555153204B43414C42204854444957464C4148205D325B2020206F532023204E203B43515F434B464E203B20202020454546462E2E44454646,
  0x45544F4E204854484749452D59544E45575420444552444E554820454E4F204C4F424D5953204C41434953554D2E2E45544F4E20464C4148204C4F424D5953204C41434953554D205D375B2020206F532023204E203B43515F434B464E203B202034363144312E2E4535314431,
  0x4B43414C422041535546204C4F424D5953204C41434953554D2E2E414D494E494D204C4F424D5953204C41434953554D205D365B2020206F532023204E203B43515F434B464E203B202030433144312E2E4242314431,
  0x47204C4C414D532043494C415449204C41434954414D454854414D2E2E41204C41544950414320444C4F42204C41434954414D454854414D205D35385B2020264C2023204E203B43515F434B464E203B202034353444312E2E3030344431,
  0x41204C41544950414320545049524353204C41434954414D454854414D2E2E49204C4C414D532043494C415449204C41434954414D454854414D205D31375B2020264C2023204E203B43515F434B464E203B202043393444312E2E3635344431,
  0x44204C41544950414320545049524353204C41434954414D454854414D2E2E43204C41544950414320545049524353204C41434954414D454854414D205D325B202020264C2023204E203B43515F434B464E203B202046393444312E2E4539344431,
  0x47204C41544950414320545049524353204C41434954414D454854414D20202020202020264C2023204E203B43515F434B464E203B2020202020202020203241344431,
  0x4B204C41544950414320545049524353204C41434954414D454854414D2E2E4A204C41544950414320545049524353204C41434954414D454854414D205D325B202020264C2023204E203B43515F434B464E203B202036413444312E2E3541344431,
  0x51204C41544950414320545049524353204C41434954414D454854414D2E2E4E204C41544950414320545049524353204C41434954414D454854414D205D345B202020264C2023204E203B43515F434B464E203B202043413444312E2E3941344431,
  0x44204C4C414D5320545049524353204C41434954414D454854414D2E2E53204C41544950414320545049524353204C41434954414D454854414D205D32315B2020264C2023204E203B43515F434B464E203B202039423444312E2E4541344431,
  0x46204C4C414D5320545049524353204C41434954414D454854414D20202020202020264C2023204E203B43515F434B464E203B2020202020202020204242344431,
  0x4E204C4C414D5320545049524353204C41434954414D454854414D2E2E48204C4C414D5320545049524353204C41434954414D454854414D205D375B202020264C2023204E203B43515F434B464E203B202033433444312E2E4442344431,
  0x42204C415449504143205255544B415246204C41434954414D454854414D2E2E50204C4C414D5320545049524353204C41434954414D454854414D205D35365B2020264C2023204E203B43515F434B464E203B202035303544312E2E3543344431,
  0x47204C415449504143205255544B415246204C41434954414D454854414D2E2E44204C415449504143205255544B415246204C41434954414D454854414D205D345B202020264C2023204E203B43515F434B464E203B202041303544312E2E3730354431,
  0x51204C415449504143205255544B415246204C41434954414D454854414D2E2E4A204C415449504143205255544B415246204C41434954414D454854414D205D385B202020264C2023204E203B43515F434B464E203B202034313544312E2E4430354431,
  0x59204C415449504143205255544B415246204C41434954414D454854414D2E2E53204C415449504143205255544B415246204C41434954414D454854414D205D375B202020264C2023204E203B43515F434B464E203B202043313544312E2E3631354431,
  0x42204C415449504143204B43555254532D454C42554F44204C41434954414D454854414D2E2E41204C4C414D53205255544B415246204C41434954414D454854414D205D38325B2020264C2023204E203B43515F434B464E203B202039333544312E2E4531354431,
  0x47204C415449504143204B43555254532D454C42554F44204C41434954414D454854414D2E2E44204C415449504143204B43555254532D454C42554F44204C41434954414D454854414D205D345B202020264C2023204E203B43515F434B464E203B202045333544312E2E4233354431,
  0x4D204C415449504143204B43555254532D454C42554F44204C41434954414D454854414D2E2E49204C415449504143204B43555254532D454C42554F44204C41434954414D454854414D205D355B202020264C2023204E203B43515F434B464E203B202034343544312E2E3034354431,
  0x4F204C415449504143204B43555254532D454C42554F44204C41434954414D454854414D20202020202020264C2023204E203B43515F434B464E203B2020202020202020203634354431,
  0x59204C415449504143204B43555254532D454C42554F44204C41434954414D454854414D2E2E53204C415449504143204B43555254532D454C42554F44204C41434954414D454854414D205D375B202020264C2023204E203B43515F434B464E203B202030353544312E2E4134354431,
  0x4A205353454C544F44204C4C414D532043494C415449204C41434954414D454854414D2E2E41204C4C414D53204B43555254532D454C42554F44204C41434954414D454854414D205D3034335B20264C2023204E203B43515F434B464E203B202035413644312E2E3235354431,
  0x4147454D4F204C41544950414320444C4F42204C41434954414D454854414D2E2E4148504C41204C41544950414320444C4F42204C41434954414D454854414D205D35325B2020264C2023204E203B43515F434B464E203B202030433644312E2E3841364431,
  0x414C42414E20444C4F42204C41434954414D454854414D202020202020206D532023204E203B43515F434B464E203B2020202020202020203143364431,
  0x4147454D4F204C4C414D5320444C4F42204C41434954414D454854414D2E2E4148504C41204C4C414D5320444C4F42204C41434954414D454854414D205D35325B2020264C2023204E203B43515F434B464E203B202041443644312E2E3243364431,
  0x4C4149544E45524546464944204C41495452415020444C4F42204C41434954414D454854414D202020202020206D532023204E203B43515F434B464E203B2020202020202020204244364431,
  0x4147454D4F204C4154495041432043494C415449204C41434954414D454854414D2E2E4C4F424D5953204E4F4C4953504520444C4F42204C41434954414D454854414D205D31335B2020264C2023204E203B43515F434B464E203B202041463644312E2E4344364431,
  0x414C42414E2043494C415449204C41434954414D454854414D202020202020206D532023204E203B43515F434B464E203B2020202020202020204246364431,
  0x4147454D4F204C4C414D532043494C415449204C41434954414D454854414D2E2E4148504C41204C4C414D532043494C415449204C41434954414D454854414D205D35325B2020264C2023204E203B43515F434B464E203B202034313744312E2E4346364431,
  0x4C4149544E45524546464944204C4149545241502043494C415449204C41434954414D454854414D202020202020206D532023204E203B43515F434B464E203B2020202020202020203531374431,
  0x4147454D4F204C4154495041432043494C41544920444C4F42204C41434954414D454854414D2E2E4C4F424D5953204E4F4C495350452043494C415449204C41434954414D454854414D205D31335B2020264C2023204E203B43515F434B464E203B202034333744312E2E3631374431,
  0x414C42414E2043494C41544920444C4F42204C41434954414D454854414D202020202020206D532023204E203B43515F434B464E203B2020202020202020203533374431,
  0x4147454D4F204C4C414D532043494C41544920444C4F42204C41434954414D454854414D2E2E4148504C41204C4C414D532043494C41544920444C4F42204C41434954414D454854414D205D35325B2020264C2023204E203B43515F434B464E203B202045343744312E2E3633374431,
  0x4C4149544E45524546464944204C4149545241502043494C41544920444C4F42204C41434954414D454854414D202020202020206D532023204E203B43515F434B464E203B2020202020202020204634374431,
  0x4147454D4F204C41544950414320444C4F422046495245532D534E4153204C41434954414D454854414D2E2E4C4F424D5953204E4F4C495350452043494C41544920444C4F42204C41434954414D454854414D205D31335B2020264C2023204E203B43515F434B464E203B202045363744312E2E3035374431,
  0x414C42414E20444C4F422046495245532D534E4153204C41434954414D454854414D202020202020206D532023204E203B43515F434B464E203B2020202020202020204636374431,
  0x4147454D4F204C4C414D5320444C4F422046495245532D534E4153204C41434954414D454854414D2E2E4148504C41204C4C414D5320444C4F422046495245532D534E4153204C41434954414D454854414D205D35325B2020264C2023204E203B43515F434B464E203B202038383744312E2E3037374431,
  0x4C4149544E45524546464944204C41495452415020444C4F422046495245532D534E4153204C41434954414D454854414D202020202020206D532023204E203B43515F434B464E203B2020202020202020203938374431,
  0x4147454D4F204C4154495041432043494C41544920444C4F422046495245532D534E4153204C41434954414D454854414D2E2E4C4F424D5953204E4F4C4953504520444C4F422046495245532D534E4153204C41434954414D454854414D205D31335B2020264C2023204E203B43515F434B464E203B202038413744312E2E4138374431,
  0x414C42414E2043494C41544920444C4F422046495245532D534E4153204C41434954414D454854414D202020202020206D532023204E203B43515F434B464E203B2020202020202020203941374431,
  0x4147454D4F204C4C414D532043494C41544920444C4F422046495245532D534E4153204C41434954414D454854414D2E2E4148504C41204C4C414D532043494C41544920444C4F422046495245532D534E4153204C41434954414D454854414D205D35325B2020264C2023204E203B43515F434B464E203B202032433744312E2E4141374431,
  0x4C4149544E45524546464944204C4149545241502043494C41544920444C4F422046495245532D534E4153204C41434954414D454854414D202020202020206D532023204E203B43515F434B464E203B2020202020202020203343374431,
  0x414D4D41474944204C4C414D5320444C4F42204C41434954414D454854414D2E2E4C4F424D5953204E4F4C495350452043494C41544920444C4F422046495245532D534E4153204C41434954414D454854414D205D385B202020264C2023204E203B43515F434B464E203B202042433744312E2E3443374431,
  0x454E494E2054494749442045434150534F4E4F4D204C41434954414D454854414D2E2E4F52455A20544947494420444C4F42204C41434954414D454854414D205D30355B2020644E2023204E203B43515F434B464E203B202046463744312E2E4543374431,
  0x4C4144204C41434954414D454854414D204349424152412E2E46454C41204C41434954414D454854414D20434942415241205D345B2020206F4C2023204E203B43515F434B464E203B202033304545312E2E3030454531,
  0x464151205353454C544F44204C41434954414D454854414D204349424152412E2E574157204C41434954414D454854414D20434942415241205D37325B20206F4C2023204E203B43515F434B464E203B202046314545312E2E3530454531,
  0x4D45454A204C414954494E49204C41434954414D454854414D204349424152412E2E484542204C414954494E49204C41434954414D454854414D20434942415241205D325B2020206F4C2023204E203B43515F434B464E203B202032324545312E2E3132454531,
  0x484548204C414954494E49204C41434954414D454854414D20434942415241202020202020206F4C2023204E203B43515F434B464E203B2020202020202020203432454531,
  0x484148204C414954494E49204C41434954414D454854414D20434942415241202020202020206F4C2023204E203B43515F434B464E203B2020202020202020203732454531,
  0x464151204C414954494E49204C41434954414D454854414D204349424152412E2E484559204C414954494E49204C41434954414D454854414D20434942415241205D30315B20206F4C2023204E203B43515F434B464E203B202032334545312E2E3932454531,
  0x4841484B204C414954494E49204C41434954414D454854414D204349424152412E2E4E45454853204C414954494E49204C41434954414D454854414D20434942415241205D345B2020206F4C2023204E203B43515F434B464E203B202037334545312E2E3433454531,
  0x444144204C414954494E49204C41434954414D454854414D20434942415241202020202020206F4C2023204E203B43515F434B464E203B2020202020202020203933454531,
  0x4E49414847204C414954494E49204C41434954414D454854414D20434942415241202020202020206F4C2023204E203B43515F434B464E203B2020202020202020204233454531,
  0x4D45454A2044454C494154204C41434954414D454854414D20434942415241202020202020206F4C2023204E203B43515F434B464E203B2020202020202020203234454531,
  0x4841482044454C494154204C41434954414D454854414D20434942415241202020202020206F4C2023204E203B43515F434B464E203B2020202020202020203734454531,
  0x4845592044454C494154204C41434954414D454854414D20434942415241202020202020206F4C2023204E203B43515F434B464E203B2020202020202020203934454531,
  0x4D414C2044454C494154204C41434954414D454854414D20434942415241202020202020206F4C2023204E203B43515F434B464E203B2020202020202020204234454531,
  0x4E49412044454C494154204C41434954414D454854414D204349424152412E2E4E4F4F4E2044454C494154204C41434954414D454854414D20434942415241205D335B2020206F4C2023204E203B43515F434B464E203B202046344545312E2E4434454531,
  0x4641512044454C494154204C41434954414D454854414D204349424152412E2E4441532044454C494154204C41434954414D454854414D20434942415241205D325B2020206F4C2023204E203B43515F434B464E203B202032354545312E2E3135454531,
  0x4E454548532044454C494154204C41434954414D454854414D20434942415241202020202020206F4C2023204E203B43515F434B464E203B2020202020202020203435454531,
  0x4841484B2044454C494154204C41434954414D454854414D20434942415241202020202020206F4C2023204E203B43515F434B464E203B2020202020202020203735454531,
  0x4441442044454C494154204C41434954414D454854414D20434942415241202020202020206F4C2023204E203B43515F434B464E203B2020202020202020203935454531,
  0x4E494148472044454C494154204C41434954414D454854414D20434942415241202020202020206F4C2023204E203B43515F434B464E203B2020202020202020204235454531,
  0x4E4F4F4E205353454C544F442044454C494154204C41434954414D454854414D20434942415241202020202020206F4C2023204E203B43515F434B464E203B2020202020202020204435454531,
  0x464151205353454C544F442044454C494154204C41434954414D454854414D20434942415241202020202020206F4C2023204E203B43515F434B464E203B2020202020202020204635454531,
  0x4D45454A20444548435445525453204C41434954414D454854414D204349424152412E2E48454220444548435445525453204C41434954414D454854414D20434942415241205D325B2020206F4C2023204E203B43515F434B464E203B202032364545312E2E3136454531,
  0x48454820444548435445525453204C41434954414D454854414D20434942415241202020202020206F4C2023204E203B43515F434B464E203B2020202020202020203436454531,
  0x46414B20444548435445525453204C41434954414D454854414D204349424152412E2E48414820444548435445525453204C41434954414D454854414D20434942415241205D345B2020206F4C2023204E203B43515F434B464E203B202041364545312E2E3736454531,
  0x46415120444548435445525453204C41434954414D454854414D204349424152412E2E4D45454D20444548435445525453204C41434954414D454854414D20434942415241205D375B2020206F4C2023204E203B43515F434B464E203B202032374545312E2E4336454531,
  0x4841484B20444548435445525453204C41434954414D454854414D204349424152412E2E4E4545485320444548435445525453204C41434954414D454854414D20434942415241205D345B2020206F4C2023204E203B43515F434B464E203B202037374545312E2E3437454531,
  0x484542205353454C544F4420444548435445525453204C41434954414D454854414D204349424152412E2E44414420444548435445525453204C41434954414D454854414D20434942415241205D345B2020206F4C2023204E203B43515F434B464E203B202043374545312E2E3937454531,
  0x484546205353454C544F4420444548435445525453204C41434954414D454854414D20434942415241202020202020206F4C2023204E203B43515F434B464E203B2020202020202020204537454531,
  0x484559204445504F4F4C204C41434954414D454854414D204349424152412E2E46454C41204445504F4F4C204C41434954414D454854414D20434942415241205D30315B20206F4C2023204E203B43515F434B464E203B202039384545312E2E3038454531,
  0x4E49414847204445504F4F4C204C41434954414D454854414D204349424152412E2E4D414C204445504F4F4C204C41434954414D454854414D20434942415241205D37315B20206F4C2023204E203B43515F434B464E203B202042394545312E2E4238454531,
  0x4C4144204B43555254532D454C42554F44204C41434954414D454854414D204349424152412E2E484542204B43555254532D454C42554F44204C41434954414D454854414D20434942415241205D335B2020206F4C2023204E203B43515F434B464E203B202033414545312E2E3141454531,
  0x484559204B43555254532D454C42554F44204C41434954414D454854414D204349424152412E2E574157204B43555254532D454C42554F44204C41434954414D454854414D20434942415241205D355B2020206F4C2023204E203B43515F434B464E203B202039414545312E2E3541454531,
  0x4E49414847204B43555254532D454C42554F44204C41434954414D454854414D204349424152412E2E4D414C204B43555254532D454C42554F44204C41434954414D454854414D20434942415241205D37315B20206F4C2023204E203B43515F434B464E203B202042424545312E2E4241454531,
  0x414D4D4F4320454E494E2054494749442E2E504F5453204C4C5546204F52455A205449474944205D31315B20206F4E2023204E203B43515F434B464E203B202041303146312E2E3030314631,
  0x5A572044454C435249432E2E412052455454454C204C415449504143204E4954414C2044455A49534548544E45524150205D31335B20206F532023204E203B43515F434B464E203B202045323146312E2E3031314631,
  0x435720444552415551532E2E412052455454454C204C415449504143204E4954414C2044455241555153205D32335B20206F532023204E203B43515F434B464E203B202046343146312E2E3033314631,
  0x4E47495320524D204445534941522E2E4E47495320434D20444553494152205D335B2020206F532023204E203B43515F434B464E203B202043363146312E2E4136314631,
  0x4A4420455241555153202020202020206F532023204E203B43515F434B464E203B2020202020202020203039314631,
  0x415320414E414B4154414B20444552415551532E2E414B4F4820414E41474152494820455241555153205D335B2020206F532023204E203B43515F434B464E203B202032303246312E2E3030324631,
  0x443431392D48504152474F4544492044454946494E55204B4A4320444552415551532E2E423432362D48504152474F4544492044454946494E55204B4A432044455241555153205D34345B20206F532023204E203B43515F434B464E203B202042333246312E2E3031324631,
  0x373535362D48504152474F4544492044454946494E55204B4A4320444554454B43415242204C4C454853204553494F54524F542E2E433237362D48504152474F4544492044454946494E55204B4A4320444554454B43415242204C4C454853204553494F54524F54205D395B2020206F532023204E203B43515F434B464E203B202038343246312E2E3034324631,
  0x5450454343412048504152474F4544492044454C435249432E2E454741544E415644412048504152474F4544492044454C43524943205D325B2020206F532023204E203B43515F434B464E203B202031353246312E2E3035324631,
  0x454E494E205449474944204445544E454D4745532E2E4F52455A205449474944204445544E454D474553205D30315B2020644E2023204E203B43515F434B464E203B202039464246312E2E3046424631,
  0x44314146322D48504152474F454449205954494C4942495441504D4F43204B4A432E2E30303846322D48504152474F454449205954494C4942495441504D4F43204B4A43205D3234355B206F4C2023204E203B43515F434B464E203B202044314146322E2E3030384632,
  0x0,
  0x37303834203A73746E696F702065646F63206C61746F542023,
  0x0,
  0x3D3D3D3D3D3D3D3D3D3D3D3D3D3D3D3D3D3D3D3D3D3D3D3D3D3D3D3D3D3D3D3D3D3D3D3D3D3D3D3D3D3D3D3D3D3D3D3D2023,
  0x0,
  0x656279614D3D6B636568435F6B636975515F434B464E2023,
  0x0,
  0x4E4F5243414D20474E494E49424D4F432E2E544E4543434120455641524720474E494E49424D4F43205D355B2020206E4D2023204D203B43515F434B464E203B20202020343033302E2E30303330,
  0x4E4F52414320474E494E49424D4F432E2E455645524220474E494E49424D4F43205D375B2020206E4D2023204D203B43515F434B464E203B20202020433033302E2E36303330,
  0x544E4543434120455641524720454C42554F4420474E494E49424D4F43202020202020206E4D2023204D203B43515F434B464E203B2020202020202020202046303330,
  0x4556455242204445545245564E4920474E494E49424D4F43202020202020206E4D2023204D203B43515F434B464E203B2020202020202020202031313330,
  0x45564F424120414D4D4F4320444553524556455220474E494E49424D4F432E2E45564F424120414D4D4F4320474E494E49424D4F43205D325B2020206E4D2023204D203B43515F434B464E203B20202020343133302E2E33313330,
  0x4E524F4820474E494E49424D4F43202020202020206E4D2023204D203B43515F434B464E203B2020202020202020202042313330,
  0x4B454E4F474F20474E494E49424D4F432E2E574F4C454220544F4420474E494E49424D4F43205D365B2020206E4D2023204D203B43515F434B464E203B20202020383233302E2E33323330,
  0x574F4C454220455645524220474E494E49424D4F432E2E574F4C454220544E454343412058454C464D554352494320474E494E49424D4F43205D325B2020206E4D2023204D203B43515F434B464E203B20202020453233302E2E44323330,
  0x574F4C4542204E4F5243414D20474E494E49424D4F432E2E574F4C45422045444C495420474E494E49424D4F43205D325B2020206E4D2023204D203B43515F434B464E203B20202020313333302E2E30333330,
  0x59414C5245564F20535544494C4F5320474E4F4C20474E494E49424D4F43202020202020206E4D2023204D203B43515F434B464E203B2020202020202020202038333330,
  0x494E454D4F505349524550204B4545524720474E494E49424D4F43202020202020206E4D2023204D203B43515F434B464E203B2020202020202020202032343330,
  0x494E454D4D41524745474F5059204B4545524720474E494E49424D4F43202020202020206E4D2023204D203B43515F434B464E203B2020202020202020202035343330,
  0x574F4C454220415A4D4148204349424152412E2E45564F42412048414444414D20434942415241205D335B2020206E4D2023204D203B43515F434B464E203B20202020353536302E2E33353630,
  0x41544B554E204E4749532049524147414E41564544202020202020206E4D2023204D203B43515F434B464E203B2020202020202020202043333930,
  0x4141204E474953204C45574F5620494C41474E454220202020202020634D2023204D203B43515F434B464E203B2020202020202020202045423930,
  0x4B52414D204854474E454C20554120494C41474E454220202020202020634D2023204D203B43515F434B464E203B2020202020202020202037443930,
  0x4141204E474953204C45574F5620415949524F20202020202020634D2023204D203B43515F434B464E203B2020202020202020202045334230,
  0x4B52414D204854474E454C20494120415949524F202020202020206E4D2023204D203B43515F434B464E203B2020202020202020202036354230,
  0x4B52414D204854474E454C20554120415949524F20202020202020634D2023204D203B43515F434B464E203B2020202020202020202037354230,
  0x4141204E474953204C45574F56204C494D415420202020202020634D2023204D203B43515F434B464E203B2020202020202020202045424230,
  0x4B52414D204854474E454C205541204C494D415420202020202020634D2023204D203B43515F434B464E203B2020202020202020202037444230,
  0x4B52414D204854474E454C204941205547554C4554202020202020206E4D2023204D203B43515F434B464E203B2020202020202020202036354330,
  0x5555204E474953204C45574F56204144414E4E414B20202020202020634D2023204D203B43515F434B464E203B2020202020202020202032434330,
  0x4B52414D204854474E454C204941204144414E4E414B2E2E4B52414D204854474E454C204144414E4E414B205D325B202020634D2023204D203B43515F434B464E203B20202020364443302E2E35444330,
  0x4141204E474953204C45574F56204D414C4159414C414D20202020202020634D2023204D203B43515F434B464E203B2020202020202020202045334430,
  0x4B52414D204854474E454C205541204D414C4159414C414D20202020202020634D2023204D203B43515F434B464E203B2020202020202020202037354430,
  0x414E554B414C2D4C41204E47495320414C41484E4953202020202020206E4D2023204D203B43515F434B464E203B2020202020202020202041434430,
  0x414C4C49502D414C4541204E474953204C45574F5620414C41484E495320202020202020634D2023204D203B43515F434B464E203B2020202020202020202046434430,
  0x415454494B554E41594147204E474953204C45574F5620414C41484E495320202020202020634D2023204D203B43515F434B464E203B2020202020202020202046444430,
  0x4949204E474953204C45574F562052414D4E41594D202020202020206E4D2023204D203B43515F434B464E203B2020202020202020202045323031,
  0x4920474E4F4553474E554A204C55474E41482E2E4120474E4F4553474E554A204C55474E4148205D31325B20206F4C2023204D203B43515F434B464E203B20202020353731312E2E31363131,
  0x485545494820474E4F4553474E4F4A204C55474E41482E2E4B4F4559494B20474E4F4553474E4F4A204C55474E4148205D37325B20206F4C2023204D203B43515F434B464E203B20202020324331312E2E38413131,
  0x474E55444554204E474953204C45574F56204553454E494C414220202020202020634D2023204D203B43515F434B464E203B2020202020202020202035334231,
  0x4B52414D20444E554F5320444543494F562D494D455320414E4147415249482D414E414B4154414B20474E494E49424D4F432E2E4B52414D20444E554F5320444543494F5620414E4147415249482D414E414B4154414B20474E494E49424D4F43205D325B2020206E4D2023204D203B43515F434B464E203B20202020413930332E2E39393033,
  0x41544B554E204E4749532049485449414B202020202020206E4D2023204D203B43515F434B464E203B2020202020202020204142303131,
  0x41204E474953204C45574F5620414D4B414843202020202020206E4D2023204D203B43515F434B464E203B2020202020202020203732313131,
  0x4141204E474953204C45574F56204148544E41524720202020202020634D2023204D203B43515F434B464E203B2020202020202020204533333131,
  0x4B52414D204854474E454C205541204148544E41524720202020202020634D2023204D203B43515F434B464E203B2020202020202020203735333131,
  0x4141204E474953204C45574F56204154554852495420202020202020634D2023204D203B43515F434B464E203B2020202020202020203042343131,
  0x452054524F4853204E474953204C45574F562041545548524954202020202020206E4D2023204D203B43515F434B464E203B2020202020202020204142343131,
  0x4F2054524F4853204E474953204C45574F56204154554852495420202020202020634D2023204D203B43515F434B464E203B2020202020202020204442343131,
  0x4141204E474953204C45574F56204D41484444495320202020202020634D2023204D203B43515F434B464E203B2020202020202020204641353131,
  0x4141204E474953204C45574F56205552554B4120534556494420202020202020634D2023204D203B43515F434B464E203B2020202020202020203033393131,
  0x0,
  0x313131203A73746E696F702065646F63206C61746F542023,
  0x0,
  0x3D3D3D3D3D3D3D3D3D3D3D3D3D3D3D3D3D3D3D3D3D3D3D3D3D3D3D3D3D3D3D3D3D3D3D3D3D3D3D3D3D3D3D3D3D3D3D3D2023,
  0x0,
  0x29302E302E362065646F63696E5520666F2073612044455441434552504544282044464E5F6E4F5F73646E61707845203A79747265706F725020646576697265442023,
  0x2E35312320584155206F7420676E6964726F636361206465746172656E654720202023,
  0x2E656E6F20746F6E207369206874676E656C2064657A696C616D726F6E2065736F6877207372657463617261684320202023,
  0x2E7463617265746E692079616D207372657463617261686320657375616365622035312320584155206E69206D687469726F676C612065687420657375207473756D2053474E4952545320666F206E6F6974617A696C616D726F4E203A474E494E52415720202023,
  0x21737265746361726168632064657A696C616D726F6E2065687420666F20736874676E656C2065687420666F206D75732065687420796C69726173736563656E20746F6E20736920676E697274732064657A696C616D726F6E206120666F206874676E656C2065685420202020202020202020202023,
  0x0,
  0x45564F424120474E4952204854495720412052455454454C204C415449504143204E4954414C2E2E4556415247204854495720412052455454454C204C415449504143204E4954414C205D365B202020264C20232044464E5F6E4F5F73646E61707845203B20202020354330302E2E30433030,
  0x534953455245414944204854495720492052455454454C204C415449504143204E4954414C2E2E414C4C49444543204854495720432052455454454C204C415449504143204E4954414C205D395B202020264C20232044464E5F6E4F5F73646E61707845203B20202020464330302E2E37433030,
  0x5349534552454149442048544957204F2052455454454C204C415449504143204E4954414C2E2E45444C49542048544957204E2052455454454C204C415449504143204E4954414C205D365B202020264C20232044464E5F6E4F5F73646E61707845203B20202020364430302E2E31443030,
  0x4554554341204854495720592052455454454C204C415449504143204E4954414C2E2E4556415247204854495720552052455454454C204C415449504143204E4954414C205D355B202020264C20232044464E5F6E4F5F73646E61707845203B20202020444430302E2E39443030,
  0x45564F424120474E4952204854495720412052455454454C204C4C414D53204E4954414C2E2E4556415247204854495720412052455454454C204C4C414D53204E4954414C205D365B202020264C20232044464E5F6E4F5F73646E61707845203B20202020354530302E2E30453030,
  0x534953455245414944204854495720492052455454454C204C4C414D53204E4954414C2E2E414C4C49444543204854495720432052455454454C204C4C414D53204E4954414C205D395B202020264C20232044464E5F6E4F5F73646E61707845203B20202020464530302E2E37453030,
  0x5349534552454149442048544957204F2052455454454C204C4C414D53204E4954414C2E2E45444C49542048544957204E2052455454454C204C4C414D53204E4954414C205D365B202020264C20232044464E5F6E4F5F73646E61707845203B20202020364630302E2E31463030,
  0x4554554341204854495720592052455454454C204C4C414D53204E4954414C2E2E4556415247204854495720552052455454454C204C4C414D53204E4954414C205D355B202020264C20232044464E5F6E4F5F73646E61707845203B20202020444630302E2E39463030,
  0x4E4F524143204854495720442052455454454C204C4C414D53204E4954414C2E2E534953455245414944204854495720592052455454454C204C4C414D53204E4954414C205D37315B2020264C20232044464E5F6E4F5F73646E61707845203B20202020463031302E2E46463030,
  0x58454C464D5543524943204854495720482052455454454C204C4C414D53204E4954414C2E2E4E4F5243414D204854495720452052455454454C204C415449504143204E4954414C205D30325B2020264C20232044464E5F6E4F5F73646E61707845203B20202020353231302E2E32313130,
  0x45564F424120544F44204854495720492052455454454C204C415449504143204E4954414C2E2E45444C4954204854495720492052455454454C204C415449504143204E4954414C205D395B202020264C20232044464E5F6E4F5F73646E61707845203B20202020303331302E2E38323130,
  0x414C4C494445432048544957204B2052455454454C204C4C414D53204E4954414C2E2E58454C464D55435249432048544957204A2052455454454C204C415449504143204E4954414C205D345B202020264C20232044464E5F6E4F5F73646E61707845203B20202020373331302E2E34333130,
  0x4E4F5241432048544957204C2052455454454C204C4C414D53204E4954414C2E2E45545543412048544957204C2052455454454C204C415449504143204E4954414C205D365B202020264C20232044464E5F6E4F5F73646E61707845203B20202020453331302E2E39333130,
  0x4E4F5241432048544957204E2052455454454C204C4C414D53204E4954414C2E2E45545543412048544957204E2052455454454C204C415449504143204E4954414C205D365B202020264C20232044464E5F6E4F5F73646E61707845203B20202020383431302E2E33343130,
  0x455455434120454C42554F442048544957204F2052455454454C204C4C414D53204E4954414C2E2E4E4F5243414D2048544957204F2052455454454C204C415449504143204E4954414C205D365B202020264C20232044464E5F6E4F5F73646E61707845203B20202020313531302E2E43343130,
  0x4E4F524143204854495720542052455454454C204C4C414D53204E4954414C2E2E4554554341204854495720522052455454454C204C415449504143204E4954414C205D38315B2020264C20232044464E5F6E4F5F73646E61707845203B20202020353631302E2E34353130,
  0x4E4F5241432048544957205A2052455454454C204C4C414D53204E4954414C2E2E45444C4954204854495720552052455454454C204C415449504143204E4954414C205D33325B2020264C20232044464E5F6E4F5F73646E61707845203B20202020453731302E2E38363130,
  0x4E524F482048544957204F2052455454454C204C4C414D53204E4954414C2E2E4E524F482048544957204F2052455454454C204C415449504143204E4954414C205D325B202020264C20232044464E5F6E4F5F73646E61707845203B20202020314131302E2E30413130,
  0x4E524F48204854495720552052455454454C204C4C414D53204E4954414C2E2E4E524F48204854495720552052455454454C204C415449504143204E4954414C205D325B202020264C20232044464E5F6E4F5F73646E61707845203B20202020304231302E2E46413130,
  0x455641524720444E4120534953455245414944204854495720552052455454454C204C4C414D53204E4954414C2E2E4E4F524143204854495720412052455454454C204C415449504143204E4954414C205D36315B2020264C20232044464E5F6E4F5F73646E61707845203B20202020434431302E2E44433130,
  0x4E4F5243414D20485449572045412052455454454C204C4C414D53204E4954414C2E2E4E4F5243414D20444E4120534953455245414944204854495720412052455454454C204C415449504143204E4954414C205D365B202020264C20232044464E5F6E4F5F73646E61707845203B20202020334531302E2E45443130,
  0x4E4F5241432048544957204A2052455454454C204C4C414D53204E4954414C2E2E4E4F524143204854495720472052455454454C204C415449504143204E4954414C205D31315B2020264C20232044464E5F6E4F5F73646E61707845203B20202020304631302E2E36453130,
  0x4554554341204854495720472052455454454C204C4C414D53204E4954414C2E2E4554554341204854495720472052455454454C204C415449504143204E4954414C205D325B202020264C20232044464E5F6E4F5F73646E61707845203B20202020354631302E2E34463130,
  0x574F4C454220414D4D4F43204854495720542052455454454C204C4C414D53204E4954414C2E2E45564152472048544957204E2052455454454C204C415449504143204E4954414C205D36335B2020264C20232044464E5F6E4F5F73646E61707845203B20202020423132302E2E38463130,
  0x4E4F524143204854495720482052455454454C204C4C414D53204E4954414C2E2E4E4F524143204854495720482052455454454C204C415449504143204E4954414C205D325B202020264C20232044464E5F6E4F5F73646E61707845203B20202020463132302E2E45313230,
  0x4E4F5243414D204854495720592052455454454C204C4C414D53204E4954414C2E2E45564F424120544F44204854495720412052455454454C204C415449504143204E4954414C205D34315B2020264C20232044464E5F6E4F5F73646E61707845203B20202020333332302E2E36323230,
  0x534F4E4F5420414B4954594C414944204B4545524720474E494E49424D4F43202020202020206E4D20232044464E5F6E4F5F73646E61707845203B2020202020202020202034343330,
  0x534F4E4F5420414B4954594C414944204B45455247202020202020206B5320232044464E5F6E4F5F73646E61707845203B2020202020202020202035383330,
  0x534F4E4F542048544957204148504C412052455454454C204C415449504143204B4545524720202020202020264C20232044464E5F6E4F5F73646E61707845203B2020202020202020202036383330,
  0x534F4E4F5420485449572041544F492052455454454C204C415449504143204B454552472E2E534F4E4F542048544957204E4F4C495350452052455454454C204C415449504143204B45455247205D335B202020264C20232044464E5F6E4F5F73646E61707845203B20202020413833302E2E38383330,
  0x534F4E4F542048544957204E4F5243494D4F2052455454454C204C415449504143204B4545524720202020202020264C20232044464E5F6E4F5F73646E61707845203B2020202020202020202043383330,
  0x534F4E4F5420444E4120414B4954594C41494420485449572041544F492052455454454C204C4C414D53204B454552472E2E534F4E4F542048544957204E4F4C495350552052455454454C204C415449504143204B45455247205D335B202020264C20232044464E5F6E4F5F73646E61707845203B20202020303933302E2E45383330,
  0x534F4E4F5420444E4120414B4954594C4149442048544957204E4F4C495350552052455454454C204C4C414D53204B454552472E2E414B4954594C41494420485449572041544F492052455454454C204C415449504143204B45455247205D375B202020264C20232044464E5F6E4F5F73646E61707845203B20202020304233302E2E41413330,
  0x534F4E4F542048544957204147454D4F2052455454454C204C4C414D53204B454552472E2E414B4954594C41494420485449572041544F492052455454454C204C4C414D53204B45455247205D355B202020264C20232044464E5F6E4F5F73646E61707845203B20202020454333302E2E41433330,
  0x4C4F424D5953204B4F4F4820444E41205349534552454149442048544957204E4F4C49535055204B454552472E2E4C4F424D5953204B4F4F4820444E412045545543412048544957204E4F4C49535055204B45455247205D325B202020264C20232044464E5F6E4F5F73646E61707845203B20202020344433302E2E33443330,
  0x4F492052455454454C204C4154495041432043494C4C495259432E2E455641524720485449572045492052455454454C204C4154495041432043494C4C49525943205D325B202020264C20232044464E5F6E4F5F73646E61707845203B20202020313034302E2E30303430,
  0x454A472052455454454C204C4154495041432043494C4C4952594320202020202020264C20232044464E5F6E4F5F73646E61707845203B2020202020202020202033303430,
  0x49592052455454454C204C4154495041432043494C4C4952594320202020202020264C20232044464E5F6E4F5F73646E61707845203B2020202020202020202037303430,
  0x552054524F48532052455454454C204C4154495041432043494C4C495259432E2E454A4B2052455454454C204C4154495041432043494C4C49525943205D335B202020264C20232044464E5F6E4F5F73646E61707845203B20202020453034302E2E43303430,
  0x492054524F48532052455454454C204C4154495041432043494C4C4952594320202020202020264C20232044464E5F6E4F5F73646E61707845203B2020202020202020202039313430,
  0x492054524F48532052455454454C204C4C414D532043494C4C4952594320202020202020264C20232044464E5F6E4F5F73646E61707845203B2020202020202020202039333430,
  0x4F492052455454454C204C4C414D532043494C4C495259432E2E455641524720485449572045492052455454454C204C4C414D532043494C4C49525943205D325B202020264C20232044464E5F6E4F5F73646E61707845203B20202020313534302E2E30353430,
  0x454A472052455454454C204C4C414D532043494C4C4952594320202020202020264C20232044464E5F6E4F5F73646E61707845203B2020202020202020202033353430,
  0x49592052455454454C204C4C414D532043494C4C4952594320202020202020264C20232044464E5F6E4F5F73646E61707845203B2020202020202020202037353430,
  0x552054524F48532052455454454C204C4C414D532043494C4C495259432E2E454A4B2052455454454C204C4C414D532043494C4C49525943205D335B202020264C20232044464E5F6E4F5F73646E61707845203B20202020453534302E2E43353430,
  0x544E4543434120455641524720454C42554F4420485449572041535449485A492052455454454C204C4C414D532043494C4C495259432E2E544E4543434120455641524720454C42554F4420485449572041535449485A492052455454454C204C4154495041432043494C4C49525943205D325B202020264C20232044464E5F6E4F5F73646E61707845203B20202020373734302E2E36373430,
  0x455645524220485449572045485A2052455454454C204C4C414D532043494C4C495259432E2E455645524220485449572045485A2052455454454C204C4154495041432043494C4C49525943205D325B202020264C20232044464E5F6E4F5F73646E61707845203B20202020324334302E2E31433430,
  0x534953455245414944204854495720412052455454454C204C4C414D532043494C4C495259432E2E4556455242204854495720412052455454454C204C4154495041432043494C4C49525943205D345B202020264C20232044464E5F6E4F5F73646E61707845203B20202020334434302E2E30443430,
  0x455645524220485449572045492052455454454C204C4C414D532043494C4C495259432E2E455645524220485449572045492052455454454C204C4154495041432043494C4C49525943205D325B202020264C20232044464E5F6E4F5F73646E61707845203B20202020374434302E2E36443430,
  0x534953455245414944204854495720455A2052455454454C204C4C414D532043494C4C495259432E2E53495345524541494420485449572041574843532052455454454C204C4154495041432043494C4C49525943205D365B202020264C20232044464E5F6E4F5F73646E61707845203B20202020464434302E2E41443430,
  0x5349534552454149442048544957204F2052455454454C204C4C414D532043494C4C495259432E2E4E4F5243414D204854495720492052455454454C204C4154495041432043494C4C49525943205D365B202020264C20232044464E5F6E4F5F73646E61707845203B20202020374534302E2E32453430,
  0x5349534552454149442048544957204548432052455454454C204C4C414D532043494C4C495259432E2E5349534552454149442048544957204F204445525241422052455454454C204C4154495041432043494C4C49525943205D32315B2020264C20232044464E5F6E4F5F73646E61707845203B20202020354634302E2E41453430,
  0x534953455245414944204854495720555245592052455454454C204C4C414D532043494C4C495259432E2E534953455245414944204854495720555245592052455454454C204C4154495041432043494C4C49525943205D325B202020264C20232044464E5F6E4F5F73646E61707845203B20202020394634302E2E38463430,
  0x45564F424120415A4D41482048544957204845592052455454454C204349424152412E2E45564F424120414444414D20485449572046454C412052455454454C20434942415241205D355B2020206F4C20232044464E5F6E4F5F73646E61707845203B20202020363236302E2E32323630,
  0x45564F4241204845592048544957204845482052455454454C20434942415241202020202020206F4C20232044464E5F6E4F5F73646E61707845203B2020202020202020202030433630,
  0x45564F424120415A4D41482048544957204C414F47204845482052455454454C20434942415241202020202020206F4C20232044464E5F6E4F5F73646E61707845203B2020202020202020202032433630,
  0x45564F424120415A4D4148204854495720454552524142204845592052455454454C20434942415241202020202020206F4C20232044464E5F6E4F5F73646E61707845203B2020202020202020202033443630,
  0x414E4E4E2052455454454C2049524147414E41564544202020202020206F4C20232044464E5F6E4F5F73646E61707845203B2020202020202020202039323930,
  0x4152522052455454454C2049524147414E41564544202020202020206F4C20232044464E5F6E4F5F73646E61707845203B2020202020202020202031333930,
  0x414C4C4C2052455454454C2049524147414E41564544202020202020206F4C20232044464E5F6E4F5F73646E61707845203B2020202020202020202034333930,
  0x4159592052455454454C2049524147414E415645442E2E41512052455454454C2049524147414E41564544205D385B2020206F4C20232044464E5F6E4F5F73646E61707845203B20202020463539302E2E38353930,
  0x5541204E474953204C45574F5620494C41474E45422E2E4F204E474953204C45574F5620494C41474E4542205D325B202020634D20232044464E5F6E4F5F73646E61707845203B20202020434339302E2E42433930,
  0x4148522052455454454C20494C41474E45422E2E4152522052455454454C20494C41474E4542205D325B2020206F4C20232044464E5F6E4F5F73646E61707845203B20202020444439302E2E43443930,
  0x4159592052455454454C20494C41474E4542202020202020206F4C20232044464E5F6E4F5F73646E61707845203B2020202020202020202046443930,
  0x414C4C2052455454454C2049484B554D525547202020202020206F4C20232044464E5F6E4F5F73646E61707845203B2020202020202020202033334130,
  0x4148532052455454454C2049484B554D525547202020202020206F4C20232044464E5F6E4F5F73646E61707845203B2020202020202020202036334130,
  0x415A2052455454454C2049484B554D5255472E2E4148484B2052455454454C2049484B554D525547205D335B2020206F4C20232044464E5F6E4F5F73646E61707845203B20202020423541302E2E39354130,
  0x41462052455454454C2049484B554D525547202020202020206F4C20232044464E5F6E4F5F73646E61707845203B2020202020202020202045354130,
  0x4941204E474953204C45574F5620415949524F20202020202020634D20232044464E5F6E4F5F73646E61707845203B2020202020202020202038344230,
  0x5541204E474953204C45574F5620415949524F2E2E4F204E474953204C45574F5620415949524F205D325B202020634D20232044464E5F6E4F5F73646E61707845203B20202020433442302E2E42344230,
  0x4148522052455454454C20415949524F2E2E4152522052455454454C20415949524F205D325B2020206F4C20232044464E5F6E4F5F73646E61707845203B20202020443542302E2E43354230,
  0x55412052455454454C204C494D4154202020202020206F4C20232044464E5F6E4F5F73646E61707845203B2020202020202020202034394230,
  0x5541204E474953204C45574F56204C494D41542E2E4F204E474953204C45574F56204C494D4154205D335B202020634D20232044464E5F6E4F5F73646E61707845203B20202020434342302E2E41434230,
  0x4941204E474953204C45574F56205547554C4554202020202020206E4D20232044464E5F6E4F5F73646E61707845203B2020202020202020202038344330,
  0x4949204E474953204C45574F56204144414E4E414B20202020202020634D20232044464E5F6E4F5F73646E61707845203B2020202020202020202030434330,
  0x4941204E474953204C45574F56204144414E4E414B2E2E4545204E474953204C45574F56204144414E4E414B205D325B202020634D20232044464E5F6E4F5F73646E61707845203B20202020384343302E2E37434330,
  0x4F4F204E474953204C45574F56204144414E4E414B2E2E4F204E474953204C45574F56204144414E4E414B205D325B202020634D20232044464E5F6E4F5F73646E61707845203B20202020424343302E2E41434330,
  0x5541204E474953204C45574F56204D414C4159414C414D2E2E4F204E474953204C45574F56204D414C4159414C414D205D335B202020634D20232044464E5F6E4F5F73646E61707845203B20202020433444302E2E41344430,
  0x415655424D4F4B2041474944204E474953204C45574F5620414C41484E495320202020202020634D20232044464E5F6E4F5F73646E61707845203B2020202020202020202041444430,
  0x415454494B554E415941472041414820415655424D4F4B204E474953204C45574F5620414C41484E49532E2E414C4C49502D414C45412041414820415655424D4F4B204E474953204C45574F5620414C41484E4953205D335B202020634D20232044464E5F6E4F5F73646E61707845203B20202020454444302E2E43444430,
  0x4148472052455454454C204E415445424954202020202020206F4C20232044464E5F6E4F5F73646E61707845203B2020202020202020202033344630,
  0x414844442052455454454C204E415445424954202020202020206F4C20232044464E5F6E4F5F73646E61707845203B2020202020202020202044344630,
  0x4148442052455454454C204E415445424954202020202020206F4C20232044464E5F6E4F5F73646E61707845203B2020202020202020202032354630,
  0x4148422052455454454C204E415445424954202020202020206F4C20232044464E5F6E4F5F73646E61707845203B2020202020202020202037354630,
  0x41485A442052455454454C204E415445424954202020202020206F4C20232044464E5F6E4F5F73646E61707845203B2020202020202020202043354630,
  0x4153534B2052455454454C204E415445424954202020202020206F4C20232044464E5F6E4F5F73646E61707845203B2020202020202020202039364630,
  0x4949204E474953204C45574F56204E415445424954202020202020206E4D20232044464E5F6E4F5F73646E61707845203B2020202020202020202033374630,
  0x522043494C41434F56204E474953204C45574F56204E4154454249542E2E5555204E474953204C45574F56204E415445424954205D325B2020206E4D20232044464E5F6E4F5F73646E61707845203B20202020363746302E2E35374630,
  0x4C2043494C41434F56204E474953204C45574F56204E415445424954202020202020206E4D20232044464E5F6E4F5F73646E61707845203B2020202020202020202038374630,
  0x4949204445535245564552204E474953204C45574F56204E415445424954202020202020206E4D20232044464E5F6E4F5F73646E61707845203B2020202020202020202031384630,
  0x4148472052455454454C2044454E494F4A425553204E415445424954202020202020206E4D20232044464E5F6E4F5F73646E61707845203B2020202020202020202033394630,
  0x414844442052455454454C2044454E494F4A425553204E415445424954202020202020206E4D20232044464E5F6E4F5F73646E61707845203B2020202020202020202044394630,
  0x4148442052455454454C2044454E494F4A425553204E415445424954202020202020206E4D20232044464E5F6E4F5F73646E61707845203B2020202020202020202032414630,
  0x4148422052455454454C2044454E494F4A425553204E415445424954202020202020206E4D20232044464E5F6E4F5F73646E61707845203B2020202020202020202037414630]

def qcText9 : List Nat := [
  0x41485A442052455454454C2044454E494F4A425553204E415445424954202020202020206E4D20232044464E5F6E4F5F73646E61707845203B2020202020202020202043414630,
  0x4153534B2052455454454C2044454E494F4A425553204E415445424954202020202020206E4D20232044464E5F6E4F5F73646E61707845203B2020202020202020202039424630,
  0x55552052455454454C2052414D4E41594D202020202020206F4C20232044464E5F6E4F5F73646E61707845203B2020202020202020202036323031,
  0x474E55444554204152414B412052455454454C204553454E494C4142202020202020206F4C20232044464E5F6E4F5F73646E61707845203B2020202020202020202036304231,
  0x474E55444554204152414B492052455454454C204553454E494C4142202020202020206F4C20232044464E5F6E4F5F73646E61707845203B2020202020202020202038304231,
  0x474E55444554204152414B552052455454454C204553454E494C4142202020202020206F4C20232044464E5F6E4F5F73646E61707845203B2020202020202020202041304231,
  0x474E5544455420415045522041522052455454454C204553454E494C4142202020202020206F4C20232044464E5F6E4F5F73646E61707845203B2020202020202020202043304231,
  0x474E554445542041474E454C20414C2052455454454C204553454E494C4142202020202020206F4C20232044464E5F6E4F5F73646E61707845203B2020202020202020202045304231,
  0x474E55444554204152414B4F2052455454454C204553454E494C4142202020202020206F4C20232044464E5F6E4F5F73646E61707845203B2020202020202020202032314231,
  0x474E554445542041504552204152204E474953204C45574F56204553454E494C414220202020202020634D20232044464E5F6E4F5F73646E61707845203B2020202020202020202042334231,
  0x474E554445542041474E454C20414C204E474953204C45574F56204553454E494C414220202020202020634D20232044464E5F6E4F5F73646E61707845203B2020202020202020202044334231,
  0x474E55444554204150455220474E494C4154204E474953204C45574F56204553454E494C41422E2E474E5544455420474E494C4154204E474953204C45574F56204553454E494C4142205D325B202020634D20232044464E5F6E4F5F73646E61707845203B20202020313442312E2E30344231,
  0x474E55444554205445504550204E474953204C45574F56204553454E494C414220202020202020634D20232044464E5F6E4F5F73646E61707845203B2020202020202020202033344231,
  0x45564F424120474E4952204854495720592052455454454C204C4C414D53204E4954414C2E2E574F4C454220474E4952204854495720412052455454454C204C415449504143204E4954414C205D3435315B20264C20232044464E5F6E4F5F73646E61707845203B20202020393945312E2E30304531,
  0x45564F424120544F442048544957205320474E4F4C2052455454454C204C4C414D53204E4954414C20202020202020264C20232044464E5F6E4F5F73646E61707845203B2020202020202020202042394531,
  0x45444C4954204854495720592052455454454C204C4C414D53204E4954414C2E2E574F4C454220544F44204854495720412052455454454C204C415449504143204E4954414C205D30395B2020264C20232044464E5F6E4F5F73646E61707845203B20202020394645312E2E30414531,
  0x4149584F20444E412041495341442048544957204E4F4C495350452052455454454C204C4C414D53204B454552472E2E494C4953502048544957204148504C412052455454454C204C4C414D53204B45455247205D32325B2020264C20232044464E5F6E4F5F73646E61707845203B20202020353146312E2E30304631,
  0x4149584F20444E412041495341442048544957204E4F4C495350452052455454454C204C415449504143204B454552472E2E494C4953502048544957204E4F4C495350452052455454454C204C415449504143204B45455247205D365B202020264C20232044464E5F6E4F5F73646E61707845203B20202020443146312E2E38314631,
  0x4149584F20444E412041495341442048544957204E4F5243494D4F2052455454454C204C4C414D53204B454552472E2E494C4953502048544957204154452052455454454C204C4C414D53204B45455247205D38335B2020264C20232044464E5F6E4F5F73646E61707845203B20202020353446312E2E30324631,
  0x4149584F20444E412041495341442048544957204E4F5243494D4F2052455454454C204C415449504143204B454552472E2E494C4953502048544957204E4F5243494D4F2052455454454C204C415449504143204B45455247205D365B202020264C20232044464E5F6E4F5F73646E61707845203B20202020443446312E2E38344631,
  0x494E454D4F50534952455020444E412041495341442048544957204E4F4C495350552052455454454C204C4C414D53204B454552472E2E494C4953502048544957204E4F4C495350552052455454454C204C4C414D53204B45455247205D385B202020264C20232044464E5F6E4F5F73646E61707845203B20202020373546312E2E30354631,
  0x41495341442048544957204E4F4C495350552052455454454C204C415449504143204B4545524720202020202020264C20232044464E5F6E4F5F73646E61707845203B2020202020202020202039354631,
  0x414952415620444E412041495341442048544957204E4F4C495350552052455454454C204C415449504143204B4545524720202020202020264C20232044464E5F6E4F5F73646E61707845203B2020202020202020202042354631,
  0x4149584F20444E412041495341442048544957204E4F4C495350552052455454454C204C415449504143204B4545524720202020202020264C20232044464E5F6E4F5F73646E61707845203B2020202020202020202044354631,
  0x4149584F2048544957204147454D4F2052455454454C204C4C414D53204B454552472E2E494E454D4F50534952455020444E412041495341442048544957204E4F4C495350552052455454454C204C415449504143204B45455247205D31335B2020264C20232044464E5F6E4F5F73646E61707845203B20202020443746312E2E46354631,
  0x494E454D4D41524745474F505920444E41204149584F2048544957204148504C412052455454454C204C4C414D53204B454552472E2E494E454D4D41524745474F505920444E4120494C4953502048544957204148504C412052455454454C204C4C414D53204B45455247205D33355B2020264C20232044464E5F6E4F5F73646E61707845203B20202020344246312E2E30384631,
  0x494E454D4D4152474547534F52502048544957204148504C412052455454454C204C415449504143204B454552472E2E494E454D4F5053495245502048544957204148504C412052455454454C204C4C414D53204B45455247205D375B202020264C20232044464E5F6E4F5F73646E61707845203B20202020434246312E2E36424631,
  0x494E454D4F50534952455020444E4120414B4954594C414944204B45455247202020202020206B5320232044464E5F6E4F5F73646E61707845203B2020202020202020202031434631,
  0x494E454D4D41524745474F505920444E41204149584F2048544957204154452052455454454C204C4C414D53204B454552472E2E494E454D4D41524745474F505920444E412041495241562048544957204154452052455454454C204C4C414D53204B45455247205D335B202020264C20232044464E5F6E4F5F73646E61707845203B20202020344346312E2E32434631,
  0x494E454D4D4152474547534F52502048544957204154452052455454454C204C415449504143204B454552472E2E494E454D4F5053495245502048544957204154452052455454454C204C4C414D53204B45455247205D375B202020264C20232044464E5F6E4F5F73646E61707845203B20202020434346312E2E36434631,
  0x494E454D4F50534952455020444E4120494C495350204B454552472E2E414952415620444E4120494C495350204B45455247205D335B2020206B5320232044464E5F6E4F5F73646E61707845203B20202020464346312E2E44434631,
  0x4149584F20444E4120414B4954594C41494420485449572041544F492052455454454C204C4C414D53204B454552472E2E59484341525620485449572041544F492052455454454C204C4C414D53204B45455247205D345B202020264C20232044464E5F6E4F5F73646E61707845203B20202020334446312E2E30444631,
  0x4149584F20485449572041544F492052455454454C204C415449504143204B454552472E2E494E454D4F50534952455020485449572041544F492052455454454C204C4C414D53204B45455247205D365B202020264C20232044464E5F6E4F5F73646E61707845203B20202020424446312E2E36444631,
  0x494E454D4F50534952455020444E41204149534144204B454552472E2E414952415620444E41204149534144204B45455247205D335B2020206B5320232044464E5F6E4F5F73646E61707845203B20202020464446312E2E44444631,
  0x41495341442048544957204F48522052455454454C204C415449504143204B454552472E2E5948434152562048544957204E4F4C495350552052455454454C204C4C414D53204B45455247205D33315B2020264C20232044464E5F6E4F5F73646E61707845203B20202020434546312E2E30454631,
  0x4149584F20444E4120414B4954594C414944204B454552472E2E414952415620444E4120414B4954594C414944204B45455247205D325B2020206B5320232044464E5F6E4F5F73646E61707845203B20202020454546312E2E44454631,
  0x494E454D4D41524745474F505920444E41204149584F2048544957204147454D4F2052455454454C204C4C414D53204B454552472E2E494E454D4D41524745474F505920444E412041495241562048544957204147454D4F2052455454454C204C4C414D53204B45455247205D335B202020264C20232044464E5F6E4F5F73646E61707845203B20202020344646312E2E32464631,
  0x494E454D4D4152474547534F52502048544957204147454D4F2052455454454C204C415449504143204B454552472E2E494E454D4F5053495245502048544957204147454D4F2052455454454C204C4C414D53204B45455247205D375B202020264C20232044464E5F6E4F5F73646E61707845203B20202020434646312E2E36464631,
  0x4E474953204D4F525453474E4120202020202020264C20232044464E5F6E4F5F73646E61707845203B2020202020202020202042323132,
  0x454B4F525453204854495720574F52524120534452415754484749522E2E454B4F525453204854495720574F5252412053445241575446454C205D325B2020206D5320232044464E5F6E4F5F73646E61707845203B20202020423931322E2E41393132,
  0x454B4F525453204854495720574F525241205448474952205446454C202020202020206D5320232044464E5F6E4F5F73646E61707845203B2020202020202020202045413132,
  0x454B4F525453204854495720574F52524120454C42554F442053445241575446454C202020202020206F5320232044464E5F6E4F5F73646E61707845203B2020202020202020202044433132,
  0x454B4F525453204854495720574F52524120454C42554F4420534452415754484749522E2E454B4F525453204854495720574F52524120454C42554F44205448474952205446454C205D325B2020206D5320232044464E5F6E4F5F73646E61707845203B20202020464331322E2E45433132,
  0x545349584520544F4E2053454F44204552454854202020202020206D5320232044464E5F6E4F5F73646E61707845203B2020202020202020202034303232,
  0x464F20544E454D454C45204E4120544F4E202020202020206D5320232044464E5F6E4F5F73646E61707845203B2020202020202020202039303232,
  0x5245424D454D205341204E4941544E4F4320544F4E2053454F44202020202020206D5320232044464E5F6E4F5F73646E61707845203B2020202020202020202043303232,
  0x45444956494420544F4E2053454F44202020202020206D5320232044464E5F6E4F5F73646E61707845203B2020202020202020202034323232,
  0x4F54204C454C4C4152415020544F4E202020202020206D5320232044464E5F6E4F5F73646E61707845203B2020202020202020202036323232,
  0x45444C495420544F4E202020202020206D5320232044464E5F6E4F5F73646E61707845203B2020202020202020202031343232,
  0x4F54204C4155514520594C4C414349544F54504D59534120544F4E202020202020206D5320232044464E5F6E4F5F73646E61707845203B2020202020202020202034343232,
  0x4F54204C4155514520594C4C415554434120524F4E20594C4554414D49584F52505041205245485449454E202020202020206D5320232044464E5F6E4F5F73646E61707845203B2020202020202020202037343232,
  0x4F54204C415551452054534F4D4C4120544F4E202020202020206D5320232044464E5F6E4F5F73646E61707845203B2020202020202020202039343232,
  0x4F54204C4155514520544F4E202020202020206D5320232044464E5F6E4F5F73646E61707845203B2020202020202020202030363232,
  0x4F54204C414349544E45444920544F4E202020202020206D5320232044464E5F6E4F5F73646E61707845203B2020202020202020202032363232,
  0x4F54204C4155514520524F4E204E4148542D52455441455247205245485449454E2E2E4F5420544E454C41564955514520544F4E205D355B2020206D5320232044464E5F6E4F5F73646E61707845203B20202020313732322E2E44363232,
  0x4F5420544E454C41564955514520524F4E204E4148542D52455441455247205245485449454E2E2E4F5420544E454C41564955514520524F4E204E4148542D5353454C205245485449454E205D325B2020206D5320232044464E5F6E4F5F73646E61707845203B20202020353732322E2E34373232,
  0x4E4148542D5353454C20524F4E204E4148542D52455441455247205245485449454E2E2E4E4148542D5245544145524720524F4E204E4148542D5353454C205245485449454E205D325B2020206D5320232044464E5F6E4F5F73646E61707845203B20202020393732322E2E38373232,
  0x4445454343555320544F4E2053454F442E2E4544454345525020544F4E2053454F44205D325B2020206D5320232044464E5F6E4F5F73646E61707845203B20202020313832322E2E30383232,
  0x464F205445535245505553204120544F4E2E2E464F20544553425553204120544F4E205D325B2020206D5320232044464E5F6E4F5F73646E61707845203B20202020353832322E2E34383232,
  0x4F54204C4155514520524F4E20464F2054455352455055532041205245485449454E2E2E4F54204C4155514520524F4E20464F205445534255532041205245485449454E205D325B2020206D5320232044464E5F6E4F5F73646E61707845203B20202020393832322E2E38383232,
  0x454C4954534E52555420544847495220454C42554F4420524142204C4143495452455620454C42554F44204445544147454E2E2E45564F525020544F4E2053454F44205D345B2020206D5320232044464E5F6E4F5F73646E61707845203B20202020464132322E2E43413232,
  0x4F54204C4155514520524F20464F204C414E494749524F2045524155515320544F4E2E2E4C4155514520524F204544454345525020544F4E2053454F44205D345B2020206D5320232044464E5F6E4F5F73646E61707845203B20202020334532322E2E30453232,
  0x4C4155514520524F2050554F5247425553204C414D524F4E205341204E4941544E4F4320544F4E2053454F442E2E464F2050554F5247425553204C414D524F4E20544F4E205D345B2020206D5320232044464E5F6E4F5F73646E61707845203B20202020444532322E2E41453232,
  0x474E494B524F46202020202020206D5320232044464E5F6E4F5F73646E61707845203B2020202020202020202043444132,
  0x41472052455454454C20414E414741524948202020202020206F4C20232044464E5F6E4F5F73646E61707845203B2020202020202020202043343033,
  0x49472052455454454C20414E414741524948202020202020206F4C20232044464E5F6E4F5F73646E61707845203B2020202020202020202045343033,
  0x55472052455454454C20414E414741524948202020202020206F4C20232044464E5F6E4F5F73646E61707845203B2020202020202020202030353033,
  0x45472052455454454C20414E414741524948202020202020206F4C20232044464E5F6E4F5F73646E61707845203B2020202020202020202032353033,
  0x4F472052455454454C20414E414741524948202020202020206F4C20232044464E5F6E4F5F73646E61707845203B2020202020202020202034353033,
  0x415A2052455454454C20414E414741524948202020202020206F4C20232044464E5F6E4F5F73646E61707845203B2020202020202020202036353033,
  0x495A2052455454454C20414E414741524948202020202020206F4C20232044464E5F6E4F5F73646E61707845203B2020202020202020202038353033,
  0x555A2052455454454C20414E414741524948202020202020206F4C20232044464E5F6E4F5F73646E61707845203B2020202020202020202041353033,
  0x455A2052455454454C20414E414741524948202020202020206F4C20232044464E5F6E4F5F73646E61707845203B2020202020202020202043353033,
  0x4F5A2052455454454C20414E414741524948202020202020206F4C20232044464E5F6E4F5F73646E61707845203B2020202020202020202045353033,
  0x41442052455454454C20414E414741524948202020202020206F4C20232044464E5F6E4F5F73646E61707845203B2020202020202020202030363033,
  0x49442052455454454C20414E414741524948202020202020206F4C20232044464E5F6E4F5F73646E61707845203B2020202020202020202032363033,
  0x55442052455454454C20414E414741524948202020202020206F4C20232044464E5F6E4F5F73646E61707845203B2020202020202020202035363033,
  0x45442052455454454C20414E414741524948202020202020206F4C20232044464E5F6E4F5F73646E61707845203B2020202020202020202037363033,
  0x4F442052455454454C20414E414741524948202020202020206F4C20232044464E5F6E4F5F73646E61707845203B2020202020202020202039363033,
  0x41502052455454454C20414E4147415249482E2E41422052455454454C20414E414741524948205D325B2020206F4C20232044464E5F6E4F5F73646E61707845203B20202020313730332E2E30373033,
  0x49502052455454454C20414E4147415249482E2E49422052455454454C20414E414741524948205D325B2020206F4C20232044464E5F6E4F5F73646E61707845203B20202020343730332E2E33373033,
  0x55502052455454454C20414E4147415249482E2E55422052455454454C20414E414741524948205D325B2020206F4C20232044464E5F6E4F5F73646E61707845203B20202020373730332E2E36373033,
  0x45502052455454454C20414E4147415249482E2E45422052455454454C20414E414741524948205D325B2020206F4C20232044464E5F6E4F5F73646E61707845203B20202020413730332E2E39373033,
  0x4F502052455454454C20414E4147415249482E2E4F422052455454454C20414E414741524948205D325B2020206F4C20232044464E5F6E4F5F73646E61707845203B20202020443730332E2E43373033,
  0x55562052455454454C20414E414741524948202020202020206F4C20232044464E5F6E4F5F73646E61707845203B2020202020202020202034393033,
  0x4B52414D204E4F4954415245544920444543494F5620414E414741524948202020202020206D4C20232044464E5F6E4F5F73646E61707845203B2020202020202020202045393033,
  0x41472052455454454C20414E414B4154414B202020202020206F4C20232044464E5F6E4F5F73646E61707845203B2020202020202020202043413033,
  0x49472052455454454C20414E414B4154414B202020202020206F4C20232044464E5F6E4F5F73646E61707845203B2020202020202020202045413033,
  0x55472052455454454C20414E414B4154414B202020202020206F4C20232044464E5F6E4F5F73646E61707845203B2020202020202020202030423033,
  0x45472052455454454C20414E414B4154414B202020202020206F4C20232044464E5F6E4F5F73646E61707845203B2020202020202020202032423033,
  0x4F472052455454454C20414E414B4154414B202020202020206F4C20232044464E5F6E4F5F73646E61707845203B2020202020202020202034423033,
  0x415A2052455454454C20414E414B4154414B202020202020206F4C20232044464E5F6E4F5F73646E61707845203B2020202020202020202036423033,
  0x495A2052455454454C20414E414B4154414B202020202020206F4C20232044464E5F6E4F5F73646E61707845203B2020202020202020202038423033,
  0x555A2052455454454C20414E414B4154414B202020202020206F4C20232044464E5F6E4F5F73646E61707845203B2020202020202020202041423033,
  0x455A2052455454454C20414E414B4154414B202020202020206F4C20232044464E5F6E4F5F73646E61707845203B2020202020202020202043423033,
  0x4F5A2052455454454C20414E414B4154414B202020202020206F4C20232044464E5F6E4F5F73646E61707845203B2020202020202020202045423033,
  0x41442052455454454C20414E414B4154414B202020202020206F4C20232044464E5F6E4F5F73646E61707845203B2020202020202020202030433033,
  0x49442052455454454C20414E414B4154414B202020202020206F4C20232044464E5F6E4F5F73646E61707845203B2020202020202020202032433033,
  0x55442052455454454C20414E414B4154414B202020202020206F4C20232044464E5F6E4F5F73646E61707845203B2020202020202020202035433033,
  0x45442052455454454C20414E414B4154414B202020202020206F4C20232044464E5F6E4F5F73646E61707845203B2020202020202020202037433033,
  0x4F442052455454454C20414E414B4154414B202020202020206F4C20232044464E5F6E4F5F73646E61707845203B2020202020202020202039433033,
  0x41502052455454454C20414E414B4154414B2E2E41422052455454454C20414E414B4154414B205D325B2020206F4C20232044464E5F6E4F5F73646E61707845203B20202020314430332E2E30443033,
  0x49502052455454454C20414E414B4154414B2E2E49422052455454454C20414E414B4154414B205D325B2020206F4C20232044464E5F6E4F5F73646E61707845203B20202020344430332E2E33443033,
  0x55502052455454454C20414E414B4154414B2E2E55422052455454454C20414E414B4154414B205D325B2020206F4C20232044464E5F6E4F5F73646E61707845203B20202020374430332E2E36443033,
  0x45502052455454454C20414E414B4154414B2E2E45422052455454454C20414E414B4154414B205D325B2020206F4C20232044464E5F6E4F5F73646E61707845203B20202020414430332E2E39443033,
  0x4F502052455454454C20414E414B4154414B2E2E4F422052455454454C20414E414B4154414B205D325B2020206F4C20232044464E5F6E4F5F73646E61707845203B20202020444430332E2E43443033,
  0x55562052455454454C20414E414B4154414B202020202020206F4C20232044464E5F6E4F5F73646E61707845203B2020202020202020202034463033,
  0x4F562052455454454C20414E414B4154414B2E2E41562052455454454C20414E414B4154414B205D345B2020206F4C20232044464E5F6E4F5F73646E61707845203B20202020414630332E2E37463033,
  0x4B52414D204E4F4954415245544920444543494F5620414E414B4154414B202020202020206D4C20232044464E5F6E4F5F73646E61707845203B2020202020202020202045463033,
  0x48494820454C42414C4C5953204C55474E41482E2E414720454C42414C4C5953204C55474E4148205D32373131315B206F4C20232044464E5F6E4F5F73646E61707845203B20202020334137442E2E30304341,
  0x5149524948204854495720444F592052455454454C20574552424548202020202020206F4C20232044464E5F6E4F5F73646E61707845203B2020202020202020202044314246,
  0x484154415020444F5920444F59204853494444495920455255544147494C20574552424548202020202020206F4C20232044464E5F6E4F5F73646E61707845203B2020202020202020202046314246,
  0x4853454741442048544957204E4959415A2052455454454C205745524245482E2E544F44204E4948532048544957204E4948532052455454454C20574552424548205D33315B20206F4C20232044464E5F6E4F5F73646E61707845203B20202020363342462E2E41324246,
  0x48534547414420485449572044454D414C2052455454454C205745524245482E2E4853454741442048544957205445542052455454454C20574552424548205D355B2020206F4C20232044464E5F6E4F5F73646E61707845203B20202020433342462E2E38334246,
  0x4853454741442048544957204D454D2052455454454C20574552424548202020202020206F4C20232044464E5F6E4F5F73646E61707845203B2020202020202020202045334246,
  0x485345474144204854495720484B454D41532052455454454C205745524245482E2E4853454741442048544957204E554E2052455454454C20574552424548205D325B2020206F4C20232044464E5F6E4F5F73646E61707845203B20202020313442462E2E30344246,
  0x48534547414420485449572045502052455454454C205745524245482E2E4853454741442048544957204550204C414E49462052455454454C20574552424548205D325B2020206F4C20232044464E5F6E4F5F73646E61707845203B20202020343442462E2E33344246,
  0x4546415220485449572045502052455454454C205745524245482E2E48534547414420485449572049444153542052455454454C20574552424548205D395B2020206F4C20232044464E5F6E4F5F73646E61707845203B20202020453442462E2E36344246,
  0x41484444442052455454454C2049485449414B202020202020206F4C20232044464E5F6E4F5F73646E61707845203B2020202020202020204139303131,
  0x4148522052455454454C2049485449414B202020202020206F4C20232044464E5F6E4F5F73646E61707845203B2020202020202020204339303131,
  0x41562052455454454C2049485449414B202020202020206F4C20232044464E5F6E4F5F73646E61707845203B2020202020202020204241303131,
  0x5541204E474953204C45574F5620414D4B4148432E2E4F204E474953204C45574F5620414D4B414843205D325B2020206E4D20232044464E5F6E4F5F73646E61707845203B202046323131312E2E4532313131,
  0x5541204E474953204C45574F56204148544E4152472E2E4F4F204E474953204C45574F56204148544E415247205D325B202020634D20232044464E5F6E4F5F73646E61707845203B202043343331312E2E4234333131,
  0x4F204E474953204C45574F5620415455485249542E2E4941204E474953204C45574F562041545548524954205D325B202020634D20232044464E5F6E4F5F73646E61707845203B202043423431312E2E4242343131,
  0x5541204E474953204C45574F56204154554852495420202020202020634D20232044464E5F6E4F5F73646E61707845203B2020202020202020204542343131,
  0x5541204E474953204C45574F56204D4148444449532E2E4F204E474953204C45574F56204D414844444953205D325B202020634D20232044464E5F6E4F5F73646E61707845203B202042423531312E2E4142353131,
  0x4F204E474953204C45574F56205552554B4120534556494420202020202020634D20232044464E5F6E4F5F73646E61707845203B2020202020202020203833393131,
  0x45544F4E204854484749452D59544E45575420444552444E554820454E4F204C4F424D5953204C41434953554D2E2E45544F4E20464C4148204C4F424D5953204C41434953554D205D375B2020206F5320232044464E5F6E4F5F73646E61707845203B202034363144312E2E4535314431,
  0x4B43414C422041535546204C4F424D5953204C41434953554D2E2E414D494E494D204C4F424D5953204C41434953554D205D365B2020206F5320232044464E5F6E4F5F73646E61707845203B202030433144312E2E4242314431,
  0x0,
  0x3631323231203A73746E696F702065646F63206C61746F542023,
  0x0,
  0x3D3D3D3D3D3D3D3D3D3D3D3D3D3D3D3D3D3D3D3D3D3D3D3D3D3D3D3D3D3D3D3D3D3D3D3D3D3D3D3D3D3D3D3D3D3D3D3D2023,
  0x0,
  0x29302E302E362065646F63696E5520666F2073612044455441434552504544282043464E5F6E4F5F73646E61707845203A79747265706F725020646576697265442023,
  0x2E35312320584155206F7420676E6964726F636361206465746172656E654720202023,
  0x2E656E6F20746F6E207369206874676E656C2064657A696C616D726F6E2065736F6877207372657463617261684320202023,
  0x2E7463617265746E692079616D207372657463617261686320657375616365622035312320584155206E69206D687469726F676C612065687420657375207473756D2053474E4952545320666F206E6F6974617A696C616D726F4E203A474E494E52415720202023,
  0x21737265746361726168632064657A696C616D726F6E2065687420666F20736874676E656C2065687420666F206D75732065687420796C69726173736563656E20746F6E20736920676E697274732064657A696C616D726F6E206120666F206874676E656C2065685420202020202020202020202023,
  0x0,
  0x534F4E4F5420414B4954594C414944204B4545524720474E494E49424D4F43202020202020206E4D20232043464E5F6E4F5F73646E61707845203B2020202020202020202034343330,
  0x4159592052455454454C2049524147414E415645442E2E41512052455454454C2049524147414E41564544205D385B2020206F4C20232043464E5F6E4F5F73646E61707845203B20202020463539302E2E38353930,
  0x4148522052455454454C20494C41474E45422E2E4152522052455454454C20494C41474E4542205D325B2020206F4C20232043464E5F6E4F5F73646E61707845203B20202020444439302E2E43443930,
  0x4159592052455454454C20494C41474E4542202020202020206F4C20232043464E5F6E4F5F73646E61707845203B2020202020202020202046443930,
  0x414C4C2052455454454C2049484B554D525547202020202020206F4C20232043464E5F6E4F5F73646E61707845203B2020202020202020202033334130,
  0x4148532052455454454C2049484B554D525547202020202020206F4C20232043464E5F6E4F5F73646E61707845203B2020202020202020202036334130,
  0x415A2052455454454C2049484B554D5255472E2E4148484B2052455454454C2049484B554D525547205D335B2020206F4C20232043464E5F6E4F5F73646E61707845203B20202020423541302E2E39354130,
  0x41462052455454454C2049484B554D525547202020202020206F4C20232043464E5F6E4F5F73646E61707845203B2020202020202020202045354130,
  0x4148522052455454454C20415949524F2E2E4152522052455454454C20415949524F205D325B2020206F4C20232043464E5F6E4F5F73646E61707845203B20202020443542302E2E43354230,
  0x4148472052455454454C204E415445424954202020202020206F4C20232043464E5F6E4F5F73646E61707845203B2020202020202020202033344630,
  0x414844442052455454454C204E415445424954202020202020206F4C20232043464E5F6E4F5F73646E61707845203B2020202020202020202044344630,
  0x4148442052455454454C204E415445424954202020202020206F4C20232043464E5F6E4F5F73646E61707845203B2020202020202020202032354630,
  0x4148422052455454454C204E415445424954202020202020206F4C20232043464E5F6E4F5F73646E61707845203B2020202020202020202037354630,
  0x41485A442052455454454C204E415445424954202020202020206F4C20232043464E5F6E4F5F73646E61707845203B2020202020202020202043354630,
  0x4153534B2052455454454C204E415445424954202020202020206F4C20232043464E5F6E4F5F73646E61707845203B2020202020202020202039364630,
  0x4949204E474953204C45574F56204E415445424954202020202020206E4D20232043464E5F6E4F5F73646E61707845203B2020202020202020202033374630,
  0x522043494C41434F56204E474953204C45574F56204E4154454249542E2E5555204E474953204C45574F56204E415445424954205D325B2020206E4D20232043464E5F6E4F5F73646E61707845203B20202020363746302E2E35374630,
  0x4C2043494C41434F56204E474953204C45574F56204E415445424954202020202020206E4D20232043464E5F6E4F5F73646E61707845203B2020202020202020202038374630,
  0x4949204445535245564552204E474953204C45574F56204E415445424954202020202020206E4D20232043464E5F6E4F5F73646E61707845203B2020202020202020202031384630,
  0x4148472052455454454C2044454E494F4A425553204E415445424954202020202020206E4D20232043464E5F6E4F5F73646E61707845203B2020202020202020202033394630,
  0x414844442052455454454C2044454E494F4A425553204E415445424954202020202020206E4D20232043464E5F6E4F5F73646E61707845203B2020202020202020202044394630,
  0x4148442052455454454C2044454E494F4A425553204E415445424954202020202020206E4D20232043464E5F6E4F5F73646E61707845203B2020202020202020202032414630,
  0x4148422052455454454C2044454E494F4A425553204E415445424954202020202020206E4D20232043464E5F6E4F5F73646E61707845203B2020202020202020202037414630,
  0x41485A442052455454454C2044454E494F4A425553204E415445424954202020202020206E4D20232043464E5F6E4F5F73646E61707845203B2020202020202020202043414630,
  0x4153534B2052455454454C2044454E494F4A425553204E415445424954202020202020206E4D20232043464E5F6E4F5F73646E61707845203B2020202020202020202039424630,
  0x474E494B524F46202020202020206D5320232043464E5F6E4F5F73646E61707845203B2020202020202020202043444132,
  0x5149524948204854495720444F592052455454454C20574552424548202020202020206F4C20232043464E5F6E4F5F73646E61707845203B2020202020202020202044314246,
  0x484154415020444F5920444F59204853494444495920455255544147494C20574552424548202020202020206F4C20232043464E5F6E4F5F73646E61707845203B2020202020202020202046314246,
  0x4853454741442048544957204E4959415A2052455454454C205745524245482E2E544F44204E4948532048544957204E4948532052455454454C20574552424548205D33315B20206F4C20232043464E5F6E4F5F73646E61707845203B20202020363342462E2E41324246,
  0x48534547414420485449572044454D414C2052455454454C205745524245482E2E4853454741442048544957205445542052455454454C20574552424548205D355B2020206F4C20232043464E5F6E4F5F73646E61707845203B20202020433342462E2E38334246,
  0x4853454741442048544957204D454D2052455454454C20574552424548202020202020206F4C20232043464E5F6E4F5F73646E61707845203B2020202020202020202045334246,
  0x485345474144204854495720484B454D41532052455454454C205745524245482E2E4853454741442048544957204E554E2052455454454C20574552424548205D325B2020206F4C20232043464E5F6E4F5F73646E61707845203B20202020313442462E2E30344246,
  0x48534547414420485449572045502052455454454C205745524245482E2E4853454741442048544957204550204C414E49462052455454454C20574552424548205D325B2020206F4C20232043464E5F6E4F5F73646E61707845203B20202020343442462E2E33344246,
  0x4546415220485449572045502052455454454C205745524245482E2E48534547414420485449572049444153542052455454454C20574552424548205D395B2020206F4C20232043464E5F6E4F5F73646E61707845203B20202020453442462E2E36344246,
  0x45544F4E204854484749452D59544E45575420444552444E554820454E4F204C4F424D5953204C41434953554D2E2E45544F4E20464C4148204C4F424D5953204C41434953554D205D375B2020206F5320232043464E5F6E4F5F73646E61707845203B202034363144312E2E4535314431,
  0x4B43414C422041535546204C4F424D5953204C41434953554D2E2E414D494E494D204C4F424D5953204C41434953554D205D365B2020206F5320232043464E5F6E4F5F73646E61707845203B202030433144312E2E4242314431,
  0x0,
  0x3538203A73746E696F702065646F63206C61746F542023,
  0x0,
  0x3D3D3D3D3D3D3D3D3D3D3D3D3D3D3D3D3D3D3D3D3D3D3D3D3D3D3D3D3D3D3D3D3D3D3D3D3D3D3D3D3D3D3D3D3D3D3D3D2023,
  0x0,
  0x29302E302E362065646F63696E5520666F20736120444554414345525045442820444B464E5F6E4F5F73646E61707845203A79747265706F725020646576697265442023,
  0x2E35312320584155206F7420676E6964726F636361206465746172656E654720202023,
  0x2E656E6F20746F6E207369206874676E656C2064657A696C616D726F6E2065736F6877207372657463617261684320202023,
  0x2E7463617265746E692079616D207372657463617261686320657375616365622035312320584155206E69206D687469726F676C612065687420657375207473756D2053474E4952545320666F206E6F6974617A696C616D726F4E203A474E494E52415720202023,
  0x21737265746361726168632064657A696C616D726F6E2065687420666F20736874676E656C2065687420666F206D75732065687420796C69726173736563656E20746F6E20736920676E697274732064657A696C616D726F6E206120666F206874676E656C2065685420202020202020202020202023,
  0x0,
  0x534953455245414944202020202020206B53202320444B464E5F6E4F5F73646E61707845203B2020202020202020202038413030,
  0x4E4F5243414D202020202020206B53202320444B464E5F6E4F5F73646E61707845203B2020202020202020202046413030,
  0x544E45434341204554554341202020202020206B53202320444B464E5F6E4F5F73646E61707845203B2020202020202020202034423030,
  0x414C4C49444543202020202020206B53202320444B464E5F6E4F5F73646E61707845203B2020202020202020202038423030,
  0x5352455452415551204545524854204E4F495443415246205241474C55562E2E5245545241555120454E4F204E4F495443415246205241474C5556205D335B2020206F4E202320444B464E5F6E4F5F73646E61707845203B20202020454230302E2E43423030,
  0x45564F424120474E4952204854495720412052455454454C204C415449504143204E4954414C2E2E4556415247204854495720412052455454454C204C415449504143204E4954414C205D365B202020264C202320444B464E5F6E4F5F73646E61707845203B20202020354330302E2E30433030,
  0x534953455245414944204854495720492052455454454C204C415449504143204E4954414C2E2E414C4C49444543204854495720432052455454454C204C415449504143204E4954414C205D395B202020264C202320444B464E5F6E4F5F73646E61707845203B20202020464330302E2E37433030,
  0x5349534552454149442048544957204F2052455454454C204C415449504143204E4954414C2E2E45444C49542048544957204E2052455454454C204C415449504143204E4954414C205D365B202020264C202320444B464E5F6E4F5F73646E61707845203B20202020364430302E2E31443030,
  0x4554554341204854495720592052455454454C204C415449504143204E4954414C2E2E4556415247204854495720552052455454454C204C415449504143204E4954414C205D355B202020264C202320444B464E5F6E4F5F73646E61707845203B20202020444430302E2E39443030,
  0x45564F424120474E4952204854495720412052455454454C204C4C414D53204E4954414C2E2E4556415247204854495720412052455454454C204C4C414D53204E4954414C205D365B202020264C202320444B464E5F6E4F5F73646E61707845203B20202020354530302E2E30453030,
  0x534953455245414944204854495720492052455454454C204C4C414D53204E4954414C2E2E414C4C49444543204854495720432052455454454C204C4C414D53204E4954414C205D395B202020264C202320444B464E5F6E4F5F73646E61707845203B20202020464530302E2E37453030,
  0x5349534552454149442048544957204F2052455454454C204C4C414D53204E4954414C2E2E45444C49542048544957204E2052455454454C204C4C414D53204E4954414C205D365B202020264C202320444B464E5F6E4F5F73646E61707845203B20202020364630302E2E31463030,
  0x4554554341204854495720592052455454454C204C4C414D53204E4954414C2E2E4556415247204854495720552052455454454C204C4C414D53204E4954414C205D355B202020264C202320444B464E5F6E4F5F73646E61707845203B20202020444630302E2E39463030,
  0x4E4F524143204854495720442052455454454C204C4C414D53204E4954414C2E2E534953455245414944204854495720592052455454454C204C4C414D53204E4954414C205D37315B2020264C202320444B464E5F6E4F5F73646E61707845203B20202020463031302E2E46463030,
  0x58454C464D5543524943204854495720482052455454454C204C4C414D53204E4954414C2E2E4E4F5243414D204854495720452052455454454C204C415449504143204E4954414C205D30325B2020264C202320444B464E5F6E4F5F73646E61707845203B20202020353231302E2E32313130,
  0x45564F424120544F44204854495720492052455454454C204C415449504143204E4954414C2E2E45444C4954204854495720492052455454454C204C415449504143204E4954414C205D395B202020264C202320444B464E5F6E4F5F73646E61707845203B20202020303331302E2E38323130,
  0x414C4C494445432048544957204B2052455454454C204C4C414D53204E4954414C2E2E4A4920455255544147494C204C415449504143204E4954414C205D365B202020264C202320444B464E5F6E4F5F73646E61707845203B20202020373331302E2E32333130,
  0x544F4420454C4444494D2048544957204C2052455454454C204C4C414D53204E4954414C2E2E45545543412048544957204C2052455454454C204C415449504143204E4954414C205D385B202020264C202320444B464E5F6E4F5F73646E61707845203B20202020303431302E2E39333130,
  0x4548504F5254534F5041205942204445444543455250204E2052455454454C204C4C414D53204E4954414C2E2E45545543412048544957204E2052455454454C204C415449504143204E4954414C205D375B202020264C202320444B464E5F6E4F5F73646E61707845203B20202020393431302E2E33343130,
  0x455455434120454C42554F442048544957204F2052455454454C204C4C414D53204E4954414C2E2E4E4F5243414D2048544957204F2052455454454C204C415449504143204E4954414C205D365B202020264C202320444B464E5F6E4F5F73646E61707845203B20202020313531302E2E43343130,
  0x4E4F524143204854495720542052455454454C204C4C414D53204E4954414C2E2E4554554341204854495720522052455454454C204C415449504143204E4954414C205D38315B2020264C202320444B464E5F6E4F5F73646E61707845203B20202020353631302E2E34353130,
  0x4E4F5241432048544957205A2052455454454C204C4C414D53204E4954414C2E2E45444C4954204854495720552052455454454C204C415449504143204E4954414C205D33325B2020264C202320444B464E5F6E4F5F73646E61707845203B20202020453731302E2E38363130,
  0x4E524F482048544957204F2052455454454C204C4C414D53204E4954414C2E2E4E524F482048544957204F2052455454454C204C415449504143204E4954414C205D325B202020264C202320444B464E5F6E4F5F73646E61707845203B20202020314131302E2E30413130,
  0x4E524F48204854495720552052455454454C204C4C414D53204E4954414C2E2E4E524F48204854495720552052455454454C204C415449504143204E4954414C205D325B202020264C202320444B464E5F6E4F5F73646E61707845203B20202020304231302E2E46413130,
  0x455641524720444E4120534953455245414944204854495720552052455454454C204C4C414D53204E4954414C2E2E4E4F5241432048544957205A442052455454454C204C415449504143204E4954414C205D35325B2020264C202320444B464E5F6E4F5F73646E61707845203B20202020434431302E2E34433130,
  0x4E4F5243414D20485449572045412052455454454C204C4C414D53204E4954414C2E2E4E4F5243414D20444E4120534953455245414944204854495720412052455454454C204C415449504143204E4954414C205D365B202020264C202320444B464E5F6E4F5F73646E61707845203B20202020334531302E2E45443130,
  0x4554554341204854495720472052455454454C204C4C414D53204E4954414C2E2E4E4F524143204854495720472052455454454C204C415449504143204E4954414C205D36315B2020264C202320444B464E5F6E4F5F73646E61707845203B20202020354631302E2E36453130,
  0x574F4C454220414D4D4F43204854495720542052455454454C204C4C414D53204E4954414C2E2E45564152472048544957204E2052455454454C204C415449504143204E4954414C205D36335B2020264C202320444B464E5F6E4F5F73646E61707845203B20202020423132302E2E38463130,
  0x4E4F524143204854495720482052455454454C204C4C414D53204E4954414C2E2E4E4F524143204854495720482052455454454C204C415449504143204E4954414C205D325B202020264C202320444B464E5F6E4F5F73646E61707845203B20202020463132302E2E45313230,
  0x4E4F5243414D204854495720592052455454454C204C4C414D53204E4954414C2E2E45564F424120544F44204854495720412052455454454C204C415449504143204E4954414C205D34315B2020264C202320444B464E5F6E4F5F73646E61707845203B20202020333332302E2E36323230,
  0x544E4543434120455455434120454C42554F442E2E4556455242205D365B2020206B53202320444B464E5F6E4F5F73646E61707845203B20202020444432302E2E38443230,
  0x534F4E4F5420414B4954594C414944204B4545524720474E494E49424D4F43202020202020206E4D202320444B464E5F6E4F5F73646E61707845203B2020202020202020202034343330,
  0x494E454D4D41524745474F5059204B45455247202020202020206D4C202320444B464E5F6E4F5F73646E61707845203B2020202020202020202041373330,
  0x534F4E4F5420414B4954594C414944204B454552472E2E534F4E4F54204B45455247205D325B2020206B53202320444B464E5F6E4F5F73646E61707845203B20202020353833302E2E34383330,
  0x534F4E4F542048544957204148504C412052455454454C204C415449504143204B4545524720202020202020264C202320444B464E5F6E4F5F73646E61707845203B2020202020202020202036383330,
  0x534F4E4F5420485449572041544F492052455454454C204C415449504143204B454552472E2E534F4E4F542048544957204E4F4C495350452052455454454C204C415449504143204B45455247205D335B202020264C202320444B464E5F6E4F5F73646E61707845203B20202020413833302E2E38383330,
  0x534F4E4F542048544957204E4F5243494D4F2052455454454C204C415449504143204B4545524720202020202020264C202320444B464E5F6E4F5F73646E61707845203B2020202020202020202043383330,
  0x534F4E4F5420444E4120414B4954594C41494420485449572041544F492052455454454C204C4C414D53204B454552472E2E534F4E4F542048544957204E4F4C495350552052455454454C204C415449504143204B45455247205D335B202020264C202320444B464E5F6E4F5F73646E61707845203B20202020303933302E2E45383330,
  0x534F4E4F5420444E4120414B4954594C4149442048544957204E4F4C495350552052455454454C204C4C414D53204B454552472E2E414B4954594C41494420485449572041544F492052455454454C204C415449504143204B45455247205D375B202020264C202320444B464E5F6E4F5F73646E61707845203B20202020304233302E2E41413330,
  0x534F4E4F542048544957204147454D4F2052455454454C204C4C414D53204B454552472E2E414B4954594C41494420485449572041544F492052455454454C204C4C414D53204B45455247205D355B202020264C202320444B464E5F6E4F5F73646E61707845203B20202020454333302E2E41433330,
  0x4C4F424D5953204B4F4F4820444E41205349534552454149442048544957204E4F4C49535055204B454552472E2E4C4F424D5953204B4F4F4820444E412045545543412048544957204E4F4C49535055204B45455247205D325B202020264C202320444B464E5F6E4F5F73646E61707845203B20202020344433302E2E33443330,
  0x4F492052455454454C204C4154495041432043494C4C495259432E2E455641524720485449572045492052455454454C204C4154495041432043494C4C49525943205D325B202020264C202320444B464E5F6E4F5F73646E61707845203B20202020313034302E2E30303430,
  0x454A472052455454454C204C4154495041432043494C4C4952594320202020202020264C202320444B464E5F6E4F5F73646E61707845203B2020202020202020202033303430,
  0x49592052455454454C204C4154495041432043494C4C4952594320202020202020264C202320444B464E5F6E4F5F73646E61707845203B2020202020202020202037303430,
  0x552054524F48532052455454454C204C4154495041432043494C4C495259432E2E454A4B2052455454454C204C4154495041432043494C4C49525943205D335B202020264C202320444B464E5F6E4F5F73646E61707845203B20202020453034302E2E43303430,
  0x492054524F48532052455454454C204C4154495041432043494C4C4952594320202020202020264C202320444B464E5F6E4F5F73646E61707845203B2020202020202020202039313430,
  0x492054524F48532052455454454C204C4C414D532043494C4C4952594320202020202020264C202320444B464E5F6E4F5F73646E61707845203B2020202020202020202039333430,
  0x4F492052455454454C204C4C414D532043494C4C495259432E2E455641524720485449572045492052455454454C204C4C414D532043494C4C49525943205D325B202020264C202320444B464E5F6E4F5F73646E61707845203B20202020313534302E2E30353430,
  0x454A472052455454454C204C4C414D532043494C4C4952594320202020202020264C202320444B464E5F6E4F5F73646E61707845203B2020202020202020202033353430,
  0x49592052455454454C204C4C414D532043494C4C4952594320202020202020264C202320444B464E5F6E4F5F73646E61707845203B2020202020202020202037353430,
  0x552054524F48532052455454454C204C4C414D532043494C4C495259432E2E454A4B2052455454454C204C4C414D532043494C4C49525943205D335B202020264C202320444B464E5F6E4F5F73646E61707845203B20202020453534302E2E43353430,
  0x544E4543434120455641524720454C42554F4420485449572041535449485A492052455454454C204C4C414D532043494C4C495259432E2E544E4543434120455641524720454C42554F4420485449572041535449485A492052455454454C204C4154495041432043494C4C49525943205D325B202020264C202320444B464E5F6E4F5F73646E61707845203B20202020373734302E2E36373430,
  0x455645524220485449572045485A2052455454454C204C4C414D532043494C4C495259432E2E455645524220485449572045485A2052455454454C204C4154495041432043494C4C49525943205D325B202020264C202320444B464E5F6E4F5F73646E61707845203B20202020324334302E2E31433430,
  0x534953455245414944204854495720412052455454454C204C4C414D532043494C4C495259432E2E4556455242204854495720412052455454454C204C4154495041432043494C4C49525943205D345B202020264C202320444B464E5F6E4F5F73646E61707845203B20202020334434302E2E30443430,
  0x455645524220485449572045492052455454454C204C4C414D532043494C4C495259432E2E455645524220485449572045492052455454454C204C4154495041432043494C4C49525943205D325B202020264C202320444B464E5F6E4F5F73646E61707845203B20202020374434302E2E36443430,
  0x534953455245414944204854495720455A2052455454454C204C4C414D532043494C4C495259432E2E53495345524541494420485449572041574843532052455454454C204C4154495041432043494C4C49525943205D365B202020264C202320444B464E5F6E4F5F73646E61707845203B20202020464434302E2E41443430,
  0x5349534552454149442048544957204F2052455454454C204C4C414D532043494C4C495259432E2E4E4F5243414D204854495720492052455454454C204C4154495041432043494C4C49525943205D365B202020264C202320444B464E5F6E4F5F73646E61707845203B20202020374534302E2E32453430,
  0x5349534552454149442048544957204548432052455454454C204C4C414D532043494C4C495259432E2E5349534552454149442048544957204F204445525241422052455454454C204C4154495041432043494C4C49525943205D32315B2020264C202320444B464E5F6E4F5F73646E61707845203B20202020354634302E2E41453430,
  0x534953455245414944204854495720555245592052455454454C204C4C414D532043494C4C495259432E2E534953455245414944204854495720555245592052455454454C204C4154495041432043494C4C49525943205D325B202020264C202320444B464E5F6E4F5F73646E61707845203B20202020394634302E2E38463430,
  0x4E5749592048434520455255544147494C204C4C414D53204E41494E454D524120202020202020264C202320444B464E5F6E4F5F73646E61707845203B2020202020202020202037383530,
  0x45564F424120415A4D41482048544957204845592052455454454C204349424152412E2E45564F424120414444414D20485449572046454C412052455454454C20434942415241205D355B2020206F4C202320444B464E5F6E4F5F73646E61707845203B20202020363236302E2E32323630,
  0x48455920415A4D414820484749482052455454454C204349424152412E2E46454C4120415A4D414820484749482052455454454C20434942415241205D345B2020206F4C202320444B464E5F6E4F5F73646E61707845203B20202020383736302E2E35373630,
  0x45564F4241204845592048544957204845482052455454454C20434942415241202020202020206F4C202320444B464E5F6E4F5F73646E61707845203B2020202020202020202030433630]

def qcText10 : List Nat := [
  0x45564F424120415A4D41482048544957204C414F47204845482052455454454C20434942415241202020202020206F4C202320444B464E5F6E4F5F73646E61707845203B2020202020202020202032433630,
  0x45564F424120415A4D4148204854495720454552524142204845592052455454454C20434942415241202020202020206F4C202320444B464E5F6E4F5F73646E61707845203B2020202020202020202033443630,
  0x414E4E4E2052455454454C2049524147414E41564544202020202020206F4C202320444B464E5F6E4F5F73646E61707845203B2020202020202020202039323930,
  0x4152522052455454454C2049524147414E41564544202020202020206F4C202320444B464E5F6E4F5F73646E61707845203B2020202020202020202031333930,
  0x414C4C4C2052455454454C2049524147414E41564544202020202020206F4C202320444B464E5F6E4F5F73646E61707845203B2020202020202020202034333930,
  0x4159592052455454454C2049524147414E415645442E2E41512052455454454C2049524147414E41564544205D385B2020206F4C202320444B464E5F6E4F5F73646E61707845203B20202020463539302E2E38353930,
  0x5541204E474953204C45574F5620494C41474E45422E2E4F204E474953204C45574F5620494C41474E4542205D325B202020634D202320444B464E5F6E4F5F73646E61707845203B20202020434339302E2E42433930,
  0x4148522052455454454C20494C41474E45422E2E4152522052455454454C20494C41474E4542205D325B2020206F4C202320444B464E5F6E4F5F73646E61707845203B20202020444439302E2E43443930,
  0x4159592052455454454C20494C41474E4542202020202020206F4C202320444B464E5F6E4F5F73646E61707845203B2020202020202020202046443930,
  0x414C4C2052455454454C2049484B554D525547202020202020206F4C202320444B464E5F6E4F5F73646E61707845203B2020202020202020202033334130,
  0x4148532052455454454C2049484B554D525547202020202020206F4C202320444B464E5F6E4F5F73646E61707845203B2020202020202020202036334130,
  0x415A2052455454454C2049484B554D5255472E2E4148484B2052455454454C2049484B554D525547205D335B2020206F4C202320444B464E5F6E4F5F73646E61707845203B20202020423541302E2E39354130,
  0x41462052455454454C2049484B554D525547202020202020206F4C202320444B464E5F6E4F5F73646E61707845203B2020202020202020202045354130,
  0x4941204E474953204C45574F5620415949524F20202020202020634D202320444B464E5F6E4F5F73646E61707845203B2020202020202020202038344230,
  0x5541204E474953204C45574F5620415949524F2E2E4F204E474953204C45574F5620415949524F205D325B202020634D202320444B464E5F6E4F5F73646E61707845203B20202020433442302E2E42344230,
  0x4148522052455454454C20415949524F2E2E4152522052455454454C20415949524F205D325B2020206F4C202320444B464E5F6E4F5F73646E61707845203B20202020443542302E2E43354230,
  0x55412052455454454C204C494D4154202020202020206F4C202320444B464E5F6E4F5F73646E61707845203B2020202020202020202034394230,
  0x5541204E474953204C45574F56204C494D41542E2E4F204E474953204C45574F56204C494D4154205D335B202020634D202320444B464E5F6E4F5F73646E61707845203B20202020434342302E2E41434230,
  0x4941204E474953204C45574F56205547554C4554202020202020206E4D202320444B464E5F6E4F5F73646E61707845203B2020202020202020202038344330,
  0x4949204E474953204C45574F56204144414E4E414B20202020202020634D202320444B464E5F6E4F5F73646E61707845203B2020202020202020202030434330,
  0x4941204E474953204C45574F56204144414E4E414B2E2E4545204E474953204C45574F56204144414E4E414B205D325B202020634D202320444B464E5F6E4F5F73646E61707845203B20202020384343302E2E37434330,
  0x4F4F204E474953204C45574F56204144414E4E414B2E2E4F204E474953204C45574F56204144414E4E414B205D325B202020634D202320444B464E5F6E4F5F73646E61707845203B20202020424343302E2E41434330,
  0x5541204E474953204C45574F56204D414C4159414C414D2E2E4F204E474953204C45574F56204D414C4159414C414D205D335B202020634D202320444B464E5F6E4F5F73646E61707845203B20202020433444302E2E41344430,
  0x415655424D4F4B2041474944204E474953204C45574F5620414C41484E495320202020202020634D202320444B464E5F6E4F5F73646E61707845203B2020202020202020202041444430,
  0x415454494B554E415941472041414820415655424D4F4B204E474953204C45574F5620414C41484E49532E2E414C4C49502D414C45412041414820415655424D4F4B204E474953204C45574F5620414C41484E4953205D335B202020634D202320444B464E5F6E4F5F73646E61707845203B20202020454444302E2E43444430,
  0x4D412041524153205245544341524148432049414854202020202020206F4C202320444B464E5F6E4F5F73646E61707845203B2020202020202020202033334530,
  0x4D41204E474953204C45574F56204F414C202020202020206F4C202320444B464E5F6E4F5F73646E61707845203B2020202020202020202033424530,
  0x4F4D204F48204F414C2E2E4F4E204F48204F414C205D325B2020206F4C202320444B464E5F6E4F5F73646E61707845203B20202020444445302E2E43444530,
  0x4148472052455454454C204E415445424954202020202020206F4C202320444B464E5F6E4F5F73646E61707845203B2020202020202020202033344630,
  0x414844442052455454454C204E415445424954202020202020206F4C202320444B464E5F6E4F5F73646E61707845203B2020202020202020202044344630,
  0x4148442052455454454C204E415445424954202020202020206F4C202320444B464E5F6E4F5F73646E61707845203B2020202020202020202032354630,
  0x4148422052455454454C204E415445424954202020202020206F4C202320444B464E5F6E4F5F73646E61707845203B2020202020202020202037354630,
  0x41485A442052455454454C204E415445424954202020202020206F4C202320444B464E5F6E4F5F73646E61707845203B2020202020202020202043354630,
  0x4153534B2052455454454C204E415445424954202020202020206F4C202320444B464E5F6E4F5F73646E61707845203B2020202020202020202039364630,
  0x4949204E474953204C45574F56204E415445424954202020202020206E4D202320444B464E5F6E4F5F73646E61707845203B2020202020202020202033374630,
  0x4C4C2043494C41434F56204E474953204C45574F56204E4154454249542E2E5555204E474953204C45574F56204E415445424954205D355B2020206E4D202320444B464E5F6E4F5F73646E61707845203B20202020393746302E2E35374630,
  0x4949204445535245564552204E474953204C45574F56204E415445424954202020202020206E4D202320444B464E5F6E4F5F73646E61707845203B2020202020202020202031384630,
  0x4148472052455454454C2044454E494F4A425553204E415445424954202020202020206E4D202320444B464E5F6E4F5F73646E61707845203B2020202020202020202033394630,
  0x414844442052455454454C2044454E494F4A425553204E415445424954202020202020206E4D202320444B464E5F6E4F5F73646E61707845203B2020202020202020202044394630,
  0x4148442052455454454C2044454E494F4A425553204E415445424954202020202020206E4D202320444B464E5F6E4F5F73646E61707845203B2020202020202020202032414630,
  0x4148422052455454454C2044454E494F4A425553204E415445424954202020202020206E4D202320444B464E5F6E4F5F73646E61707845203B2020202020202020202037414630,
  0x41485A442052455454454C2044454E494F4A425553204E415445424954202020202020206E4D202320444B464E5F6E4F5F73646E61707845203B2020202020202020202043414630,
  0x4153534B2052455454454C2044454E494F4A425553204E415445424954202020202020206E4D202320444B464E5F6E4F5F73646E61707845203B2020202020202020202039424630,
  0x55552052455454454C2052414D4E41594D202020202020206F4C202320444B464E5F6E4F5F73646E61707845203B2020202020202020202036323031,
  0x474E55444554204152414B412052455454454C204553454E494C4142202020202020206F4C202320444B464E5F6E4F5F73646E61707845203B2020202020202020202036304231,
  0x474E55444554204152414B492052455454454C204553454E494C4142202020202020206F4C202320444B464E5F6E4F5F73646E61707845203B2020202020202020202038304231,
  0x474E55444554204152414B552052455454454C204553454E494C4142202020202020206F4C202320444B464E5F6E4F5F73646E61707845203B2020202020202020202041304231,
  0x474E5544455420415045522041522052455454454C204553454E494C4142202020202020206F4C202320444B464E5F6E4F5F73646E61707845203B2020202020202020202043304231,
  0x474E554445542041474E454C20414C2052455454454C204553454E494C4142202020202020206F4C202320444B464E5F6E4F5F73646E61707845203B2020202020202020202045304231,
  0x474E55444554204152414B4F2052455454454C204553454E494C4142202020202020206F4C202320444B464E5F6E4F5F73646E61707845203B2020202020202020202032314231,
  0x474E554445542041504552204152204E474953204C45574F56204553454E494C414220202020202020634D202320444B464E5F6E4F5F73646E61707845203B2020202020202020202042334231,
  0x474E554445542041474E454C20414C204E474953204C45574F56204553454E494C414220202020202020634D202320444B464E5F6E4F5F73646E61707845203B2020202020202020202044334231,
  0x474E55444554204150455220474E494C4154204E474953204C45574F56204553454E494C41422E2E474E5544455420474E494C4154204E474953204C45574F56204553454E494C4142205D325B202020634D202320444B464E5F6E4F5F73646E61707845203B20202020313442312E2E30344231,
  0x474E55444554205445504550204E474953204C45574F56204553454E494C414220202020202020634D202320444B464E5F6E4F5F73646E61707845203B2020202020202020202033344231,
  0x45564F424120544F442048544957205320474E4F4C2052455454454C204C4C414D53204E4954414C2E2E574F4C454220474E4952204854495720412052455454454C204C415449504143204E4954414C205D3635315B20264C202320444B464E5F6E4F5F73646E61707845203B20202020423945312E2E30304531,
  0x45444C4954204854495720592052455454454C204C4C414D53204E4954414C2E2E574F4C454220544F44204854495720412052455454454C204C415449504143204E4954414C205D30395B2020264C202320444B464E5F6E4F5F73646E61707845203B20202020394645312E2E30414531,
  0x4149584F20444E412041495341442048544957204E4F4C495350452052455454454C204C4C414D53204B454552472E2E494C4953502048544957204148504C412052455454454C204C4C414D53204B45455247205D32325B2020264C202320444B464E5F6E4F5F73646E61707845203B20202020353146312E2E30304631,
  0x4149584F20444E412041495341442048544957204E4F4C495350452052455454454C204C415449504143204B454552472E2E494C4953502048544957204E4F4C495350452052455454454C204C415449504143204B45455247205D365B202020264C202320444B464E5F6E4F5F73646E61707845203B20202020443146312E2E38314631,
  0x4149584F20444E412041495341442048544957204E4F5243494D4F2052455454454C204C4C414D53204B454552472E2E494C4953502048544957204154452052455454454C204C4C414D53204B45455247205D38335B2020264C202320444B464E5F6E4F5F73646E61707845203B20202020353446312E2E30324631,
  0x4149584F20444E412041495341442048544957204E4F5243494D4F2052455454454C204C415449504143204B454552472E2E494C4953502048544957204E4F5243494D4F2052455454454C204C415449504143204B45455247205D365B202020264C202320444B464E5F6E4F5F73646E61707845203B20202020443446312E2E38344631,
  0x494E454D4F50534952455020444E412041495341442048544957204E4F4C495350552052455454454C204C4C414D53204B454552472E2E494C4953502048544957204E4F4C495350552052455454454C204C4C414D53204B45455247205D385B202020264C202320444B464E5F6E4F5F73646E61707845203B20202020373546312E2E30354631,
  0x41495341442048544957204E4F4C495350552052455454454C204C415449504143204B4545524720202020202020264C202320444B464E5F6E4F5F73646E61707845203B2020202020202020202039354631,
  0x414952415620444E412041495341442048544957204E4F4C495350552052455454454C204C415449504143204B4545524720202020202020264C202320444B464E5F6E4F5F73646E61707845203B2020202020202020202042354631,
  0x4149584F20444E412041495341442048544957204E4F4C495350552052455454454C204C415449504143204B4545524720202020202020264C202320444B464E5F6E4F5F73646E61707845203B2020202020202020202044354631,
  0x4149584F2048544957204147454D4F2052455454454C204C4C414D53204B454552472E2E494E454D4F50534952455020444E412041495341442048544957204E4F4C495350552052455454454C204C415449504143204B45455247205D31335B2020264C202320444B464E5F6E4F5F73646E61707845203B20202020443746312E2E46354631,
  0x494E454D4D41524745474F505920444E41204149584F2048544957204148504C412052455454454C204C4C414D53204B454552472E2E494E454D4D41524745474F505920444E4120494C4953502048544957204148504C412052455454454C204C4C414D53204B45455247205D33355B2020264C202320444B464E5F6E4F5F73646E61707845203B20202020344246312E2E30384631,
  0x494E454D4D4152474547534F52502048544957204148504C412052455454454C204C415449504143204B454552472E2E494E454D4F5053495245502048544957204148504C412052455454454C204C4C414D53204B45455247205D375B202020264C202320444B464E5F6E4F5F73646E61707845203B20202020434246312E2E36424631,
  0x53494E4F524F4B204B45455247202020202020206B53202320444B464E5F6E4F5F73646E61707845203B2020202020202020202044424631,
  0x494E454D4F50534952455020444E4120414B4954594C414944204B454552472E2E494C495350204B45455247205D335B2020206B53202320444B464E5F6E4F5F73646E61707845203B20202020314346312E2E46424631,
  0x494E454D4D41524745474F505920444E41204149584F2048544957204154452052455454454C204C4C414D53204B454552472E2E494E454D4D41524745474F505920444E412041495241562048544957204154452052455454454C204C4C414D53204B45455247205D335B202020264C202320444B464E5F6E4F5F73646E61707845203B20202020344346312E2E32434631,
  0x494E454D4D4152474547534F52502048544957204154452052455454454C204C415449504143204B454552472E2E494E454D4F5053495245502048544957204154452052455454454C204C4C414D53204B45455247205D375B202020264C202320444B464E5F6E4F5F73646E61707845203B20202020434346312E2E36434631,
  0x494E454D4F50534952455020444E4120494C495350204B454552472E2E414952415620444E4120494C495350204B45455247205D335B2020206B53202320444B464E5F6E4F5F73646E61707845203B20202020464346312E2E44434631,
  0x4149584F20444E4120414B4954594C41494420485449572041544F492052455454454C204C4C414D53204B454552472E2E59484341525620485449572041544F492052455454454C204C4C414D53204B45455247205D345B202020264C202320444B464E5F6E4F5F73646E61707845203B20202020334446312E2E30444631,
  0x4149584F20485449572041544F492052455454454C204C415449504143204B454552472E2E494E454D4F50534952455020485449572041544F492052455454454C204C4C414D53204B45455247205D365B202020264C202320444B464E5F6E4F5F73646E61707845203B20202020424446312E2E36444631,
  0x494E454D4F50534952455020444E41204149534144204B454552472E2E414952415620444E41204149534144204B45455247205D335B2020206B53202320444B464E5F6E4F5F73646E61707845203B20202020464446312E2E44444631,
  0x41495341442048544957204F48522052455454454C204C415449504143204B454552472E2E5948434152562048544957204E4F4C495350552052455454454C204C4C414D53204B45455247205D33315B2020264C202320444B464E5F6E4F5F73646E61707845203B20202020434546312E2E30454631,
  0x4149584F20444E4120414B4954594C414944204B454552472E2E414952415620444E4120414B4954594C414944204B45455247205D325B2020206B53202320444B464E5F6E4F5F73646E61707845203B20202020454546312E2E44454631,
  0x494E454D4D41524745474F505920444E41204149584F2048544957204147454D4F2052455454454C204C4C414D53204B454552472E2E494E454D4D41524745474F505920444E412041495241562048544957204147454D4F2052455454454C204C4C414D53204B45455247205D335B202020264C202320444B464E5F6E4F5F73646E61707845203B20202020344646312E2E32464631,
  0x494E454D4D4152474547534F52502048544957204147454D4F2052455454454C204C415449504143204B454552472E2E494E454D4F5053495245502048544957204147454D4F2052455454454C204C4C414D53204B45455247205D375B202020264C202320444B464E5F6E4F5F73646E61707845203B20202020434646312E2E36464631,
  0x4149534144204B454552472E2E4149584F204B45455247205D325B2020206B53202320444B464E5F6E4F5F73646E61707845203B20202020454646312E2E44464631,
  0x454E494C20574F4C20454C42554F44202020202020206F50202320444B464E5F6E4F5F73646E61707845203B2020202020202020202037313032,
  0x53495350494C4C45204C41544E4F5A49524F482E2E52454441454C20544F44204F5754205D325B2020206F50202320444B464E5F6E4F5F73646E61707845203B20202020363230322E2E35323032,
  0x454D49525020454C504952542E2E454D49525020454C42554F44205D325B2020206F50202320444B464E5F6E4F5F73646E61707845203B20202020343330322E2E33333032,
  0x454D49525020454C504952542044455352455645522E2E454D49525020454C42554F44204445535245564552205D325B2020206F50202320444B464E5F6E4F5F73646E61707845203B20202020373330322E2E36333032,
  0x4B52414D204E4F4954414D414C43584520454C42554F44202020202020206F50202320444B464E5F6E4F5F73646E61707845203B2020202020202020202043333032,
  0x454E494C5245564F202020202020206F50202320444B464E5F6E4F5F73646E61707845203B2020202020202020202045333032,
  0x4B52414D204E4F495453455551204E4F4954414D414C4358452E2E4B52414D204E4F49545345555120454C42554F44205D335B2020206F50202320444B464E5F6E4F5F73646E61707845203B20202020393430322E2E37343032,
  0x454D49525020454C50555244415551202020202020206F50202320444B464E5F6E4F5F73646E61707845203B2020202020202020202037353032,
  0x4E474953204545505552202020202020206353202320444B464E5F6E4F5F73646E61707845203B2020202020202020202038413032,
  0x5443454A42555320454854204F54204445535345524444412E2E464F20544E554F434341205D325B2020206F53202320444B464E5F6E4F5F73646E61707845203B20202020313031322E2E30303132,
  0x535549534C454320454552474544202020202020206F53202320444B464E5F6E4F5F73646E61707845203B2020202020202020202033303132,
  0x414E5520414441432E2E464F2045524143205D325B2020206F53202320444B464E5F6E4F5F73646E61707845203B20202020363031322E2E35303132,
  0x544945484E455248414620454552474544202020202020206F53202320444B464E5F6E4F5F73646E61707845203B2020202020202020202039303132,
  0x4E474953204F52454D554E202020202020206F53202320444B464E5F6E4F5F73646E61707845203B2020202020202020202036313132,
  0x4E474953204B52414D2045444152542E2E4B52414D2045434956524553205D335B2020206F53202320444B464E5F6E4F5F73646E61707845203B20202020323231322E2E30323132,
  0x4E474953204D4F525453474E4120202020202020264C202320444B464E5F6E4F5F73646E61707845203B2020202020202020202042323132,
  0x4E47495320454C494D4953434146202020202020206F53202320444B464E5F6E4F5F73646E61707845203B2020202020202020202042333132,
  0x454E4F20524F544152454D554E204E4F4954434152462E2E48544E4556455320454E4F204E4F495443415246205241474C5556205D36315B20206F4E202320444B464E5F6E4F5F73646E61707845203B20202020463531322E2E30353132,
  0x52554F46204C4152454D554E204E414D4F522E2E4F5754204C4152454D554E204E414D4F52205D335B2020206C4E202320444B464E5F6E4F5F73646E61707845203B20202020333631322E2E31363132,
  0x454E494E204C4152454D554E204E414D4F522E2E584953204C4152454D554E204E414D4F52205D345B2020206C4E202320444B464E5F6E4F5F73646E61707845203B20202020383631322E2E35363132,
  0x45564C455754204C4152454D554E204E414D4F522E2E4E4556454C45204C4152454D554E204E414D4F52205D325B2020206C4E202320444B464E5F6E4F5F73646E61707845203B20202020423631322E2E41363132,
  0x52554F46204C4152454D554E204E414D4F52204C4C414D532E2E4F5754204C4152454D554E204E414D4F52204C4C414D53205D335B2020206C4E202320444B464E5F6E4F5F73646E61707845203B20202020333731322E2E31373132,
  0x454E494E204C4152454D554E204E414D4F52204C4C414D532E2E584953204C4152454D554E204E414D4F52204C4C414D53205D345B2020206C4E202320444B464E5F6E4F5F73646E61707845203B20202020383731322E2E35373132,
  0x45564C455754204C4152454D554E204E414D4F52204C4C414D532E2E4E4556454C45204C4152454D554E204E414D4F52204C4C414D53205D325B2020206C4E202320444B464E5F6E4F5F73646E61707845203B20202020423731322E2E41373132,
  0x534452494854204F52455A204E4F495443415246205241474C5556202020202020206F4E202320444B464E5F6E4F5F73646E61707845203B2020202020202020202039383132,
  0x454B4F525453204854495720574F52524120534452415754484749522E2E454B4F525453204854495720574F5252412053445241575446454C205D325B2020206D53202320444B464E5F6E4F5F73646E61707845203B20202020423931322E2E41393132,
  0x454B4F525453204854495720574F525241205448474952205446454C202020202020206D53202320444B464E5F6E4F5F73646E61707845203B2020202020202020202045413132,
  0x454B4F525453204854495720574F52524120454C42554F442053445241575446454C202020202020206F53202320444B464E5F6E4F5F73646E61707845203B2020202020202020202044433132,
  0x454B4F525453204854495720574F52524120454C42554F4420534452415754484749522E2E454B4F525453204854495720574F52524120454C42554F44205448474952205446454C205D325B2020206D53202320444B464E5F6E4F5F73646E61707845203B20202020464331322E2E45433132,
  0x545349584520544F4E2053454F44204552454854202020202020206D53202320444B464E5F6E4F5F73646E61707845203B2020202020202020202034303232,
  0x464F20544E454D454C45204E4120544F4E202020202020206D53202320444B464E5F6E4F5F73646E61707845203B2020202020202020202039303232,
  0x5245424D454D205341204E4941544E4F4320544F4E2053454F44202020202020206D53202320444B464E5F6E4F5F73646E61707845203B2020202020202020202043303232,
  0x45444956494420544F4E2053454F44202020202020206D53202320444B464E5F6E4F5F73646E61707845203B2020202020202020202034323232,
  0x4F54204C454C4C4152415020544F4E202020202020206D53202320444B464E5F6E4F5F73646E61707845203B2020202020202020202036323232,
  0x4C41524745544E4920454C504952542E2E4C41524745544E4920454C42554F44205D325B2020206D53202320444B464E5F6E4F5F73646E61707845203B20202020443232322E2E43323232,
  0x4C41524745544E4920454D554C4F562E2E4C41524745544E492045434146525553205D325B2020206D53202320444B464E5F6E4F5F73646E61707845203B20202020303332322E2E46323232,
  0x45444C495420544F4E202020202020206D53202320444B464E5F6E4F5F73646E61707845203B2020202020202020202031343232,
  0x4F54204C4155514520594C4C414349544F54504D59534120544F4E202020202020206D53202320444B464E5F6E4F5F73646E61707845203B2020202020202020202034343232,
  0x4F54204C4155514520594C4C415554434120524F4E20594C4554414D49584F52505041205245485449454E202020202020206D53202320444B464E5F6E4F5F73646E61707845203B2020202020202020202037343232,
  0x4F54204C415551452054534F4D4C4120544F4E202020202020206D53202320444B464E5F6E4F5F73646E61707845203B2020202020202020202039343232,
  0x4F54204C4155514520544F4E202020202020206D53202320444B464E5F6E4F5F73646E61707845203B2020202020202020202030363232,
  0x4F54204C414349544E45444920544F4E202020202020206D53202320444B464E5F6E4F5F73646E61707845203B2020202020202020202032363232,
  0x4F54204C4155514520524F4E204E4148542D52455441455247205245485449454E2E2E4F5420544E454C41564955514520544F4E205D355B2020206D53202320444B464E5F6E4F5F73646E61707845203B20202020313732322E2E44363232,
  0x4F5420544E454C41564955514520524F4E204E4148542D52455441455247205245485449454E2E2E4F5420544E454C41564955514520524F4E204E4148542D5353454C205245485449454E205D325B2020206D53202320444B464E5F6E4F5F73646E61707845203B20202020353732322E2E34373232,
  0x4E4148542D5353454C20524F4E204E4148542D52455441455247205245485449454E2E2E4E4148542D5245544145524720524F4E204E4148542D5353454C205245485449454E205D325B2020206D53202320444B464E5F6E4F5F73646E61707845203B20202020393732322E2E38373232,
  0x4445454343555320544F4E2053454F442E2E4544454345525020544F4E2053454F44205D325B2020206D53202320444B464E5F6E4F5F73646E61707845203B20202020313832322E2E30383232,
  0x464F205445535245505553204120544F4E2E2E464F20544553425553204120544F4E205D325B2020206D53202320444B464E5F6E4F5F73646E61707845203B20202020353832322E2E34383232,
  0x4F54204C4155514520524F4E20464F2054455352455055532041205245485449454E2E2E4F54204C4155514520524F4E20464F205445534255532041205245485449454E205D325B2020206D53202320444B464E5F6E4F5F73646E61707845203B20202020393832322E2E38383232,
  0x454C4954534E52555420544847495220454C42554F4420524142204C4143495452455620454C42554F44204445544147454E2E2E45564F525020544F4E2053454F44205D345B2020206D53202320444B464E5F6E4F5F73646E61707845203B20202020464132322E2E43413232,
  0x4F54204C4155514520524F20464F204C414E494749524F2045524155515320544F4E2E2E4C4155514520524F204544454345525020544F4E2053454F44205D345B2020206D53202320444B464E5F6E4F5F73646E61707845203B20202020334532322E2E30453232,
  0x4C4155514520524F2050554F5247425553204C414D524F4E205341204E4941544E4F4320544F4E2053454F442E2E464F2050554F5247425553204C414D524F4E20544F4E205D345B2020206D53202320444B464E5F6E4F5F73646E61707845203B20202020444532322E2E41453232,
  0x504F5453204C4C55462059544E455754205245424D554E2E2E4E4554205245424D554E2044454C43524943205D31355B20206F4E202320444B464E5F6E4F5F73646E61707845203B20202020423934322E2E39363432,
  0x5A2052455454454C204C4C414D53204E4954414C2044455A49534548544E455241502E2E412052455454454C204C4C414D53204E4954414C2044455A49534548544E45524150205D36325B20206F53202320444B464E5F6E4F5F73646E61707845203B20202020354234322E2E43393432,
  0x524F54415245504F204C41524745544E4920454C50555244415551202020202020206D53202320444B464E5F6E4F5F73646E61707845203B2020202020202020202043304132,
  0x534E47495320534C415551452045564954554345534E4F432045455248542E2E4C41555145204E4F4C4F4320454C42554F44205D335B2020206D53202320444B464E5F6E4F5F73646E61707845203B20202020363741322E2E34374132,
  0x474E494B524F46202020202020206D53202320444B464E5F6E4F5F73646E61707845203B2020202020202020202043444132,
  0x41472052455454454C20414E414741524948202020202020206F4C202320444B464E5F6E4F5F73646E61707845203B2020202020202020202043343033,
  0x49472052455454454C20414E414741524948202020202020206F4C202320444B464E5F6E4F5F73646E61707845203B2020202020202020202045343033,
  0x55472052455454454C20414E414741524948202020202020206F4C202320444B464E5F6E4F5F73646E61707845203B2020202020202020202030353033,
  0x45472052455454454C20414E414741524948202020202020206F4C202320444B464E5F6E4F5F73646E61707845203B2020202020202020202032353033,
  0x4F472052455454454C20414E414741524948202020202020206F4C202320444B464E5F6E4F5F73646E61707845203B2020202020202020202034353033,
  0x415A2052455454454C20414E414741524948202020202020206F4C202320444B464E5F6E4F5F73646E61707845203B2020202020202020202036353033,
  0x495A2052455454454C20414E414741524948202020202020206F4C202320444B464E5F6E4F5F73646E61707845203B2020202020202020202038353033,
  0x555A2052455454454C20414E414741524948202020202020206F4C202320444B464E5F6E4F5F73646E61707845203B2020202020202020202041353033,
  0x455A2052455454454C20414E414741524948202020202020206F4C202320444B464E5F6E4F5F73646E61707845203B2020202020202020202043353033,
  0x4F5A2052455454454C20414E414741524948202020202020206F4C202320444B464E5F6E4F5F73646E61707845203B2020202020202020202045353033,
  0x41442052455454454C20414E414741524948202020202020206F4C202320444B464E5F6E4F5F73646E61707845203B2020202020202020202030363033,
  0x49442052455454454C20414E414741524948202020202020206F4C202320444B464E5F6E4F5F73646E61707845203B2020202020202020202032363033,
  0x55442052455454454C20414E414741524948202020202020206F4C202320444B464E5F6E4F5F73646E61707845203B2020202020202020202035363033,
  0x45442052455454454C20414E414741524948202020202020206F4C202320444B464E5F6E4F5F73646E61707845203B2020202020202020202037363033,
  0x4F442052455454454C20414E414741524948202020202020206F4C202320444B464E5F6E4F5F73646E61707845203B2020202020202020202039363033,
  0x41502052455454454C20414E4147415249482E2E41422052455454454C20414E414741524948205D325B2020206F4C202320444B464E5F6E4F5F73646E61707845203B20202020313730332E2E30373033,
  0x49502052455454454C20414E4147415249482E2E49422052455454454C20414E414741524948205D325B2020206F4C202320444B464E5F6E4F5F73646E61707845203B20202020343730332E2E33373033,
  0x55502052455454454C20414E4147415249482E2E55422052455454454C20414E414741524948205D325B2020206F4C202320444B464E5F6E4F5F73646E61707845203B20202020373730332E2E36373033,
  0x45502052455454454C20414E4147415249482E2E45422052455454454C20414E414741524948205D325B2020206F4C202320444B464E5F6E4F5F73646E61707845203B20202020413730332E2E39373033,
  0x4F502052455454454C20414E4147415249482E2E4F422052455454454C20414E414741524948205D325B2020206F4C202320444B464E5F6E4F5F73646E61707845203B20202020443730332E2E43373033,
  0x55562052455454454C20414E414741524948202020202020206F4C202320444B464E5F6E4F5F73646E61707845203B2020202020202020202034393033,
  0x4B52414D20444E554F5320444543494F562D494D455320414E4147415249482D414E414B4154414B2E2E4B52414D20444E554F5320444543494F5620414E4147415249482D414E414B4154414B205D325B2020206B53202320444B464E5F6E4F5F73646E61707845203B20202020433930332E2E42393033,
  0x4B52414D204E4F4954415245544920444543494F5620414E414741524948202020202020206D4C202320444B464E5F6E4F5F73646E61707845203B2020202020202020202045393033,
  0x49524F59204850415247494420414E414741524948202020202020206F4C202320444B464E5F6E4F5F73646E61707845203B2020202020202020202046393033,
  0x41472052455454454C20414E414B4154414B202020202020206F4C202320444B464E5F6E4F5F73646E61707845203B2020202020202020202043413033,
  0x49472052455454454C20414E414B4154414B202020202020206F4C202320444B464E5F6E4F5F73646E61707845203B2020202020202020202045413033,
  0x55472052455454454C20414E414B4154414B202020202020206F4C202320444B464E5F6E4F5F73646E61707845203B2020202020202020202030423033,
  0x45472052455454454C20414E414B4154414B202020202020206F4C202320444B464E5F6E4F5F73646E61707845203B2020202020202020202032423033,
  0x4F472052455454454C20414E414B4154414B202020202020206F4C202320444B464E5F6E4F5F73646E61707845203B2020202020202020202034423033,
  0x415A2052455454454C20414E414B4154414B202020202020206F4C202320444B464E5F6E4F5F73646E61707845203B2020202020202020202036423033,
  0x495A2052455454454C20414E414B4154414B202020202020206F4C202320444B464E5F6E4F5F73646E61707845203B2020202020202020202038423033,
  0x555A2052455454454C20414E414B4154414B202020202020206F4C202320444B464E5F6E4F5F73646E61707845203B2020202020202020202041423033,
  0x455A2052455454454C20414E414B4154414B202020202020206F4C202320444B464E5F6E4F5F73646E61707845203B2020202020202020202043423033,
  0x4F5A2052455454454C20414E414B4154414B202020202020206F4C202320444B464E5F6E4F5F73646E61707845203B2020202020202020202045423033,
  0x41442052455454454C20414E414B4154414B202020202020206F4C202320444B464E5F6E4F5F73646E61707845203B2020202020202020202030433033,
  0x49442052455454454C20414E414B4154414B202020202020206F4C202320444B464E5F6E4F5F73646E61707845203B2020202020202020202032433033,
  0x55442052455454454C20414E414B4154414B202020202020206F4C202320444B464E5F6E4F5F73646E61707845203B2020202020202020202035433033,
  0x45442052455454454C20414E414B4154414B202020202020206F4C202320444B464E5F6E4F5F73646E61707845203B2020202020202020202037433033,
  0x4F442052455454454C20414E414B4154414B202020202020206F4C202320444B464E5F6E4F5F73646E61707845203B2020202020202020202039433033,
  0x41502052455454454C20414E414B4154414B2E2E41422052455454454C20414E414B4154414B205D325B2020206F4C202320444B464E5F6E4F5F73646E61707845203B20202020314430332E2E30443033,
  0x49502052455454454C20414E414B4154414B2E2E49422052455454454C20414E414B4154414B205D325B2020206F4C202320444B464E5F6E4F5F73646E61707845203B20202020344430332E2E33443033,
  0x55502052455454454C20414E414B4154414B2E2E55422052455454454C20414E414B4154414B205D325B2020206F4C202320444B464E5F6E4F5F73646E61707845203B20202020374430332E2E36443033,
  0x45502052455454454C20414E414B4154414B2E2E45422052455454454C20414E414B4154414B205D325B2020206F4C202320444B464E5F6E4F5F73646E61707845203B20202020414430332E2E39443033,
  0x4F502052455454454C20414E414B4154414B2E2E4F422052455454454C20414E414B4154414B205D325B2020206F4C202320444B464E5F6E4F5F73646E61707845203B20202020444430332E2E43443033,
  0x55562052455454454C20414E414B4154414B202020202020206F4C202320444B464E5F6E4F5F73646E61707845203B2020202020202020202034463033,
  0x4F562052455454454C20414E414B4154414B2E2E41562052455454454C20414E414B4154414B205D345B2020206F4C202320444B464E5F6E4F5F73646E61707845203B20202020414630332E2E37463033,
  0x4B52414D204E4F4954415245544920444543494F5620414E414B4154414B202020202020206D4C202320444B464E5F6E4F5F73646E61707845203B2020202020202020202045463033,
  0x4F544F4B204850415247494420414E414B4154414B202020202020206F4C202320444B464E5F6E4F5F73646E61707845203B2020202020202020202046463033,
  0x5548204F20524554434152414843204E4145524F4B2044455A49534548544E455241502E2E4B4F4559494B204C55474E41482044455A49534548544E45524150205D31335B20206F53202320444B464E5F6E4F5F73646E61707845203B20202020453132332E2E30303233,
  0x4E45542048504152474F4544492044455A49534548544E455241502E2E454E4F2048504152474F4544492044455A49534548544E45524150205D30315B20206F4E202320444B464E5F6E4F5F73646E61707845203B20202020393232332E2E30323233,
  0x48434145522048504152474F4544492044455A49534548544E455241502E2E4E4F4F4D2048504152474F4544492044455A49534548544E45524150205D36325B20206F53202320444B464E5F6E4F5F73646E61707845203B20202020333432332E2E41323233,
  0x4E474953205049485352454E54524150202020202020206F53202320444B464E5F6E4F5F73646E61707845203B2020202020202020202030353233,
  0x4556494620595452494854205245424D554E2044454C435249432E2E454E4F2059544E455754205245424D554E2044454C43524943205D35315B20206F4E202320444B464E5F6E4F5F73646E61707845203B20202020463532332E2E31353233,
  0x5520474E554549204C55474E41482044454C435249432E2E41204B4F4559494B204C55474E41482044454C43524943205D37315B20206F53202320444B464E5F6E4F5F73646E61707845203B20202020453732332E2E45363233,
  0x5954464946205245424D554E2044454C435249432E2E58495320595452494854205245424D554E2044454C43524943205D35315B20206F4E202320444B464E5F6E4F5F73646E61707845203B20202020464232332E2E31423233,
  0x4E474953205954494C494241494C20444554494D494C2E2E595241554E414A20524F46204C4F424D5953204850415247454C455420434948504152474F454449205D36315B20206F53202320444B464E5F6E4F5F73646E61707845203B20202020464332332E2E30433233,
  0x4C4147204552415551532E2E415749455220454D414E2041524520455241555153205D3735325B206F53202320444B464E5F6E4F5F73646E61707845203B20202020464633332E2E46463233,
  0x48494820454C42414C4C5953204C55474E41482E2E414720454C42414C4C5953204C55474E4148205D32373131315B206F4C202320444B464E5F6E4F5F73646E61707845203B20202020334137442E2E30304341,
  0x545320455255544147494C204C4C414D53204E4954414C2E2E464620455255544147494C204C4C414D53204E4954414C205D375B202020264C202320444B464E5F6E4F5F73646E61707845203B20202020363042462E2E30304246,
  0x484558204E454D20455255544147494C204C4C414D53204E41494E454D52412E2E574F4E204E454D20455255544147494C204C4C414D53204E41494E454D5241205D355B202020264C202320444B464E5F6E4F5F73646E61707845203B20202020373142462E2E33314246,
  0x5149524948204854495720444F592052455454454C20574552424548202020202020206F4C202320444B464E5F6E4F5F73646E61707845203B2020202020202020202044314246,
  0x484154415020444F5920444F59204853494444495920455255544147494C20574552424548202020202020206F4C202320444B464E5F6E4F5F73646E61707845203B2020202020202020202046314246,
  0x4853454741442048544957204E4959415A2052455454454C205745524245482E2E544F44204E4948532048544957204E4948532052455454454C20574552424548205D33315B20206F4C202320444B464E5F6E4F5F73646E61707845203B20202020363342462E2E41324246,
  0x48534547414420485449572044454D414C2052455454454C205745524245482E2E4853454741442048544957205445542052455454454C20574552424548205D355B2020206F4C202320444B464E5F6E4F5F73646E61707845203B20202020433342462E2E38334246,
  0x4853454741442048544957204D454D2052455454454C20574552424548202020202020206F4C202320444B464E5F6E4F5F73646E61707845203B2020202020202020202045334246,
  0x485345474144204854495720484B454D41532052455454454C205745524245482E2E4853454741442048544957204E554E2052455454454C20574552424548205D325B2020206F4C202320444B464E5F6E4F5F73646E61707845203B20202020313442462E2E30344246,
  0x48534547414420485449572045502052455454454C205745524245482E2E4853454741442048544957204550204C414E49462052455454454C20574552424548205D325B2020206F4C202320444B464E5F6E4F5F73646E61707845203B20202020343442462E2E33344246,
  0x44454D414C2046454C4120455255544147494C205745524245482E2E48534547414420485449572049444153542052455454454C20574552424548205D30315B20206F4C202320444B464E5F6E4F5F73646E61707845203B20202020463442462E2E36344246,
  0x4D524F46204C414E49462045564F4241204845592048544957204845482052455454454C204349424152412E2E4D524F4620444554414C4F53492045564F4241204845592048544957204845482052455454454C20434942415241205D325B2020206F4C202320444B464E5F6E4F5F73646E61707845203B20202020354142462E2E34414246,
  0x4D524F46204C414E49462045564F424120415A4D4148204854495720454552524142204845592052455454454C204349424152412E2E4D524F4620444554414C4F53492045564F424120415A4D4148204854495720454552524142204845592052455454454C20434942415241205D325B2020206F4C202320444B464E5F6E4F5F73646E61707845203B20202020314242462E2E30424246,
  0x4D524F4620444554414C4F53492045564F424120415A4D4148204854495720552052455454454C20434942415241202020202020206F4C202320444B464E5F6E4F5F73646E61707845203B2020202020202020202044444246,
  0x4D524F46204C414954494E4920415255534B414D2046454C4120485449572045564F424120415A4D4148204854495720484559205A49484752494B2052554847495520455255544147494C204349424152412E2E4D524F4620444554414C4F53492046454C4120485449572045564F424120415A4D414820485449572048455920455255544147494C20434942415241205D38315B20206F4C202320444B464E5F6E4F5F73646E61707845203B20202020424642462E2E41454246,
  0x4D524F4620444554414C4F5349204E4154414854414620485449572046454C4120455255544147494C204349424152412E2E4D524F4620444554414C4F5349204D45454A20485449572045564F424120415A4D414820485449572048455920455255544147494C20434942415241205D3831335B206F4C202320444B464E5F6E4F5F73646E61707845203B20202020443344462E2E30304346,
  0x4D524F46204C414954494E49204D45454D2048544957204841484B2048544957204D45454D20455255544147494C204349424152412E2E4D524F46204C414954494E49204D45454D2048544957204D45454A20485449572048455420455255544147494C20434942415241205D34365B20206F4C202320444B464E5F6E4F5F73646E61707845203B20202020463844462E2E30354446,
  0x4D524F46204C414E4946204845592048544957204D45454A2048544957204E4F4F4E20455255544147494C204349424152412E2E4D524F46204C414954494E49204841484B2048544957204D45454A2048544957204D45454D20455255544147494C20434942415241205D34355B20206F4C202320444B464E5F6E4F5F73646E61707845203B20202020374344462E2E32394446,
  0x554F48554F4C414C414A414C4C414A20455255544147494C204349424152412E2E4D524F4620444554414C4F5349204E47495320504F54532043494E41524F4B205341204445535520414C4C415320455255544147494C20434942415241205D32315B20206F4C202320444B464E5F6E4F5F73646E61707845203B20202020424644462E2E30464446,
  0x4E474953204C414952202020202020206353202320444B464E5F6E4F5F73646E61707845203B2020202020202020202043464446,
  0x53495350494C4C45204C41544E4F5A49524F48204C4143495452455620524F46204D524F46204E4F495441544E4553455250202020202020206F50202320444B464E5F6E4F5F73646E61707845203B2020202020202020202039314546,
  0x52454441454C20544F44204F5754204C4143495452455620524F46204D524F46204E4F495441544E4553455250202020202020206F50202320444B464E5F6E4F5F73646E61707845203B2020202020202020202030334546,
  0x454E494C5245564F205956415720454C42554F442E2E454E494C5245564F20444548534144205D345B2020206F50202320444B464E5F6E4F5F73646E61707845203B20202020433445462E2E39344546,
  0x4D524F4620444554414C4F5349204E4154414D4D4144204349424152412E2E4D524F4620444554414C4F5349204E4154414854414620434942415241205D335B2020206F4C202320444B464E5F6E4F5F73646E61707845203B20202020323745462E2E30374546,
  0x4D524F4620444554414C4F5349204E4154415253414B20434942415241202020202020206F4C202320444B464E5F6E4F5F73646E61707845203B2020202020202020202034374546,
  0x4D524F46204C414944454D204E554B5553204349424152412E2E4D524F4620444554414C4F534920414854414620434942415241205D30315B20206F4C202320444B464E5F6E4F5F73646E61707845203B20202020463745462E2E36374546,
  0x4D524F46204C414944454D2045564F424120415A4D41482048544957204845592052455454454C204349424152412E2E4D524F4620444554414C4F53492045564F424120414444414D20485449572046454C412052455454454C20434942415241205D32315B20206F4C202320444B464E5F6E4F5F73646E61707845203B20202020433845462E2E31384546,
  0x4D524F46204C414E49462046454C412048544957204D414C20455255544147494C204349424152412E2E4D524F4620444554414C4F53492045564F424120414444414D20485449572046454C412048544957204D414C20455255544147494C20434942415241205D385B2020206F4C202320444B464E5F6E4F5F73646E61707845203B20202020434645462E2E35464546,
  0x4E4F5243414D2048544449574C4C5546202020202020206B53202320444B464E5F6E4F5F73646E61707845203B2020202020202020202033454646,
  0x41484444442052455454454C2049485449414B202020202020206F4C202320444B464E5F6E4F5F73646E61707845203B2020202020202020204139303131,
  0x4148522052455454454C2049485449414B202020202020206F4C202320444B464E5F6E4F5F73646E61707845203B2020202020202020204339303131,
  0x41562052455454454C2049485449414B202020202020206F4C202320444B464E5F6E4F5F73646E61707845203B2020202020202020204241303131,
  0x5541204E474953204C45574F5620414D4B4148432E2E4F204E474953204C45574F5620414D4B414843205D325B2020206E4D202320444B464E5F6E4F5F73646E61707845203B202046323131312E2E4532313131,
  0x5541204E474953204C45574F56204148544E4152472E2E4F4F204E474953204C45574F56204148544E415247205D325B202020634D202320444B464E5F6E4F5F73646E61707845203B202043343331312E2E4234333131,
  0x4F204E474953204C45574F5620415455485249542E2E4941204E474953204C45574F562041545548524954205D325B202020634D202320444B464E5F6E4F5F73646E61707845203B202043423431312E2E4242343131,
  0x5541204E474953204C45574F56204154554852495420202020202020634D202320444B464E5F6E4F5F73646E61707845203B2020202020202020204542343131,
  0x5541204E474953204C45574F56204D4148444449532E2E4F204E474953204C45574F56204D414844444953205D325B202020634D202320444B464E5F6E4F5F73646E61707845203B202042423531312E2E4142353131,
  0x4F204E474953204C45574F56205552554B4120534556494420202020202020634D202320444B464E5F6E4F5F73646E61707845203B2020202020202020203833393131,
  0x45544F4E204854484749452D59544E45575420444552444E554820454E4F204C4F424D5953204C41434953554D2E2E45544F4E20464C4148204C4F424D5953204C41434953554D205D375B2020206F53202320444B464E5F6E4F5F73646E61707845203B202034363144312E2E4535314431,
  0x4B43414C422041535546204C4F424D5953204C41434953554D2E2E414D494E494D204C4F424D5953204C41434953554D205D365B2020206F53202320444B464E5F6E4F5F73646E61707845203B202030433144312E2E4242314431,
  0x414D4D4F4320454E494E2054494749442E2E504F5453204C4C5546204F52455A205449474944205D31315B20206F4E202320444B464E5F6E4F5F73646E61707845203B202041303146312E2E3030314631,
  0x532052455454454C204C415449504143204E4954414C20444554454B43415242204C4C454853204553494F54524F542E2E412052455454454C204C415449504143204E4954414C2044455A49534548544E45524150205D37325B20206F53202320444B464E5F6E4F5F73646E61707845203B202041323146312E2E3031314631,
  0x5A572044454C435249432E2E44432044454C43524943205D325B2020206F53202320444B464E5F6E4F5F73646E61707845203B202045323146312E2E4432314631,
  0x435720444552415551532E2E56482044455241555153205D365B2020206F53202320444B464E5F6E4F5F73646E61707845203B202046343146312E2E4134314631,
  0x4E47495320524D204445534941522E2E4E47495320434D20444553494152205D335B2020206F53202320444B464E5F6E4F5F73646E61707845203B202043363146312E2E4136314631,
  0x4A4420455241555153202020202020206F53202320444B464E5F6E4F5F73646E61707845203B2020202020202020203039314631,
  0x4F4B4F4B20414E414B4154414B20444552415551532E2E414B4F4820414E41474152494820455241555153205D325B2020206F53202320444B464E5F6E4F5F73646E61707845203B202031303246312E2E3030324631,
  0x454420414E414B4154414B2044455241555153202020202020206F53202320444B464E5F6E4F5F73646E61707845203B2020202020202020203331324631,
  0x373535362D48504152474F4544492044454946494E55204B4A4320444554454B43415242204C4C454853204553494F54524F542E2E433237362D48504152474F4544492044454946494E55204B4A4320444554454B43415242204C4C454853204553494F54524F54205D395B2020206F53202320444B464E5F6E4F5F73646E61707845203B202038343246312E2E3034324631,
  0x0,
  0x3039333331203A73746E696F702065646F63206C61746F542023,
  0x0,
  0x3D3D3D3D3D3D3D3D3D3D3D3D3D3D3D3D3D3D3D3D3D3D3D3D3D3D3D3D3D3D3D3D3D3D3D3D3D3D3D3D3D3D3D3D3D3D3D3D2023,
  0x0,
  0x29302E302E362065646F63696E5520666F20736120444554414345525045442820434B464E5F6E4F5F73646E61707845203A79747265706F725020646576697265442023,
  0x2E35312320584155206F7420676E6964726F636361206465746172656E654720202023,
  0x2E656E6F20746F6E207369206874676E656C2064657A696C616D726F6E2065736F6877207372657463617261684320202023]

def qcText11 : List Nat := [
  0x2E7463617265746E692079616D207372657463617261686320657375616365622035312320584155206E69206D687469726F676C612065687420657375207473756D2053474E4952545320666F206E6F6974617A696C616D726F4E203A474E494E52415720202023,
  0x21737265746361726168632064657A696C616D726F6E2065687420666F20736874676E656C2065687420666F206D75732065687420796C69726173736563656E20746F6E20736920676E697274732064657A696C616D726F6E206120666F206874676E656C2065685420202020202020202020202023,
  0x0,
  0x534953455245414944202020202020206B53202320434B464E5F6E4F5F73646E61707845203B2020202020202020202038413030,
  0x4E4F5243414D202020202020206B53202320434B464E5F6E4F5F73646E61707845203B2020202020202020202046413030,
  0x544E45434341204554554341202020202020206B53202320434B464E5F6E4F5F73646E61707845203B2020202020202020202034423030,
  0x414C4C49444543202020202020206B53202320434B464E5F6E4F5F73646E61707845203B2020202020202020202038423030,
  0x5352455452415551204545524854204E4F495443415246205241474C55562E2E5245545241555120454E4F204E4F495443415246205241474C5556205D335B2020206F4E202320434B464E5F6E4F5F73646E61707845203B20202020454230302E2E43423030,
  0x4A4920455255544147494C204C4C414D53204E4954414C2E2E4A4920455255544147494C204C415449504143204E4954414C205D325B202020264C202320434B464E5F6E4F5F73646E61707845203B20202020333331302E2E32333130,
  0x544F4420454C4444494D2048544957204C2052455454454C204C4C414D53204E4954414C2E2E544F4420454C4444494D2048544957204C2052455454454C204C415449504143204E4954414C205D325B202020264C202320434B464E5F6E4F5F73646E61707845203B20202020303431302E2E46333130,
  0x4548504F5254534F5041205942204445444543455250204E2052455454454C204C4C414D53204E4954414C20202020202020264C202320434B464E5F6E4F5F73646E61707845203B2020202020202020202039343130,
  0x4A4E2052455454454C204C4C414D53204E4954414C2E2E4E4F5241432048544957205A442052455454454C204C415449504143204E4954414C205D395B202020264C202320434B464E5F6E4F5F73646E61707845203B20202020434331302E2E34433130,
  0x5A442052455454454C204C4C414D53204E4954414C2E2E5A442052455454454C204C415449504143204E4954414C205D335B202020264C202320434B464E5F6E4F5F73646E61707845203B20202020334631302E2E31463130,
  0x544E4543434120455455434120454C42554F442E2E4556455242205D365B2020206B53202320434B464E5F6E4F5F73646E61707845203B20202020444432302E2E38443230,
  0x534F4E4F5420414B4954594C414944204B4545524720474E494E49424D4F43202020202020206E4D202320434B464E5F6E4F5F73646E61707845203B2020202020202020202034343330,
  0x494E454D4D41524745474F5059204B45455247202020202020206D4C202320434B464E5F6E4F5F73646E61707845203B2020202020202020202041373330,
  0x534F4E4F5420414B4954594C414944204B454552472E2E534F4E4F54204B45455247205D325B2020206B53202320434B464E5F6E4F5F73646E61707845203B20202020353833302E2E34383330,
  0x4E5749592048434520455255544147494C204C4C414D53204E41494E454D524120202020202020264C202320434B464E5F6E4F5F73646E61707845203B2020202020202020202037383530,
  0x48455920415A4D414820484749482052455454454C204349424152412E2E46454C4120415A4D414820484749482052455454454C20434942415241205D345B2020206F4C202320434B464E5F6E4F5F73646E61707845203B20202020383736302E2E35373630,
  0x4159592052455454454C2049524147414E415645442E2E41512052455454454C2049524147414E41564544205D385B2020206F4C202320434B464E5F6E4F5F73646E61707845203B20202020463539302E2E38353930,
  0x4148522052455454454C20494C41474E45422E2E4152522052455454454C20494C41474E4542205D325B2020206F4C202320434B464E5F6E4F5F73646E61707845203B20202020444439302E2E43443930,
  0x4159592052455454454C20494C41474E4542202020202020206F4C202320434B464E5F6E4F5F73646E61707845203B2020202020202020202046443930,
  0x414C4C2052455454454C2049484B554D525547202020202020206F4C202320434B464E5F6E4F5F73646E61707845203B2020202020202020202033334130,
  0x4148532052455454454C2049484B554D525547202020202020206F4C202320434B464E5F6E4F5F73646E61707845203B2020202020202020202036334130,
  0x415A2052455454454C2049484B554D5255472E2E4148484B2052455454454C2049484B554D525547205D335B2020206F4C202320434B464E5F6E4F5F73646E61707845203B20202020423541302E2E39354130,
  0x41462052455454454C2049484B554D525547202020202020206F4C202320434B464E5F6E4F5F73646E61707845203B2020202020202020202045354130,
  0x4148522052455454454C20415949524F2E2E4152522052455454454C20415949524F205D325B2020206F4C202320434B464E5F6E4F5F73646E61707845203B20202020443542302E2E43354230,
  0x4D412041524153205245544341524148432049414854202020202020206F4C202320434B464E5F6E4F5F73646E61707845203B2020202020202020202033334530,
  0x4D41204E474953204C45574F56204F414C202020202020206F4C202320434B464E5F6E4F5F73646E61707845203B2020202020202020202033424530,
  0x4F4D204F48204F414C2E2E4F4E204F48204F414C205D325B2020206F4C202320434B464E5F6E4F5F73646E61707845203B20202020444445302E2E43444530,
  0x4148472052455454454C204E415445424954202020202020206F4C202320434B464E5F6E4F5F73646E61707845203B2020202020202020202033344630,
  0x414844442052455454454C204E415445424954202020202020206F4C202320434B464E5F6E4F5F73646E61707845203B2020202020202020202044344630,
  0x4148442052455454454C204E415445424954202020202020206F4C202320434B464E5F6E4F5F73646E61707845203B2020202020202020202032354630,
  0x4148422052455454454C204E415445424954202020202020206F4C202320434B464E5F6E4F5F73646E61707845203B2020202020202020202037354630,
  0x41485A442052455454454C204E415445424954202020202020206F4C202320434B464E5F6E4F5F73646E61707845203B2020202020202020202043354630,
  0x4153534B2052455454454C204E415445424954202020202020206F4C202320434B464E5F6E4F5F73646E61707845203B2020202020202020202039364630,
  0x4949204E474953204C45574F56204E415445424954202020202020206E4D202320434B464E5F6E4F5F73646E61707845203B2020202020202020202033374630,
  0x4C4C2043494C41434F56204E474953204C45574F56204E4154454249542E2E5555204E474953204C45574F56204E415445424954205D355B2020206E4D202320434B464E5F6E4F5F73646E61707845203B20202020393746302E2E35374630,
  0x4949204445535245564552204E474953204C45574F56204E415445424954202020202020206E4D202320434B464E5F6E4F5F73646E61707845203B2020202020202020202031384630,
  0x4148472052455454454C2044454E494F4A425553204E415445424954202020202020206E4D202320434B464E5F6E4F5F73646E61707845203B2020202020202020202033394630,
  0x414844442052455454454C2044454E494F4A425553204E415445424954202020202020206E4D202320434B464E5F6E4F5F73646E61707845203B2020202020202020202044394630,
  0x4148442052455454454C2044454E494F4A425553204E415445424954202020202020206E4D202320434B464E5F6E4F5F73646E61707845203B2020202020202020202032414630,
  0x4148422052455454454C2044454E494F4A425553204E415445424954202020202020206E4D202320434B464E5F6E4F5F73646E61707845203B2020202020202020202037414630,
  0x41485A442052455454454C2044454E494F4A425553204E415445424954202020202020206E4D202320434B464E5F6E4F5F73646E61707845203B2020202020202020202043414630,
  0x4153534B2052455454454C2044454E494F4A425553204E415445424954202020202020206E4D202320434B464E5F6E4F5F73646E61707845203B2020202020202020202039424630,
  0x474E495220464C4148205448474952204854495720412052455454454C204C4C414D53204E4954414C20202020202020264C202320434B464E5F6E4F5F73646E61707845203B2020202020202020202041394531,
  0x53494E4F524F4B204B45455247202020202020206B53202320434B464E5F6E4F5F73646E61707845203B2020202020202020202044424631,
  0x494E454D4F50534952455020444E4120414B4954594C414944204B454552472E2E494C495350204B45455247205D335B2020206B53202320434B464E5F6E4F5F73646E61707845203B20202020314346312E2E46424631,
  0x494E454D4F50534952455020444E4120494C495350204B454552472E2E414952415620444E4120494C495350204B45455247205D335B2020206B53202320434B464E5F6E4F5F73646E61707845203B20202020464346312E2E44434631,
  0x494E454D4F50534952455020444E41204149534144204B454552472E2E414952415620444E41204149534144204B45455247205D335B2020206B53202320434B464E5F6E4F5F73646E61707845203B20202020464446312E2E44444631,
  0x4149584F20444E4120414B4954594C414944204B454552472E2E414952415620444E4120414B4954594C414944204B45455247205D325B2020206B53202320434B464E5F6E4F5F73646E61707845203B20202020454546312E2E44454631,
  0x4149534144204B454552472E2E4149584F204B45455247205D325B2020206B53202320434B464E5F6E4F5F73646E61707845203B20202020454646312E2E44464631,
  0x454E494C20574F4C20454C42554F44202020202020206F50202320434B464E5F6E4F5F73646E61707845203B2020202020202020202037313032,
  0x53495350494C4C45204C41544E4F5A49524F482E2E52454441454C20544F44204F5754205D325B2020206F50202320434B464E5F6E4F5F73646E61707845203B20202020363230322E2E35323032,
  0x454D49525020454C504952542E2E454D49525020454C42554F44205D325B2020206F50202320434B464E5F6E4F5F73646E61707845203B20202020343330322E2E33333032,
  0x454D49525020454C504952542044455352455645522E2E454D49525020454C42554F44204445535245564552205D325B2020206F50202320434B464E5F6E4F5F73646E61707845203B20202020373330322E2E36333032,
  0x4B52414D204E4F4954414D414C43584520454C42554F44202020202020206F50202320434B464E5F6E4F5F73646E61707845203B2020202020202020202043333032,
  0x454E494C5245564F202020202020206F50202320434B464E5F6E4F5F73646E61707845203B2020202020202020202045333032,
  0x4B52414D204E4F495453455551204E4F4954414D414C4358452E2E4B52414D204E4F49545345555120454C42554F44205D335B2020206F50202320434B464E5F6E4F5F73646E61707845203B20202020393430322E2E37343032,
  0x454D49525020454C50555244415551202020202020206F50202320434B464E5F6E4F5F73646E61707845203B2020202020202020202037353032,
  0x4E474953204545505552202020202020206353202320434B464E5F6E4F5F73646E61707845203B2020202020202020202038413032,
  0x5443454A42555320454854204F54204445535345524444412E2E464F20544E554F434341205D325B2020206F53202320434B464E5F6E4F5F73646E61707845203B20202020313031322E2E30303132,
  0x535549534C454320454552474544202020202020206F53202320434B464E5F6E4F5F73646E61707845203B2020202020202020202033303132,
  0x414E5520414441432E2E464F2045524143205D325B2020206F53202320434B464E5F6E4F5F73646E61707845203B20202020363031322E2E35303132,
  0x544945484E455248414620454552474544202020202020206F53202320434B464E5F6E4F5F73646E61707845203B2020202020202020202039303132,
  0x4E474953204F52454D554E202020202020206F53202320434B464E5F6E4F5F73646E61707845203B2020202020202020202036313132,
  0x4E474953204B52414D2045444152542E2E4B52414D2045434956524553205D335B2020206F53202320434B464E5F6E4F5F73646E61707845203B20202020323231322E2E30323132,
  0x4E47495320454C494D4953434146202020202020206F53202320434B464E5F6E4F5F73646E61707845203B2020202020202020202042333132,
  0x454E4F20524F544152454D554E204E4F4954434152462E2E48544E4556455320454E4F204E4F495443415246205241474C5556205D36315B20206F4E202320434B464E5F6E4F5F73646E61707845203B20202020463531322E2E30353132,
  0x52554F46204C4152454D554E204E414D4F522E2E4F5754204C4152454D554E204E414D4F52205D335B2020206C4E202320434B464E5F6E4F5F73646E61707845203B20202020333631322E2E31363132,
  0x454E494E204C4152454D554E204E414D4F522E2E584953204C4152454D554E204E414D4F52205D345B2020206C4E202320434B464E5F6E4F5F73646E61707845203B20202020383631322E2E35363132,
  0x45564C455754204C4152454D554E204E414D4F522E2E4E4556454C45204C4152454D554E204E414D4F52205D325B2020206C4E202320434B464E5F6E4F5F73646E61707845203B20202020423631322E2E41363132,
  0x52554F46204C4152454D554E204E414D4F52204C4C414D532E2E4F5754204C4152454D554E204E414D4F52204C4C414D53205D335B2020206C4E202320434B464E5F6E4F5F73646E61707845203B20202020333731322E2E31373132,
  0x454E494E204C4152454D554E204E414D4F52204C4C414D532E2E584953204C4152454D554E204E414D4F52204C4C414D53205D345B2020206C4E202320434B464E5F6E4F5F73646E61707845203B20202020383731322E2E35373132,
  0x45564C455754204C4152454D554E204E414D4F52204C4C414D532E2E4E4556454C45204C4152454D554E204E414D4F52204C4C414D53205D325B2020206C4E202320434B464E5F6E4F5F73646E61707845203B20202020423731322E2E41373132,
  0x534452494854204F52455A204E4F495443415246205241474C5556202020202020206F4E202320434B464E5F6E4F5F73646E61707845203B2020202020202020202039383132,
  0x4C41524745544E4920454C504952542E2E4C41524745544E4920454C42554F44205D325B2020206D53202320434B464E5F6E4F5F73646E61707845203B20202020443232322E2E43323232,
  0x4C41524745544E4920454D554C4F562E2E4C41524745544E492045434146525553205D325B2020206D53202320434B464E5F6E4F5F73646E61707845203B20202020303332322E2E46323232,
  0x504F5453204C4C55462059544E455754205245424D554E2E2E4E4554205245424D554E2044454C43524943205D31355B20206F4E202320434B464E5F6E4F5F73646E61707845203B20202020423934322E2E39363432,
  0x5A2052455454454C204C4C414D53204E4954414C2044455A49534548544E455241502E2E412052455454454C204C4C414D53204E4954414C2044455A49534548544E45524150205D36325B20206F53202320434B464E5F6E4F5F73646E61707845203B20202020354234322E2E43393432,
  0x524F54415245504F204C41524745544E4920454C50555244415551202020202020206D53202320434B464E5F6E4F5F73646E61707845203B2020202020202020202043304132,
  0x534E47495320534C415551452045564954554345534E4F432045455248542E2E4C41555145204E4F4C4F4320454C42554F44205D335B2020206D53202320434B464E5F6E4F5F73646E61707845203B20202020363741322E2E34374132,
  0x474E494B524F46202020202020206D53202320434B464E5F6E4F5F73646E61707845203B2020202020202020202043444132,
  0x4B52414D20444E554F5320444543494F562D494D455320414E4147415249482D414E414B4154414B2E2E4B52414D20444E554F5320444543494F5620414E4147415249482D414E414B4154414B205D325B2020206B53202320434B464E5F6E4F5F73646E61707845203B20202020433930332E2E42393033,
  0x49524F59204850415247494420414E414741524948202020202020206F4C202320434B464E5F6E4F5F73646E61707845203B2020202020202020202046393033,
  0x4F544F4B204850415247494420414E414B4154414B202020202020206F4C202320434B464E5F6E4F5F73646E61707845203B2020202020202020202046463033,
  0x5548204F20524554434152414843204E4145524F4B2044455A49534548544E455241502E2E4B4F4559494B204C55474E41482044455A49534548544E45524150205D31335B20206F53202320434B464E5F6E4F5F73646E61707845203B20202020453132332E2E30303233,
  0x4E45542048504152474F4544492044455A49534548544E455241502E2E454E4F2048504152474F4544492044455A49534548544E45524150205D30315B20206F4E202320434B464E5F6E4F5F73646E61707845203B20202020393232332E2E30323233,
  0x48434145522048504152474F4544492044455A49534548544E455241502E2E4E4F4F4D2048504152474F4544492044455A49534548544E45524150205D36325B20206F53202320434B464E5F6E4F5F73646E61707845203B20202020333432332E2E41323233,
  0x4E474953205049485352454E54524150202020202020206F53202320434B464E5F6E4F5F73646E61707845203B2020202020202020202030353233,
  0x4556494620595452494854205245424D554E2044454C435249432E2E454E4F2059544E455754205245424D554E2044454C43524943205D35315B20206F4E202320434B464E5F6E4F5F73646E61707845203B20202020463532332E2E31353233,
  0x495545554A20524554434152414843204E4145524F4B2044454C435249432E2E4F4B4D41484320524554434152414843204E4145524F4B2044454C43524943205D325B2020206F53202320434B464E5F6E4F5F73646E61707845203B20202020443732332E2E43373233,
  0x5954464946205245424D554E2044454C435249432E2E58495320595452494854205245424D554E2044454C43524943205D35315B20206F4E202320434B464E5F6E4F5F73646E61707845203B20202020464232332E2E31423233,
  0x4E474953205954494C494241494C20444554494D494C2E2E595241554E414A20524F46204C4F424D5953204850415247454C455420434948504152474F454449205D36315B20206F53202320434B464E5F6E4F5F73646E61707845203B20202020464332332E2E30433233,
  0x4C4147204552415551532E2E415749455220454D414E2041524520455241555153205D3735325B206F53202320434B464E5F6E4F5F73646E61707845203B20202020464633332E2E46463233,
  0x545320455255544147494C204C4C414D53204E4954414C2E2E464620455255544147494C204C4C414D53204E4954414C205D375B202020264C202320434B464E5F6E4F5F73646E61707845203B20202020363042462E2E30304246,
  0x484558204E454D20455255544147494C204C4C414D53204E41494E454D52412E2E574F4E204E454D20455255544147494C204C4C414D53204E41494E454D5241205D355B202020264C202320434B464E5F6E4F5F73646E61707845203B20202020373142462E2E33314246,
  0x5149524948204854495720444F592052455454454C20574552424548202020202020206F4C202320434B464E5F6E4F5F73646E61707845203B2020202020202020202044314246,
  0x484154415020444F5920444F59204853494444495920455255544147494C20574552424548202020202020206F4C202320434B464E5F6E4F5F73646E61707845203B2020202020202020202046314246,
  0x4853454741442048544957204E4959415A2052455454454C205745524245482E2E544F44204E4948532048544957204E4948532052455454454C20574552424548205D33315B20206F4C202320434B464E5F6E4F5F73646E61707845203B20202020363342462E2E41324246,
  0x48534547414420485449572044454D414C2052455454454C205745524245482E2E4853454741442048544957205445542052455454454C20574552424548205D355B2020206F4C202320434B464E5F6E4F5F73646E61707845203B20202020433342462E2E38334246,
  0x4853454741442048544957204D454D2052455454454C20574552424548202020202020206F4C202320434B464E5F6E4F5F73646E61707845203B2020202020202020202045334246,
  0x485345474144204854495720484B454D41532052455454454C205745524245482E2E4853454741442048544957204E554E2052455454454C20574552424548205D325B2020206F4C202320434B464E5F6E4F5F73646E61707845203B20202020313442462E2E30344246,
  0x48534547414420485449572045502052455454454C205745524245482E2E4853454741442048544957204550204C414E49462052455454454C20574552424548205D325B2020206F4C202320434B464E5F6E4F5F73646E61707845203B20202020343442462E2E33344246,
  0x44454D414C2046454C4120455255544147494C205745524245482E2E48534547414420485449572049444153542052455454454C20574552424548205D30315B20206F4C202320434B464E5F6E4F5F73646E61707845203B20202020463442462E2E36344246,
  0x4D524F4620444554414C4F53492045564F424120415A4D4148204854495720552052455454454C20434942415241202020202020206F4C202320434B464E5F6E4F5F73646E61707845203B2020202020202020202044444246,
  0x4D524F46204C414954494E4920415255534B414D2046454C4120485449572045564F424120415A4D4148204854495720484559205A49484752494B2052554847495520455255544147494C204349424152412E2E4D524F4620444554414C4F53492046454C4120485449572045564F424120415A4D414820485449572048455920455255544147494C20434942415241205D38315B20206F4C202320434B464E5F6E4F5F73646E61707845203B20202020424642462E2E41454246,
  0x4D524F4620444554414C4F5349204E4154414854414620485449572046454C4120455255544147494C204349424152412E2E4D524F4620444554414C4F5349204D45454A20485449572045564F424120415A4D414820485449572048455920455255544147494C20434942415241205D3831335B206F4C202320434B464E5F6E4F5F73646E61707845203B20202020443344462E2E30304346,
  0x4D524F46204C414954494E49204D45454D2048544957204841484B2048544957204D45454D20455255544147494C204349424152412E2E4D524F46204C414954494E49204D45454D2048544957204D45454A20485449572048455420455255544147494C20434942415241205D34365B20206F4C202320434B464E5F6E4F5F73646E61707845203B20202020463844462E2E30354446,
  0x4D524F46204C414E4946204845592048544957204D45454A2048544957204E4F4F4E20455255544147494C204349424152412E2E4D524F46204C414954494E49204841484B2048544957204D45454A2048544957204D45454D20455255544147494C20434942415241205D34355B20206F4C202320434B464E5F6E4F5F73646E61707845203B20202020374344462E2E32394446,
  0x554F48554F4C414C414A414C4C414A20455255544147494C204349424152412E2E4D524F4620444554414C4F5349204E47495320504F54532043494E41524F4B205341204445535520414C4C415320455255544147494C20434942415241205D32315B20206F4C202320434B464E5F6E4F5F73646E61707845203B20202020424644462E2E30464446,
  0x4E474953204C414952202020202020206353202320434B464E5F6E4F5F73646E61707845203B2020202020202020202043464446,
  0x53495350494C4C45204C41544E4F5A49524F48204C4143495452455620524F46204D524F46204E4F495441544E4553455250202020202020206F50202320434B464E5F6E4F5F73646E61707845203B2020202020202020202039314546,
  0x52454441454C20544F44204F5754204C4143495452455620524F46204D524F46204E4F495441544E4553455250202020202020206F50202320434B464E5F6E4F5F73646E61707845203B2020202020202020202030334546,
  0x454E494C5245564F205956415720454C42554F442E2E454E494C5245564F20444548534144205D345B2020206F50202320434B464E5F6E4F5F73646E61707845203B20202020433445462E2E39344546,
  0x4D524F4620444554414C4F5349204E4154414D4D4144204349424152412E2E4D524F4620444554414C4F5349204E4154414854414620434942415241205D335B2020206F4C202320434B464E5F6E4F5F73646E61707845203B20202020323745462E2E30374546,
  0x4D524F4620444554414C4F5349204E4154415253414B20434942415241202020202020206F4C202320434B464E5F6E4F5F73646E61707845203B2020202020202020202034374546,
  0x4D524F46204C414944454D204E554B5553204349424152412E2E4D524F4620444554414C4F534920414854414620434942415241205D30315B20206F4C202320434B464E5F6E4F5F73646E61707845203B20202020463745462E2E36374546,
  0x4D524F46204C414E49462046454C412048544957204D414C20455255544147494C204349424152412E2E4D524F4620444554414C4F53492045564F424120414444414D20485449572046454C412048544957204D414C20455255544147494C20434942415241205D385B2020206F4C202320434B464E5F6E4F5F73646E61707845203B20202020434645462E2E35464546,
  0x4E4F5243414D2048544449574C4C5546202020202020206B53202320434B464E5F6E4F5F73646E61707845203B2020202020202020202033454646,
  0x45544F4E204854484749452D59544E45575420444552444E554820454E4F204C4F424D5953204C41434953554D2E2E45544F4E20464C4148204C4F424D5953204C41434953554D205D375B2020206F53202320434B464E5F6E4F5F73646E61707845203B202034363144312E2E4535314431,
  0x4B43414C422041535546204C4F424D5953204C41434953554D2E2E414D494E494D204C4F424D5953204C41434953554D205D365B2020206F53202320434B464E5F6E4F5F73646E61707845203B202030433144312E2E4242314431,
  0x414D4D4F4320454E494E2054494749442E2E504F5453204C4C5546204F52455A205449474944205D31315B20206F4E202320434B464E5F6E4F5F73646E61707845203B202041303146312E2E3030314631,
  0x532052455454454C204C415449504143204E4954414C20444554454B43415242204C4C454853204553494F54524F542E2E412052455454454C204C415449504143204E4954414C2044455A49534548544E45524150205D37325B20206F53202320434B464E5F6E4F5F73646E61707845203B202041323146312E2E3031314631,
  0x5A572044454C435249432E2E44432044454C43524943205D325B2020206F53202320434B464E5F6E4F5F73646E61707845203B202045323146312E2E4432314631,
  0x435720444552415551532E2E56482044455241555153205D365B2020206F53202320434B464E5F6E4F5F73646E61707845203B202046343146312E2E4134314631,
  0x4E47495320524D204445534941522E2E4E47495320434D20444553494152205D335B2020206F53202320434B464E5F6E4F5F73646E61707845203B202043363146312E2E4136314631,
  0x4A4420455241555153202020202020206F53202320434B464E5F6E4F5F73646E61707845203B2020202020202020203039314631,
  0x4F4B4F4B20414E414B4154414B20444552415551532E2E414B4F4820414E41474152494820455241555153205D325B2020206F53202320434B464E5F6E4F5F73646E61707845203B202031303246312E2E3030324631,
  0x373535362D48504152474F4544492044454946494E55204B4A4320444554454B43415242204C4C454853204553494F54524F542E2E433237362D48504152474F4544492044454946494E55204B4A4320444554454B43415242204C4C454853204553494F54524F54205D395B2020206F53202320434B464E5F6E4F5F73646E61707845203B202038343246312E2E3034324631,
  0x0,
  0x37333231203A73746E696F702065646F63206C61746F542023,
  0x0,
  0x3D3D3D3D3D3D3D3D3D3D3D3D3D3D3D3D3D3D3D3D3D3D3D3D3D3D3D3D3D3D3D3D3D3D3D3D3D3D3D3D3D3D3D3D3D3D3D3D2023,
  0x0,
  0x2946435F434B464E2820646C6F66657361435F434B464E2020203A79747265706F725020646576697265442023,
  0x2E73656C6261726F6E67692D746C756166656420646E61202C7974696C6962697461706D6F63202C65736163203A73726574636172616863206D6F726620736E6F69746169726176206E696174726563207365766F6D65722079747265706F7270207369685420202023,
  0x2E737265696669746E65646920666F207365707974206E69617472656320646E6120676E69686374616D2065736F6F6C20726F66206465737520736920744920202023,
  0x2E73746E696F505F65646F435F656C6261726F6E67495F746C756166654420666F206C61766F6D657220646E61202C676E69646C6F4665736143202C434B464E20676E69796C7070612079622064657463757274736E6F6320736920744920202023,
  0x2E64656375646F727020736920746C7573657220656C626174732061206C69746E7520646574616570657220736920736E6F6974616D726F66736E61727420657365687420676E69796C70706120666F20737365636F72702065685420202023,
  0x2E7463617265746E692079616D20737265746361726168632065737561636562202C726574636172616863206863616520676E697070616D2072657466612043464E20796C707061207473756D2053474E49525453206F74206E6F69746163696C707041203A474E494E52415720202023,
  0x5D2F343472742F7374726F7065722F67726F2E65646F63696E752E7777772F2F3A707474685B20656573202C6E6F6974616D726F666E692065726F6D20726F4620202020202020202020202023,
  0x2E676E697070616D2073696874207962206465676E6168636E75206572612073746E696F702065646F632064657474696D4F2023,
  0x3E746E696F702065646F633C203B46435F434B464E203B4646464630312E2E30303030203A676E697373696D402023,
  0x0,
  0x646C6F66657361435F434B464E20726F662064657473696C20796C746963696C70786520746F6E2073746E696F702065646F63206C6C41202023,
  0x2E3E746E696F7065646F633C2065756C6176206568742065766168202023,
  0x0,
  0x412052455454454C204C415449504143204E4954414C20202020202020264C2023202020202020202020202031363030203B46435F434B464E203B2020202020202020202031343030,
  0x422052455454454C204C415449504143204E4954414C20202020202020264C2023202020202020202020202032363030203B46435F434B464E203B2020202020202020202032343030,
  0x432052455454454C204C415449504143204E4954414C20202020202020264C2023202020202020202020202033363030203B46435F434B464E203B2020202020202020202033343030,
  0x442052455454454C204C415449504143204E4954414C20202020202020264C2023202020202020202020202034363030203B46435F434B464E203B2020202020202020202034343030,
  0x452052455454454C204C415449504143204E4954414C20202020202020264C2023202020202020202020202035363030203B46435F434B464E203B2020202020202020202035343030,
  0x462052455454454C204C415449504143204E4954414C20202020202020264C2023202020202020202020202036363030203B46435F434B464E203B2020202020202020202036343030,
  0x472052455454454C204C415449504143204E4954414C20202020202020264C2023202020202020202020202037363030203B46435F434B464E203B2020202020202020202037343030,
  0x482052455454454C204C415449504143204E4954414C20202020202020264C2023202020202020202020202038363030203B46435F434B464E203B2020202020202020202038343030,
  0x492052455454454C204C415449504143204E4954414C20202020202020264C2023202020202020202020202039363030203B46435F434B464E203B2020202020202020202039343030,
  0x4A2052455454454C204C415449504143204E4954414C20202020202020264C2023202020202020202020202041363030203B46435F434B464E203B2020202020202020202041343030,
  0x4B2052455454454C204C415449504143204E4954414C20202020202020264C2023202020202020202020202042363030203B46435F434B464E203B2020202020202020202042343030,
  0x4C2052455454454C204C415449504143204E4954414C20202020202020264C2023202020202020202020202043363030203B46435F434B464E203B2020202020202020202043343030,
  0x4D2052455454454C204C415449504143204E4954414C20202020202020264C2023202020202020202020202044363030203B46435F434B464E203B2020202020202020202044343030,
  0x4E2052455454454C204C415449504143204E4954414C20202020202020264C2023202020202020202020202045363030203B46435F434B464E203B2020202020202020202045343030,
  0x4F2052455454454C204C415449504143204E4954414C20202020202020264C2023202020202020202020202046363030203B46435F434B464E203B2020202020202020202046343030,
  0x502052455454454C204C415449504143204E4954414C20202020202020264C2023202020202020202020202030373030203B46435F434B464E203B2020202020202020202030353030,
  0x512052455454454C204C415449504143204E4954414C20202020202020264C2023202020202020202020202031373030203B46435F434B464E203B2020202020202020202031353030,
  0x522052455454454C204C415449504143204E4954414C20202020202020264C2023202020202020202020202032373030203B46435F434B464E203B2020202020202020202032353030,
  0x532052455454454C204C415449504143204E4954414C20202020202020264C2023202020202020202020202033373030203B46435F434B464E203B2020202020202020202033353030,
  0x542052455454454C204C415449504143204E4954414C20202020202020264C2023202020202020202020202034373030203B46435F434B464E203B2020202020202020202034353030,
  0x552052455454454C204C415449504143204E4954414C20202020202020264C2023202020202020202020202035373030203B46435F434B464E203B2020202020202020202035353030,
  0x562052455454454C204C415449504143204E4954414C20202020202020264C2023202020202020202020202036373030203B46435F434B464E203B2020202020202020202036353030,
  0x572052455454454C204C415449504143204E4954414C20202020202020264C2023202020202020202020202037373030203B46435F434B464E203B2020202020202020202037353030,
  0x582052455454454C204C415449504143204E4954414C20202020202020264C2023202020202020202020202038373030203B46435F434B464E203B2020202020202020202038353030,
  0x592052455454454C204C415449504143204E4954414C20202020202020264C2023202020202020202020202039373030203B46435F434B464E203B2020202020202020202039353030,
  0x5A2052455454454C204C415449504143204E4954414C20202020202020264C2023202020202020202020202041373030203B46435F434B464E203B2020202020202020202041353030,
  0x4543415053204B414552422D4F4E20202020202020735A2023202020202020202020202030323030203B46435F434B464E203B2020202020202020202030413030,
  0x534953455245414944202020202020206B532023202020202020383033302030323030203B46435F434B464E203B2020202020202020202038413030,
  0x524F54414349444E49204C414E4944524F20454E494E494D4546202020202020206F4C2023202020202020202020202031363030203B46435F434B464E203B2020202020202020202041413030,
  0x4E45485059482054464F532020202020202066432023202020202020202020202020202020203B46435F434B464E203B2020202020202020202044413030,
  0x4E4F5243414D202020202020206B532023202020202020343033302030323030203B46435F434B464E203B2020202020202020202046413030,
  0x4F5754205450495243535245505553202020202020206F4E2023202020202020202020202032333030203B46435F434B464E203B2020202020202020202032423030,
  0x4545524854205450495243535245505553202020202020206F4E2023202020202020202020202033333030203B46435F434B464E203B2020202020202020202033423030,
  0x544E45434341204554554341202020202020206B532023202020202020313033302030323030203B46435F434B464E203B2020202020202020202034423030,
  0x4E474953204F5243494D20202020202020264C2023202020202020202020202043423330203B46435F434B464E203B2020202020202020202035423030,
  0x414C4C49444543202020202020206B532023202020202020373233302030323030203B46435F434B464E203B2020202020202020202038423030,
  0x454E4F205450495243535245505553202020202020206F4E2023202020202020202020202031333030203B46435F434B464E203B2020202020202020202039423030,
  0x524F54414349444E49204C414E4944524F20454E494C554353414D202020202020206F4C2023202020202020202020202046363030203B46435F434B464E203B2020202020202020202041423030,
  0x5245545241555120454E4F204E4F495443415246205241474C5556202020202020206F4E2023203433303020343430322031333030203B46435F434B464E203B2020202020202020202043423030,
  0x464C414820454E4F204E4F495443415246205241474C5556202020202020206F4E2023203233303020343430322031333030203B46435F434B464E203B2020202020202020202044423030,
  0x5352455452415551204545524854204E4F495443415246205241474C5556202020202020206F4E2023203433303020343430322033333030203B46435F434B464E203B2020202020202020202045423030,
  0x4556415247204854495720412052455454454C204C415449504143204E4954414C20202020202020264C2023202020202020202020202030453030203B46435F434B464E203B2020202020202020202030433030,
  0x4554554341204854495720412052455454454C204C415449504143204E4954414C20202020202020264C2023202020202020202020202031453030203B46435F434B464E203B2020202020202020202031433030,
  0x58454C464D5543524943204854495720412052455454454C204C415449504143204E4954414C20202020202020264C2023202020202020202020202032453030203B46435F434B464E203B2020202020202020202032433030,
  0x45444C4954204854495720412052455454454C204C415449504143204E4954414C20202020202020264C2023202020202020202020202033453030203B46435F434B464E203B2020202020202020202033433030,
  0x534953455245414944204854495720412052455454454C204C415449504143204E4954414C20202020202020264C2023202020202020202020202034453030203B46435F434B464E203B2020202020202020202034433030,
  0x45564F424120474E4952204854495720412052455454454C204C415449504143204E4954414C20202020202020264C2023202020202020202020202035453030203B46435F434B464E203B2020202020202020202035433030,
  0x45412052455454454C204C415449504143204E4954414C20202020202020264C2023202020202020202020202036453030203B46435F434B464E203B2020202020202020202036433030,
  0x414C4C49444543204854495720432052455454454C204C415449504143204E4954414C20202020202020264C2023202020202020202020202037453030203B46435F434B464E203B2020202020202020202037433030,
  0x4556415247204854495720452052455454454C204C415449504143204E4954414C20202020202020264C2023202020202020202020202038453030203B46435F434B464E203B2020202020202020202038433030,
  0x4554554341204854495720452052455454454C204C415449504143204E4954414C20202020202020264C2023202020202020202020202039453030203B46435F434B464E203B2020202020202020202039433030,
  0x58454C464D5543524943204854495720452052455454454C204C415449504143204E4954414C20202020202020264C2023202020202020202020202041453030203B46435F434B464E203B2020202020202020202041433030,
  0x534953455245414944204854495720452052455454454C204C415449504143204E4954414C20202020202020264C2023202020202020202020202042453030203B46435F434B464E203B2020202020202020202042433030,
  0x4556415247204854495720492052455454454C204C415449504143204E4954414C20202020202020264C2023202020202020202020202043453030203B46435F434B464E203B2020202020202020202043433030,
  0x4554554341204854495720492052455454454C204C415449504143204E4954414C20202020202020264C2023202020202020202020202044453030203B46435F434B464E203B2020202020202020202044433030,
  0x58454C464D5543524943204854495720492052455454454C204C415449504143204E4954414C20202020202020264C2023202020202020202020202045453030203B46435F434B464E203B2020202020202020202045433030,
  0x534953455245414944204854495720492052455454454C204C415449504143204E4954414C20202020202020264C2023202020202020202020202046453030203B46435F434B464E203B2020202020202020202046433030,
  0x4854452052455454454C204C415449504143204E4954414C20202020202020264C2023202020202020202020202030463030203B46435F434B464E203B2020202020202020202030443030,
  0x45444C49542048544957204E2052455454454C204C415449504143204E4954414C20202020202020264C2023202020202020202020202031463030203B46435F434B464E203B2020202020202020202031443030,
  0x45564152472048544957204F2052455454454C204C415449504143204E4954414C20202020202020264C2023202020202020202020202032463030203B46435F434B464E203B2020202020202020202032443030,
  0x45545543412048544957204F2052455454454C204C415449504143204E4954414C20202020202020264C2023202020202020202020202033463030203B46435F434B464E203B2020202020202020202033443030,
  0x58454C464D55435249432048544957204F2052455454454C204C415449504143204E4954414C20202020202020264C2023202020202020202020202034463030203B46435F434B464E203B2020202020202020202034443030,
  0x45444C49542048544957204F2052455454454C204C415449504143204E4954414C20202020202020264C2023202020202020202020202035463030203B46435F434B464E203B2020202020202020202035443030,
  0x5349534552454149442048544957204F2052455454454C204C415449504143204E4954414C20202020202020264C2023202020202020202020202036463030203B46435F434B464E203B2020202020202020202036443030,
  0x454B4F5254532048544957204F2052455454454C204C415449504143204E4954414C20202020202020264C2023202020202020202020202038463030203B46435F434B464E203B2020202020202020202038443030,
  0x4556415247204854495720552052455454454C204C415449504143204E4954414C20202020202020264C2023202020202020202020202039463030203B46435F434B464E203B2020202020202020202039443030,
  0x4554554341204854495720552052455454454C204C415449504143204E4954414C20202020202020264C2023202020202020202020202041463030203B46435F434B464E203B2020202020202020202041443030,
  0x58454C464D5543524943204854495720552052455454454C204C415449504143204E4954414C20202020202020264C2023202020202020202020202042463030203B46435F434B464E203B2020202020202020202042443030,
  0x534953455245414944204854495720552052455454454C204C415449504143204E4954414C20202020202020264C2023202020202020202020202043463030203B46435F434B464E203B2020202020202020202043443030,
  0x4554554341204854495720592052455454454C204C415449504143204E4954414C20202020202020264C2023202020202020202020202044463030203B46435F434B464E203B2020202020202020202044443030,
  0x4E524F48542052455454454C204C415449504143204E4954414C20202020202020264C2023202020202020202020202045463030203B46435F434B464E203B2020202020202020202045443030,
  0x532050524148532052455454454C204C4C414D53204E4954414C20202020202020264C2023202020202020333730302033373030203B46435F434B464E203B2020202020202020202046443030,
  0x4E4F5243414D204854495720412052455454454C204C415449504143204E4954414C20202020202020264C2023202020202020202020202031303130203B46435F434B464E203B2020202020202020202030303130,
  0x4556455242204854495720412052455454454C204C415449504143204E4954414C20202020202020264C2023202020202020202020202033303130203B46435F434B464E203B2020202020202020202032303130,
  0x4B454E4F474F204854495720412052455454454C204C415449504143204E4954414C20202020202020264C2023202020202020202020202035303130203B46435F434B464E203B2020202020202020202034303130,
  0x4554554341204854495720432052455454454C204C415449504143204E4954414C20202020202020264C2023202020202020202020202037303130203B46435F434B464E203B2020202020202020202036303130,
  0x58454C464D5543524943204854495720432052455454454C204C415449504143204E4954414C20202020202020264C2023202020202020202020202039303130203B46435F434B464E203B2020202020202020202038303130,
  0x45564F424120544F44204854495720432052455454454C204C415449504143204E4954414C20202020202020264C2023202020202020202020202042303130203B46435F434B464E203B2020202020202020202041303130,
  0x4E4F524143204854495720432052455454454C204C415449504143204E4954414C20202020202020264C2023202020202020202020202044303130203B46435F434B464E203B2020202020202020202043303130,
  0x4E4F524143204854495720442052455454454C204C415449504143204E4954414C20202020202020264C2023202020202020202020202046303130203B46435F434B464E203B2020202020202020202045303130,
  0x454B4F525453204854495720442052455454454C204C415449504143204E4954414C20202020202020264C2023202020202020202020202031313130203B46435F434B464E203B2020202020202020202030313130,
  0x4E4F5243414D204854495720452052455454454C204C415449504143204E4954414C20202020202020264C2023202020202020202020202033313130203B46435F434B464E203B2020202020202020202032313130,
  0x4556455242204854495720452052455454454C204C415449504143204E4954414C20202020202020264C2023202020202020202020202035313130203B46435F434B464E203B2020202020202020202034313130,
  0x45564F424120544F44204854495720452052455454454C204C415449504143204E4954414C20202020202020264C2023202020202020202020202037313130203B46435F434B464E203B2020202020202020202036313130,
  0x4B454E4F474F204854495720452052455454454C204C415449504143204E4954414C20202020202020264C2023202020202020202020202039313130203B46435F434B464E203B2020202020202020202038313130,
  0x4E4F524143204854495720452052455454454C204C415449504143204E4954414C20202020202020264C2023202020202020202020202042313130203B46435F434B464E203B2020202020202020202041313130,
  0x58454C464D5543524943204854495720472052455454454C204C415449504143204E4954414C20202020202020264C2023202020202020202020202044313130203B46435F434B464E203B2020202020202020202043313130,
  0x4556455242204854495720472052455454454C204C415449504143204E4954414C20202020202020264C2023202020202020202020202046313130203B46435F434B464E203B2020202020202020202045313130,
  0x45564F424120544F44204854495720472052455454454C204C415449504143204E4954414C20202020202020264C2023202020202020202020202031323130203B46435F434B464E203B2020202020202020202030323130,
  0x414C4C49444543204854495720472052455454454C204C415449504143204E4954414C20202020202020264C2023202020202020202020202033323130203B46435F434B464E203B2020202020202020202032323130,
  0x58454C464D5543524943204854495720482052455454454C204C415449504143204E4954414C20202020202020264C2023202020202020202020202035323130203B46435F434B464E203B2020202020202020202034323130,
  0x454B4F525453204854495720482052455454454C204C415449504143204E4954414C20202020202020264C2023202020202020202020202037323130203B46435F434B464E203B2020202020202020202036323130,
  0x45444C4954204854495720492052455454454C204C415449504143204E4954414C20202020202020264C2023202020202020202020202039323130203B46435F434B464E203B2020202020202020202038323130,
  0x4E4F5243414D204854495720492052455454454C204C415449504143204E4954414C20202020202020264C2023202020202020202020202042323130203B46435F434B464E203B2020202020202020202041323130,
  0x4556455242204854495720492052455454454C204C415449504143204E4954414C20202020202020264C2023202020202020202020202044323130203B46435F434B464E203B2020202020202020202043323130,
  0x4B454E4F474F204854495720492052455454454C204C415449504143204E4954414C20202020202020264C2023202020202020202020202046323130203B46435F434B464E203B2020202020202020202045323130,
  0x45564F424120544F44204854495720492052455454454C204C415449504143204E4954414C20202020202020264C2023202020202020373033302039363030203B46435F434B464E203B2020202020202020202030333130,
  0x4A4920455255544147494C204C4C414D53204E4954414C2E2E4A4920455255544147494C204C415449504143204E4954414C205D325B202020264C2023202020202020413630302039363030203B46435F434B464E203B20202020333331302E2E32333130,
  0x58454C464D55435249432048544957204A2052455454454C204C415449504143204E4954414C20202020202020264C2023202020202020202020202035333130203B46435F434B464E203B2020202020202020202034333130,
  0x414C4C494445432048544957204B2052455454454C204C415449504143204E4954414C20202020202020264C2023202020202020202020202037333130203B46435F434B464E203B2020202020202020202036333130,
  0x45545543412048544957204C2052455454454C204C415449504143204E4954414C20202020202020264C2023202020202020202020202041333130203B46435F434B464E203B2020202020202020202039333130,
  0x414C4C494445432048544957204C2052455454454C204C415449504143204E4954414C20202020202020264C2023202020202020202020202043333130203B46435F434B464E203B2020202020202020202042333130]

def qcText12 : List Nat := [
  0x4E4F5241432048544957204C2052455454454C204C415449504143204E4954414C20202020202020264C2023202020202020202020202045333130203B46435F434B464E203B2020202020202020202044333130,
  0x544F4420454C4444494D2048544957204C2052455454454C204C4C414D53204E4954414C2E2E544F4420454C4444494D2048544957204C2052455454454C204C415449504143204E4954414C205D325B202020264C2023202020202020374230302043363030203B46435F434B464E203B20202020303431302E2E46333130,
  0x454B4F5254532048544957204C2052455454454C204C415449504143204E4954414C20202020202020264C2023202020202020202020202032343130203B46435F434B464E203B2020202020202020202031343130,
  0x45545543412048544957204E2052455454454C204C415449504143204E4954414C20202020202020264C2023202020202020202020202034343130203B46435F434B464E203B2020202020202020202033343130,
  0x414C4C494445432048544957204E2052455454454C204C415449504143204E4954414C20202020202020264C2023202020202020202020202036343130203B46435F434B464E203B2020202020202020202035343130,
  0x4E4F5241432048544957204E2052455454454C204C415449504143204E4954414C20202020202020264C2023202020202020202020202038343130203B46435F434B464E203B2020202020202020202037343130,
  0x4548504F5254534F5041205942204445444543455250204E2052455454454C204C4C414D53204E4954414C20202020202020264C2023202020202020453630302043423230203B46435F434B464E203B2020202020202020202039343130,
  0x474E452052455454454C204C415449504143204E4954414C20202020202020264C2023202020202020202020202042343130203B46435F434B464E203B2020202020202020202041343130,
  0x4E4F5243414D2048544957204F2052455454454C204C415449504143204E4954414C20202020202020264C2023202020202020202020202044343130203B46435F434B464E203B2020202020202020202043343130,
  0x45564552422048544957204F2052455454454C204C415449504143204E4954414C20202020202020264C2023202020202020202020202046343130203B46435F434B464E203B2020202020202020202045343130,
  0x455455434120454C42554F442048544957204F2052455454454C204C415449504143204E4954414C20202020202020264C2023202020202020202020202031353130203B46435F434B464E203B2020202020202020202030353130,
  0x454F20455255544147494C204C415449504143204E4954414C20202020202020264C2023202020202020202020202033353130203B46435F434B464E203B2020202020202020202032353130,
  0x4554554341204854495720522052455454454C204C415449504143204E4954414C20202020202020264C2023202020202020202020202035353130203B46435F434B464E203B2020202020202020202034353130,
  0x414C4C49444543204854495720522052455454454C204C415449504143204E4954414C20202020202020264C2023202020202020202020202037353130203B46435F434B464E203B2020202020202020202036353130,
  0x4E4F524143204854495720522052455454454C204C415449504143204E4954414C20202020202020264C2023202020202020202020202039353130203B46435F434B464E203B2020202020202020202038353130,
  0x4554554341204854495720532052455454454C204C415449504143204E4954414C20202020202020264C2023202020202020202020202042353130203B46435F434B464E203B2020202020202020202041353130,
  0x58454C464D5543524943204854495720532052455454454C204C415449504143204E4954414C20202020202020264C2023202020202020202020202044353130203B46435F434B464E203B2020202020202020202043353130,
  0x414C4C49444543204854495720532052455454454C204C415449504143204E4954414C20202020202020264C2023202020202020202020202046353130203B46435F434B464E203B2020202020202020202045353130,
  0x4E4F524143204854495720532052455454454C204C415449504143204E4954414C20202020202020264C2023202020202020202020202031363130203B46435F434B464E203B2020202020202020202030363130,
  0x414C4C49444543204854495720542052455454454C204C415449504143204E4954414C20202020202020264C2023202020202020202020202033363130203B46435F434B464E203B2020202020202020202032363130,
  0x4E4F524143204854495720542052455454454C204C415449504143204E4954414C20202020202020264C2023202020202020202020202035363130203B46435F434B464E203B2020202020202020202034363130,
  0x454B4F525453204854495720542052455454454C204C415449504143204E4954414C20202020202020264C2023202020202020202020202037363130203B46435F434B464E203B2020202020202020202036363130,
  0x45444C4954204854495720552052455454454C204C415449504143204E4954414C20202020202020264C2023202020202020202020202039363130203B46435F434B464E203B2020202020202020202038363130,
  0x4E4F5243414D204854495720552052455454454C204C415449504143204E4954414C20202020202020264C2023202020202020202020202042363130203B46435F434B464E203B2020202020202020202041363130,
  0x4556455242204854495720552052455454454C204C415449504143204E4954414C20202020202020264C2023202020202020202020202044363130203B46435F434B464E203B2020202020202020202043363130,
  0x45564F424120474E4952204854495720552052455454454C204C415449504143204E4954414C20202020202020264C2023202020202020202020202046363130203B46435F434B464E203B2020202020202020202045363130,
  0x455455434120454C42554F44204854495720552052455454454C204C415449504143204E4954414C20202020202020264C2023202020202020202020202031373130203B46435F434B464E203B2020202020202020202030373130,
  0x4B454E4F474F204854495720552052455454454C204C415449504143204E4954414C20202020202020264C2023202020202020202020202033373130203B46435F434B464E203B2020202020202020202032373130,
  0x58454C464D5543524943204854495720572052455454454C204C415449504143204E4954414C20202020202020264C2023202020202020202020202035373130203B46435F434B464E203B2020202020202020202034373130,
  0x58454C464D5543524943204854495720592052455454454C204C415449504143204E4954414C20202020202020264C2023202020202020202020202037373130203B46435F434B464E203B2020202020202020202036373130,
  0x534953455245414944204854495720592052455454454C204C415449504143204E4954414C20202020202020264C2023202020202020202020202046463030203B46435F434B464E203B2020202020202020202038373130,
  0x45545543412048544957205A2052455454454C204C415449504143204E4954414C20202020202020264C2023202020202020202020202041373130203B46435F434B464E203B2020202020202020202039373130,
  0x45564F424120544F442048544957205A2052455454454C204C415449504143204E4954414C20202020202020264C2023202020202020202020202043373130203B46435F434B464E203B2020202020202020202042373130,
  0x4E4F5241432048544957205A2052455454454C204C415449504143204E4954414C20202020202020264C2023202020202020202020202045373130203B46435F434B464E203B2020202020202020202044373130,
  0x5320474E4F4C2052455454454C204C4C414D53204E4954414C20202020202020264C2023202020202020202020202033373030203B46435F434B464E203B2020202020202020202046373130,
  0x4B4F4F48204854495720422052455454454C204C415449504143204E4954414C20202020202020264C2023202020202020202020202033353230203B46435F434B464E203B2020202020202020202031383130,
  0x524142504F54204854495720422052455454454C204C415449504143204E4954414C20202020202020264C2023202020202020202020202033383130203B46435F434B464E203B2020202020202020202032383130,
  0x58495320454E4F542052455454454C204C415449504143204E4954414C20202020202020264C2023202020202020202020202035383130203B46435F434B464E203B2020202020202020202034383130,
  0x4F204E45504F2052455454454C204C415449504143204E4954414C20202020202020264C2023202020202020202020202034353230203B46435F434B464E203B2020202020202020202036383130,
  0x4B4F4F48204854495720432052455454454C204C415449504143204E4954414C20202020202020264C2023202020202020202020202038383130203B46435F434B464E203B2020202020202020202037383130,
  0x44204E4143495246412052455454454C204C415449504143204E4954414C20202020202020264C2023202020202020202020202036353230203B46435F434B464E203B2020202020202020202039383130,
  0x4B4F4F48204854495720442052455454454C204C415449504143204E4954414C20202020202020264C2023202020202020202020202037353230203B46435F434B464E203B2020202020202020202041383130,
  0x524142504F54204854495720442052455454454C204C415449504143204E4954414C20202020202020264C2023202020202020202020202043383130203B46435F434B464E203B2020202020202020202042383130,
  0x452044455352455645522052455454454C204C415449504143204E4954414C20202020202020264C2023202020202020202020202044443130203B46435F434B464E203B2020202020202020202045383130,
  0x41574843532052455454454C204C415449504143204E4954414C20202020202020264C2023202020202020202020202039353230203B46435F434B464E203B2020202020202020202046383130,
  0x45204E45504F2052455454454C204C415449504143204E4954414C20202020202020264C2023202020202020202020202042353230203B46435F434B464E203B2020202020202020202030393130,
  0x4B4F4F48204854495720462052455454454C204C415449504143204E4954414C20202020202020264C2023202020202020202020202032393130203B46435F434B464E203B2020202020202020202031393130,
  0x4B4F4F48204854495720472052455454454C204C415449504143204E4954414C20202020202020264C2023202020202020202020202030363230203B46435F434B464E203B2020202020202020202033393130,
  0x414D4D41472052455454454C204C415449504143204E4954414C20202020202020264C2023202020202020202020202033363230203B46435F434B464E203B2020202020202020202034393130,
  0x41544F492052455454454C204C415449504143204E4954414C20202020202020264C2023202020202020202020202039363230203B46435F434B464E203B2020202020202020202036393130,
  0x454B4F525453204854495720492052455454454C204C415449504143204E4954414C20202020202020264C2023202020202020202020202038363230203B46435F434B464E203B2020202020202020202037393130,
  0x4B4F4F482048544957204B2052455454454C204C415449504143204E4954414C20202020202020264C2023202020202020202020202039393130203B46435F434B464E203B2020202020202020202038393130,
  0x4D2044454E5255542052455454454C204C415449504143204E4954414C20202020202020264C2023202020202020202020202046363230203B46435F434B464E203B2020202020202020202043393130,
  0x4B4F4F48205446454C2048544957204E2052455454454C204C415449504143204E4954414C20202020202020264C2023202020202020202020202032373230203B46435F434B464E203B2020202020202020202044393130,
  0x45444C495420454C4444494D2048544957204F2052455454454C204C415449504143204E4954414C20202020202020264C2023202020202020202020202035373230203B46435F434B464E203B2020202020202020202046393130,
  0x4E524F482048544957204F2052455454454C204C415449504143204E4954414C20202020202020264C2023202020202020202020202031413130203B46435F434B464E203B2020202020202020202030413130,
  0x494F2052455454454C204C415449504143204E4954414C20202020202020264C2023202020202020202020202033413130203B46435F434B464E203B2020202020202020202032413130,
  0x4B4F4F48204854495720502052455454454C204C415449504143204E4954414C20202020202020264C2023202020202020202020202035413130203B46435F434B464E203B2020202020202020202034413130,
  0x52592052455454454C204E4954414C20202020202020264C2023202020202020202020202030383230203B46435F434B464E203B2020202020202020202036413130,
  0x4F575420454E4F542052455454454C204C415449504143204E4954414C20202020202020264C2023202020202020202020202038413130203B46435F434B464E203B2020202020202020202037413130,
  0x4853452052455454454C204C415449504143204E4954414C20202020202020264C2023202020202020202020202033383230203B46435F434B464E203B2020202020202020202039413130,
  0x4B4F4F48204854495720542052455454454C204C415449504143204E4954414C20202020202020264C2023202020202020202020202044413130203B46435F434B464E203B2020202020202020202043413130,
  0x4B4F4F482058454C464F52544552204854495720542052455454454C204C415449504143204E4954414C20202020202020264C2023202020202020202020202038383230203B46435F434B464E203B2020202020202020202045413130,
  0x4E524F48204854495720552052455454454C204C415449504143204E4954414C20202020202020264C2023202020202020202020202030423130203B46435F434B464E203B2020202020202020202046413130,
  0x4E4F4C495350552052455454454C204C415449504143204E4954414C20202020202020264C2023202020202020202020202041383230203B46435F434B464E203B2020202020202020202031423130,
  0x4B4F4F48204854495720562052455454454C204C415449504143204E4954414C20202020202020264C2023202020202020202020202042383230203B46435F434B464E203B2020202020202020202032423130,
  0x4B4F4F48204854495720592052455454454C204C415449504143204E4954414C20202020202020264C2023202020202020202020202034423130203B46435F434B464E203B2020202020202020202033423130,
  0x454B4F5254532048544957205A2052455454454C204C415449504143204E4954414C20202020202020264C2023202020202020202020202036423130203B46435F434B464E203B2020202020202020202035423130,
  0x485A452052455454454C204C415449504143204E4954414C20202020202020264C2023202020202020202020202032393230203B46435F434B464E203B2020202020202020202037423130,
  0x444553524556455220485A452052455454454C204C415449504143204E4954414C20202020202020264C2023202020202020202020202039423130203B46435F434B464E203B2020202020202020202038423130,
  0x4556494620454E4F542052455454454C204C415449504143204E4954414C20202020202020264C2023202020202020202020202044423130203B46435F434B464E203B2020202020202020202043423130,
  0x4E4F5241432048544957205A442052455454454C204C4C414D53204E4954414C2E2E4E4F5241432048544957205A442052455454454C204C415449504143204E4954414C205D335B202020264C2023202020202020453731302034363030203B46435F434B464E203B20202020364331302E2E34433130,
  0x4A4C2052455454454C204C4C414D53204E4954414C2E2E4A4C2052455454454C204C415449504143204E4954414C205D335B202020264C2023202020202020413630302043363030203B46435F434B464E203B20202020394331302E2E37433130,
  0x4A4E2052455454454C204C4C414D53204E4954414C2E2E4A4E2052455454454C204C415449504143204E4954414C205D335B202020264C2023202020202020413630302045363030203B46435F434B464E203B20202020434331302E2E41433130,
  0x4E4F524143204854495720412052455454454C204C415449504143204E4954414C20202020202020264C2023202020202020202020202045433130203B46435F434B464E203B2020202020202020202044433130,
  0x4E4F524143204854495720492052455454454C204C415449504143204E4954414C20202020202020264C2023202020202020202020202030443130203B46435F434B464E203B2020202020202020202046433130,
  0x4E4F5241432048544957204F2052455454454C204C415449504143204E4954414C20202020202020264C2023202020202020202020202032443130203B46435F434B464E203B2020202020202020202031443130,
  0x4E4F524143204854495720552052455454454C204C415449504143204E4954414C20202020202020264C2023202020202020202020202034443130203B46435F434B464E203B2020202020202020202033443130,
  0x4E4F5243414D20444E4120534953455245414944204854495720552052455454454C204C415449504143204E4954414C20202020202020264C2023202020202020202020202036443130203B46435F434B464E203B2020202020202020202035443130,
  0x455455434120444E4120534953455245414944204854495720552052455454454C204C415449504143204E4954414C20202020202020264C2023202020202020202020202038443130203B46435F434B464E203B2020202020202020202037443130,
  0x4E4F52414320444E4120534953455245414944204854495720552052455454454C204C415449504143204E4954414C20202020202020264C2023202020202020202020202041443130203B46435F434B464E203B2020202020202020202039443130,
  0x455641524720444E4120534953455245414944204854495720552052455454454C204C415449504143204E4954414C20202020202020264C2023202020202020202020202043443130203B46435F434B464E203B2020202020202020202042443130,
  0x4E4F5243414D20444E4120534953455245414944204854495720412052455454454C204C415449504143204E4954414C20202020202020264C2023202020202020202020202046443130203B46435F434B464E203B2020202020202020202045443130,
  0x4E4F5243414D20444E412045564F424120544F44204854495720412052455454454C204C415449504143204E4954414C20202020202020264C2023202020202020202020202031453130203B46435F434B464E203B2020202020202020202030453130,
  0x4E4F5243414D20485449572045412052455454454C204C415449504143204E4954414C20202020202020264C2023202020202020202020202033453130203B46435F434B464E203B2020202020202020202032453130,
  0x454B4F525453204854495720472052455454454C204C415449504143204E4954414C20202020202020264C2023202020202020202020202035453130203B46435F434B464E203B2020202020202020202034453130,
  0x4E4F524143204854495720472052455454454C204C415449504143204E4954414C20202020202020264C2023202020202020202020202037453130203B46435F434B464E203B2020202020202020202036453130,
  0x4E4F5241432048544957204B2052455454454C204C415449504143204E4954414C20202020202020264C2023202020202020202020202039453130203B46435F434B464E203B2020202020202020202038453130,
  0x4B454E4F474F2048544957204F2052455454454C204C415449504143204E4954414C20202020202020264C2023202020202020202020202042453130203B46435F434B464E203B2020202020202020202041453130,
  0x4E4F5243414D20444E41204B454E4F474F2048544957204F2052455454454C204C415449504143204E4954414C20202020202020264C2023202020202020202020202044453130203B46435F434B464E203B2020202020202020202043453130,
  0x4E4F524143204854495720485A452052455454454C204C415449504143204E4954414C20202020202020264C2023202020202020202020202046453130203B46435F434B464E203B2020202020202020202045453130,
  0x5A442052455454454C204C4C414D53204E4954414C2E2E5A442052455454454C204C415449504143204E4954414C205D335B202020264C2023202020202020413730302034363030203B46435F434B464E203B20202020334631302E2E31463130,
  0x4554554341204854495720472052455454454C204C415449504143204E4954414C20202020202020264C2023202020202020202020202035463130203B46435F434B464E203B2020202020202020202034463130,
  0x52494157482052455454454C204C415449504143204E4954414C20202020202020264C2023202020202020202020202035393130203B46435F434B464E203B2020202020202020202036463130,
  0x4E4E59572052455454454C204C415449504143204E4954414C20202020202020264C2023202020202020202020202046423130203B46435F434B464E203B2020202020202020202037463130,
  0x45564152472048544957204E2052455454454C204C415449504143204E4954414C20202020202020264C2023202020202020202020202039463130203B46435F434B464E203B2020202020202020202038463130,
  0x455455434120444E412045564F424120474E4952204854495720412052455454454C204C415449504143204E4954414C20202020202020264C2023202020202020202020202042463130203B46435F434B464E203B2020202020202020202041463130,
  0x455455434120485449572045412052455454454C204C415449504143204E4954414C20202020202020264C2023202020202020202020202044463130203B46435F434B464E203B2020202020202020202043463130,
  0x455455434120444E4120454B4F5254532048544957204F2052455454454C204C415449504143204E4954414C20202020202020264C2023202020202020202020202046463130203B46435F434B464E203B2020202020202020202045463130,
  0x455641524720454C42554F44204854495720412052455454454C204C415449504143204E4954414C20202020202020264C2023202020202020202020202031303230203B46435F434B464E203B2020202020202020202030303230,
  0x4556455242204445545245564E49204854495720412052455454454C204C415449504143204E4954414C20202020202020264C2023202020202020202020202033303230203B46435F434B464E203B2020202020202020202032303230,
  0x455641524720454C42554F44204854495720452052455454454C204C415449504143204E4954414C20202020202020264C2023202020202020202020202035303230203B46435F434B464E203B2020202020202020202034303230,
  0x4556455242204445545245564E49204854495720452052455454454C204C415449504143204E4954414C20202020202020264C2023202020202020202020202037303230203B46435F434B464E203B2020202020202020202036303230,
  0x455641524720454C42554F44204854495720492052455454454C204C415449504143204E4954414C20202020202020264C2023202020202020202020202039303230203B46435F434B464E203B2020202020202020202038303230,
  0x4556455242204445545245564E49204854495720492052455454454C204C415449504143204E4954414C20202020202020264C2023202020202020202020202042303230203B46435F434B464E203B2020202020202020202041303230,
  0x455641524720454C42554F442048544957204F2052455454454C204C415449504143204E4954414C20202020202020264C2023202020202020202020202044303230203B46435F434B464E203B2020202020202020202043303230,
  0x4556455242204445545245564E492048544957204F2052455454454C204C415449504143204E4954414C20202020202020264C2023202020202020202020202046303230203B46435F434B464E203B2020202020202020202045303230,
  0x455641524720454C42554F44204854495720522052455454454C204C415449504143204E4954414C20202020202020264C2023202020202020202020202031313230203B46435F434B464E203B2020202020202020202030313230,
  0x4556455242204445545245564E49204854495720522052455454454C204C415449504143204E4954414C20202020202020264C2023202020202020202020202033313230203B46435F434B464E203B2020202020202020202032313230,
  0x455641524720454C42554F44204854495720552052455454454C204C415449504143204E4954414C20202020202020264C2023202020202020202020202035313230203B46435F434B464E203B2020202020202020202034313230,
  0x4556455242204445545245564E49204854495720552052455454454C204C415449504143204E4954414C20202020202020264C2023202020202020202020202037313230203B46435F434B464E203B2020202020202020202036313230,
  0x574F4C454220414D4D4F43204854495720532052455454454C204C415449504143204E4954414C20202020202020264C2023202020202020202020202039313230203B46435F434B464E203B2020202020202020202038313230,
  0x574F4C454220414D4D4F43204854495720542052455454454C204C415449504143204E4954414C20202020202020264C2023202020202020202020202042313230203B46435F434B464E203B2020202020202020202041313230,
  0x48474F592052455454454C204C415449504143204E4954414C20202020202020264C2023202020202020202020202044313230203B46435F434B464E203B2020202020202020202043313230,
  0x4E4F524143204854495720482052455454454C204C415449504143204E4954414C20202020202020264C2023202020202020202020202046313230203B46435F434B464E203B2020202020202020202045313230,
  0x47454C20544847495220474E4F4C2048544957204E2052455454454C204C415449504143204E4954414C20202020202020264C2023202020202020202020202045393130203B46435F434B464E203B2020202020202020202030323230,
  0x554F2052455454454C204C415449504143204E4954414C20202020202020264C2023202020202020202020202033323230203B46435F434B464E203B2020202020202020202032323230,
  0x4B4F4F482048544957205A2052455454454C204C415449504143204E4954414C20202020202020264C2023202020202020202020202035323230203B46435F434B464E203B2020202020202020202034323230,
  0x45564F424120544F44204854495720412052455454454C204C415449504143204E4954414C20202020202020264C2023202020202020202020202037323230203B46435F434B464E203B2020202020202020202036323230,
  0x414C4C49444543204854495720452052455454454C204C415449504143204E4954414C20202020202020264C2023202020202020202020202039323230203B46435F434B464E203B2020202020202020202038323230,
  0x4E4F5243414D20444E41205349534552454149442048544957204F2052455454454C204C415449504143204E4954414C20202020202020264C2023202020202020202020202042323230203B46435F434B464E203B2020202020202020202041323230,
  0x4E4F5243414D20444E412045444C49542048544957204F2052455454454C204C415449504143204E4954414C20202020202020264C2023202020202020202020202044323230203B46435F434B464E203B2020202020202020202043323230,
  0x45564F424120544F442048544957204F2052455454454C204C415449504143204E4954414C20202020202020264C2023202020202020202020202046323230203B46435F434B464E203B2020202020202020202045323230,
  0x4E4F5243414D20444E412045564F424120544F442048544957204F2052455454454C204C415449504143204E4954414C20202020202020264C2023202020202020202020202031333230203B46435F434B464E203B2020202020202020202030333230,
  0x4E4F5243414D204854495720592052455454454C204C415449504143204E4954414C20202020202020264C2023202020202020202020202033333230203B46435F434B464E203B2020202020202020202032333230,
  0x454B4F525453204854495720412052455454454C204C415449504143204E4954414C20202020202020264C2023202020202020202020202035364332203B46435F434B464E203B2020202020202020202041333230,
  0x454B4F525453204854495720432052455454454C204C415449504143204E4954414C20202020202020264C2023202020202020202020202043333230203B46435F434B464E203B2020202020202020202042333230,
  0x5241422048544957204C2052455454454C204C415449504143204E4954414C20202020202020264C2023202020202020202020202041393130203B46435F434B464E203B2020202020202020202044333230,
  0x454B4F525453204C414E4F47414944204854495720542052455454454C204C415449504143204E4954414C20202020202020264C2023202020202020202020202036364332203B46435F434B464E203B2020202020202020202045333230,
  0x504F5453204C4154544F4C472052455454454C204C415449504143204E4954414C20202020202020264C2023202020202020202020202032343230203B46435F434B464E203B2020202020202020202031343230,
  0x454B4F525453204854495720422052455454454C204C415449504143204E4954414C20202020202020264C2023202020202020202020202030383130203B46435F434B464E203B2020202020202020202033343230,
  0x52414220552052455454454C204C415449504143204E4954414C20202020202020264C2023202020202020202020202039383230203B46435F434B464E203B2020202020202020202034343230,
  0x562044454E5255542052455454454C204C415449504143204E4954414C20202020202020264C2023202020202020202020202043383230203B46435F434B464E203B2020202020202020202035343230,
  0x454B4F525453204854495720452052455454454C204C415449504143204E4954414C20202020202020264C2023202020202020202020202037343230203B46435F434B464E203B2020202020202020202036343230,
  0x454B4F5254532048544957204A2052455454454C204C415449504143204E4954414C20202020202020264C2023202020202020202020202039343230203B46435F434B464E203B2020202020202020202038343230,
  0x4C494154204B4F4F4820485449572051204C4C414D532052455454454C204C415449504143204E4954414C20202020202020264C2023202020202020202020202042343230203B46435F434B464E203B2020202020202020202041343230,
  0x454B4F525453204854495720522052455454454C204C415449504143204E4954414C20202020202020264C2023202020202020202020202044343230203B46435F434B464E203B2020202020202020202043343230,
  0x454B4F525453204854495720592052455454454C204C415449504143204E4954414C20202020202020264C2023202020202020202020202046343230203B46435F434B464E203B2020202020202020202045343230,
  0x48204C4C414D532052455454454C205245494649444F4D202020202020206D4C2023202020202020202020202038363030203B46435F434B464E203B2020202020202020202030423230,
  0x4B4F4F4820485449572048204C4C414D532052455454454C205245494649444F4D202020202020206D4C2023202020202020202020202036363230203B46435F434B464E203B2020202020202020202031423230,
  0x4A204C4C414D532052455454454C205245494649444F4D202020202020206D4C2023202020202020202020202041363030203B46435F434B464E203B2020202020202020202032423230,
  0x52204C4C414D532052455454454C205245494649444F4D202020202020206D4C2023202020202020202020202032373030203B46435F434B464E203B2020202020202020202033423230,
  0x522044454E525554204C4C414D532052455454454C205245494649444F4D202020202020206D4C2023202020202020202020202039373230203B46435F434B464E203B2020202020202020202034423230,
  0x4B4F4F48204854495720522044454E525554204C4C414D532052455454454C205245494649444F4D202020202020206D4C2023202020202020202020202042373230203B46435F434B464E203B2020202020202020202035423230,
  0x52204445545245564E49204C415449504143204C4C414D532052455454454C205245494649444F4D202020202020206D4C2023202020202020202020202031383230203B46435F434B464E203B2020202020202020202036423230,
  0x57204C4C414D532052455454454C205245494649444F4D202020202020206D4C2023202020202020202020202037373030203B46435F434B464E203B2020202020202020202037423230,
  0x59204C4C414D532052455454454C205245494649444F4D202020202020206D4C2023202020202020202020202039373030203B46435F434B464E203B2020202020202020202038423230,
  0x4556455242202020202020206B532023202020202020363033302030323030203B46435F434B464E203B2020202020202020202038443230,
  0x45564F424120544F44202020202020206B532023202020202020373033302030323030203B46435F434B464E203B2020202020202020202039443230,
  0x45564F424120474E4952202020202020206B532023202020202020413033302030323030203B46435F434B464E203B2020202020202020202041443230,
  0x4B454E4F474F202020202020206B532023202020202020383233302030323030203B46435F434B464E203B2020202020202020202042443230,
  0x45444C4954204C4C414D53202020202020206B532023202020202020333033302030323030203B46435F434B464E203B2020202020202020202043443230,
  0x544E4543434120455455434120454C42554F44202020202020206B532023202020202020423033302030323030203B46435F434B464E203B2020202020202020202044443230,
  0x414D4D4147204C4C414D532052455454454C205245494649444F4D202020202020206D4C2023202020202020202020202033363230203B46435F434B464E203B2020202020202020202030453230,
  0x4C204C4C414D532052455454454C205245494649444F4D202020202020206D4C2023202020202020202020202043363030203B46435F434B464E203B2020202020202020202031453230,
  0x53204C4C414D532052455454454C205245494649444F4D202020202020206D4C2023202020202020202020202033373030203B46435F434B464E203B2020202020202020202032453230,
  0x58204C4C414D532052455454454C205245494649444F4D202020202020206D4C2023202020202020202020202038373030203B46435F434B464E203B2020202020202020202033453230,
  0x504F5453204C4154544F4C47204445535245564552204C4C414D532052455454454C205245494649444F4D202020202020206D4C2023202020202020202020202035393230203B46435F434B464E203B2020202020202020202034453230,
  0x4B52414D20454E4F5420455641524720474E494E49424D4F43202020202020206E4D2023202020202020202020202030303330203B46435F434B464E203B2020202020202020202030343330,
  0x4B52414D20454E4F5420455455434120474E494E49424D4F43202020202020206E4D2023202020202020202020202031303330203B46435F434B464E203B2020202020202020202031343330,
  0x53494E4F524F4B204B4545524720474E494E49424D4F43202020202020206E4D2023202020202020202020202033313330203B46435F434B464E203B2020202020202020202033343330,
  0x534F4E4F5420414B4954594C414944204B4545524720474E494E49424D4F43202020202020206E4D2023202020202020313033302038303330203B46435F434B464E203B2020202020202020202034343330,
  0x494E454D4D41524745474F5059204B4545524720474E494E49424D4F43202020202020206E4D2023202020202020202020202039423330203B46435F434B464E203B2020202020202020202035343330,
  0x52454E494F4A20454D45485041524720474E494E49424D4F43202020202020206E4D2023202020202020202020202020202020203B46435F434B464E203B2020202020202020202046343330,
  0x415445482052455454454C204C415449504143204B4545524720202020202020264C2023202020202020202020202031373330203B46435F434B464E203B2020202020202020202030373330,
  0x49504D415320434941484352412052455454454C204C415449504143204B4545524720202020202020264C2023202020202020202020202033373330203B46435F434B464E203B2020202020202020202032373330,
  0x4E474953204C4152454D554E204B45455247202020202020206D4C2023202020202020202020202039423230203B46435F434B464E203B2020202020202020202034373330,
  0x414D4D41474944204E41494C5948504D41502052455454454C204C415449504143204B4545524720202020202020264C2023202020202020202020202037373330203B46435F434B464E203B2020202020202020202036373330,
  0x494E454D4D41524745474F5059204B45455247202020202020206D4C2023202020202020394233302030323030203B46435F434B464E203B2020202020202020202041373330,
  0x4B52414D204E4F495453455551204B45455247202020202020206F502023202020202020202020202042333030203B46435F434B464E203B2020202020202020202045373330,
  0x544F592052455454454C204C415449504143204B4545524720202020202020264C2023202020202020202020202033463330203B46435F434B464E203B2020202020202020202046373330,
  0x534F4E4F54204B45455247202020202020206B532023202020202020313033302030323030203B46435F434B464E203B2020202020202020202034383330,
  0x534F4E4F5420414B4954594C414944204B45455247202020202020206B532023203130333020383033302030323030203B46435F434B464E203B2020202020202020202035383330,
  0x534F4E4F542048544957204148504C412052455454454C204C415449504143204B4545524720202020202020264C2023202020202020202020202043413330203B46435F434B464E203B2020202020202020202036383330,
  0x4149454C4554204F4E41204B45455247202020202020206F502023202020202020202020202037423030203B46435F434B464E203B2020202020202020202037383330,
  0x534F4E4F542048544957204E4F4C495350452052455454454C204C415449504143204B4545524720202020202020264C2023202020202020202020202044413330203B46435F434B464E203B2020202020202020202038383330,
  0x534F4E4F542048544957204154452052455454454C204C415449504143204B4545524720202020202020264C2023202020202020202020202045413330203B46435F434B464E203B2020202020202020202039383330,
  0x534F4E4F5420485449572041544F492052455454454C204C415449504143204B4545524720202020202020264C2023202020202020202020202046413330203B46435F434B464E203B2020202020202020202041383330,
  0x534F4E4F542048544957204E4F5243494D4F2052455454454C204C415449504143204B4545524720202020202020264C2023202020202020202020202043433330203B46435F434B464E203B2020202020202020202043383330,
  0x534F4E4F542048544957204E4F4C495350552052455454454C204C415449504143204B4545524720202020202020264C2023202020202020202020202044433330203B46435F434B464E203B2020202020202020202045383330,
  0x534F4E4F542048544957204147454D4F2052455454454C204C415449504143204B4545524720202020202020264C2023202020202020202020202045433330203B46435F434B464E203B2020202020202020202046383330,
  0x4148504C412052455454454C204C415449504143204B4545524720202020202020264C2023202020202020202020202031423330203B46435F434B464E203B2020202020202020202031393330,
  0x415445422052455454454C204C415449504143204B4545524720202020202020264C2023202020202020202020202032423330203B46435F434B464E203B2020202020202020202032393330,
  0x414D4D41472052455454454C204C415449504143204B4545524720202020202020264C2023202020202020202020202033423330203B46435F434B464E203B2020202020202020202033393330,
  0x41544C45442052455454454C204C415449504143204B4545524720202020202020264C2023202020202020202020202034423330203B46435F434B464E203B2020202020202020202034393330,
  0x4E4F4C495350452052455454454C204C415449504143204B4545524720202020202020264C2023202020202020202020202035423330203B46435F434B464E203B2020202020202020202035393330,
  0x4154455A2052455454454C204C415449504143204B4545524720202020202020264C2023202020202020202020202036423330203B46435F434B464E203B2020202020202020202036393330,
  0x4154452052455454454C204C415449504143204B4545524720202020202020264C2023202020202020202020202037423330203B46435F434B464E203B2020202020202020202037393330,
  0x41544548542052455454454C204C415449504143204B4545524720202020202020264C2023202020202020202020202038423330203B46435F434B464E203B2020202020202020202038393330,
  0x41544F492052455454454C204C415449504143204B4545524720202020202020264C2023202020202020202020202039423330203B46435F434B464E203B2020202020202020202039393330,
  0x415050414B2052455454454C204C415449504143204B4545524720202020202020264C2023202020202020202020202041423330203B46435F434B464E203B2020202020202020202041393330,
  0x41444D414C2052455454454C204C415449504143204B4545524720202020202020264C2023202020202020202020202042423330203B46435F434B464E203B2020202020202020202042393330,
  0x554D2052455454454C204C415449504143204B4545524720202020202020264C2023202020202020202020202043423330203B46435F434B464E203B2020202020202020202043393330,
  0x554E2052455454454C204C415449504143204B4545524720202020202020264C2023202020202020202020202044423330203B46435F434B464E203B2020202020202020202044393330,
  0x49582052455454454C204C415449504143204B4545524720202020202020264C2023202020202020202020202045423330203B46435F434B464E203B2020202020202020202045393330,
  0x4E4F5243494D4F2052455454454C204C415449504143204B4545524720202020202020264C2023202020202020202020202046423330203B46435F434B464E203B2020202020202020202046393330,
  0x49502052455454454C204C415449504143204B4545524720202020202020264C2023202020202020202020202030433330203B46435F434B464E203B2020202020202020202030413330,
  0x4F48522052455454454C204C415449504143204B4545524720202020202020264C2023202020202020202020202031433330203B46435F434B464E203B2020202020202020202031413330,
  0x414D4749532052455454454C204C415449504143204B4545524720202020202020264C2023202020202020202020202033433330203B46435F434B464E203B2020202020202020202033413330,
  0x5541542052455454454C204C415449504143204B4545524720202020202020264C2023202020202020202020202034433330203B46435F434B464E203B2020202020202020202034413330,
  0x4E4F4C495350552052455454454C204C415449504143204B4545524720202020202020264C2023202020202020202020202035433330203B46435F434B464E203B2020202020202020202035413330,
  0x4948502052455454454C204C415449504143204B4545524720202020202020264C2023202020202020202020202036433330203B46435F434B464E203B2020202020202020202036413330,
  0x4948432052455454454C204C415449504143204B4545524720202020202020264C2023202020202020202020202037433330203B46435F434B464E203B2020202020202020202037413330,
  0x4953502052455454454C204C415449504143204B4545524720202020202020264C2023202020202020202020202038433330203B46435F434B464E203B2020202020202020202038413330,
  0x4147454D4F2052455454454C204C415449504143204B4545524720202020202020264C2023202020202020202020202039433330203B46435F434B464E203B2020202020202020202039413330,
  0x414B4954594C41494420485449572041544F492052455454454C204C415449504143204B4545524720202020202020264C2023202020202020202020202041433330203B46435F434B464E203B2020202020202020202041413330,
  0x414B4954594C4149442048544957204E4F4C495350552052455454454C204C415449504143204B4545524720202020202020264C2023202020202020202020202042433330203B46435F434B464E203B2020202020202020202042413330,
  0x414D474953204C414E49462052455454454C204C4C414D53204B4545524720202020202020264C2023202020202020202020202033433330203B46435F434B464E203B2020202020202020202032433330,
  0x4C4F424D59532049414B204C415449504143204B4545524720202020202020264C2023202020202020202020202037443330203B46435F434B464E203B2020202020202020202046433330,
  0x4C4F424D59532041544542204B4545524720202020202020264C2023202020202020202020202032423330203B46435F434B464E203B2020202020202020202030443330,
  0x4C4F424D5953204154454854204B4545524720202020202020264C2023202020202020202020202038423330203B46435F434B464E203B2020202020202020202031443330,
  0x4C4F424D5953204B4F4F482048544957204E4F4C49535055204B4545524720202020202020264C2023202020202020202020202035433330203B46435F434B464E203B2020202020202020202032443330,
  0x4C4F424D5953204B4F4F4820444E412045545543412048544957204E4F4C49535055204B4545524720202020202020264C2023202020202020202020202044433330203B46435F434B464E203B2020202020202020202033443330,
  0x4C4F424D5953204B4F4F4820444E41205349534552454149442048544957204E4F4C49535055204B4545524720202020202020264C2023202020202020202020202042433330203B46435F434B464E203B2020202020202020202034443330,
  0x4C4F424D595320494850204B4545524720202020202020264C2023202020202020202020202036433330203B46435F434B464E203B2020202020202020202035443330,
  0x4C4F424D5953204950204B4545524720202020202020264C2023202020202020202020202030433330203B46435F434B464E203B2020202020202020202036443330,
  0x4150504F4B20434941484352412052455454454C204B4545524720202020202020264C2023202020202020202020202039443330203B46435F434B464E203B2020202020202020202038443330,
  0x414D474954532052455454454C204B4545524720202020202020264C2023202020202020202020202042443330203B46435F434B464E203B2020202020202020202041443330,
  0x414D4D414749442052455454454C204B4545524720202020202020264C2023202020202020202020202044443330203B46435F434B464E203B2020202020202020202043443330,
  0x4150504F4B2052455454454C204B4545524720202020202020264C2023202020202020202020202046443330203B46435F434B464E203B2020202020202020202045443330,
  0x49504D41532052455454454C204B4545524720202020202020264C2023202020202020202020202031453330203B46435F434B464E203B2020202020202020202030453330,
  0x494548532052455454454C204C41544950414320434954504F4320202020202020264C2023202020202020202020202033453330203B46435F434B464E203B2020202020202020202032453330,
  0x4945462052455454454C204C41544950414320434954504F4320202020202020264C2023202020202020202020202035453330203B46435F434B464E203B2020202020202020202034453330,
  0x4945484B2052455454454C204C41544950414320434954504F4320202020202020264C2023202020202020202020202037453330203B46435F434B464E203B2020202020202020202036453330,
  0x49524F482052455454454C204C41544950414320434954504F4320202020202020264C2023202020202020202020202039453330203B46435F434B464E203B2020202020202020202038453330,
  0x4149474E41472052455454454C204C41544950414320434954504F4320202020202020264C2023202020202020202020202042453330203B46435F434B464E203B2020202020202020202041453330,
  0x414D4948532052455454454C204C41544950414320434954504F4320202020202020264C2023202020202020202020202044453330203B46435F434B464E203B2020202020202020202043453330,
  0x4945442052455454454C204C41544950414320434954504F4320202020202020264C2023202020202020202020202046453330203B46435F434B464E203B2020202020202020202045453330,
  0x4C4F424D595320415050414B204B4545524720202020202020264C2023202020202020202020202041423330203B46435F434B464E203B2020202020202020202030463330,
  0x4C4F424D5953204F4852204B4545524720202020202020264C2023202020202020202020202031433330203B46435F434B464E203B2020202020202020202031463330,
  0x4C4F424D595320414D474953204554414E554C204B4545524720202020202020264C2023202020202020202020202033433330203B46435F434B464E203B2020202020202020202032463330,
  0x4C4F424D5953204154454854204C415449504143204B4545524720202020202020264C2023202020202020202020202038423330203B46435F434B464E203B2020202020202020202034463330,
  0x4C4F424D5953204E4F4C49535045204554414E554C204B4545524720202020202020264C2023202020202020202020202035423330203B46435F434B464E203B2020202020202020202035463330,
  0x4F48532052455454454C204C415449504143204B4545524720202020202020264C2023202020202020202020202038463330203B46435F434B464E203B2020202020202020202037463330,
  0x4C4F424D595320414D474953204554414E554C204C415449504143204B4545524720202020202020264C2023202020202020202020202033433330203B46435F434B464E203B2020202020202020202039463330,
  0x4E41532052455454454C204C415449504143204B4545524720202020202020264C2023202020202020202020202042463330203B46435F434B464E203B2020202020202020202041463330,
  0x4C4F424D595320414D474953204554414E554C204445535245564552204C415449504143204B4545524720202020202020264C2023202020202020202020202042373330203B46435F434B464E203B2020202020202020202044463330,
  0x4C4F424D595320414D474953204554414E554C20444554544F44204C415449504143204B4545524720202020202020264C2023202020202020202020202043373330203B46435F434B464E203B2020202020202020202045463330,
  0x4C4F424D595320414D474953204554414E554C20444554544F44204445535245564552204C415449504143204B4545524720202020202020264C2023202020202020202020202044373330203B46435F434B464E203B2020202020202020202046463330,
  0x455641524720485449572045492052455454454C204C4154495041432043494C4C4952594320202020202020264C2023202020202020202020202030353430203B46435F434B464E203B2020202020202020202030303430,
  0x4F492052455454454C204C4154495041432043494C4C4952594320202020202020264C2023202020202020202020202031353430203B46435F434B464E203B2020202020202020202031303430,
  0x454A442052455454454C204C4154495041432043494C4C4952594320202020202020264C2023202020202020202020202032353430203B46435F434B464E203B2020202020202020202032303430,
  0x454A472052455454454C204C4154495041432043494C4C4952594320202020202020264C2023202020202020202020202033353430203B46435F434B464E203B2020202020202020202033303430,
  0x4549204E41494E4941524B552052455454454C204C4154495041432043494C4C4952594320202020202020264C2023202020202020202020202034353430203B46435F434B464E203B2020202020202020202034303430,
  0x455A442052455454454C204C4154495041432043494C4C4952594320202020202020264C2023202020202020202020202035353430203B46435F434B464E203B2020202020202020202035303430,
  0x49204E41494E4941524B552D4E4149535355524F4C4559422052455454454C204C4154495041432043494C4C4952594320202020202020264C2023202020202020202020202036353430203B46435F434B464E203B2020202020202020202036303430,
  0x49592052455454454C204C4154495041432043494C4C4952594320202020202020264C2023202020202020202020202037353430203B46435F434B464E203B2020202020202020202037303430,
  0x454A2052455454454C204C4154495041432043494C4C4952594320202020202020264C2023202020202020202020202038353430203B46435F434B464E203B2020202020202020202038303430,
  0x454A4C2052455454454C204C4154495041432043494C4C4952594320202020202020264C2023202020202020202020202039353430203B46435F434B464E203B2020202020202020202039303430,
  0x454A4E2052455454454C204C4154495041432043494C4C4952594320202020202020264C2023202020202020202020202041353430203B46435F434B464E203B2020202020202020202041303430]

def qcText13 : List Nat := [
  0x454853542052455454454C204C4154495041432043494C4C4952594320202020202020264C2023202020202020202020202042353430203B46435F434B464E203B2020202020202020202042303430,
  0x454A4B2052455454454C204C4154495041432043494C4C4952594320202020202020264C2023202020202020202020202043353430203B46435F434B464E203B2020202020202020202043303430,
  0x4556415247204854495720492052455454454C204C4154495041432043494C4C4952594320202020202020264C2023202020202020202020202044353430203B46435F434B464E203B2020202020202020202044303430,
  0x552054524F48532052455454454C204C4154495041432043494C4C4952594320202020202020264C2023202020202020202020202045353430203B46435F434B464E203B2020202020202020202045303430,
  0x45485A442052455454454C204C4154495041432043494C4C4952594320202020202020264C2023202020202020202020202046353430203B46435F434B464E203B2020202020202020202046303430,
  0x412052455454454C204C4154495041432043494C4C4952594320202020202020264C2023202020202020202020202030333430203B46435F434B464E203B2020202020202020202030313430,
  0x45422052455454454C204C4154495041432043494C4C4952594320202020202020264C2023202020202020202020202031333430203B46435F434B464E203B2020202020202020202031313430,
  0x45562052455454454C204C4154495041432043494C4C4952594320202020202020264C2023202020202020202020202032333430203B46435F434B464E203B2020202020202020202032313430,
  0x4548472052455454454C204C4154495041432043494C4C4952594320202020202020264C2023202020202020202020202033333430203B46435F434B464E203B2020202020202020202033313430,
  0x45442052455454454C204C4154495041432043494C4C4952594320202020202020264C2023202020202020202020202034333430203B46435F434B464E203B2020202020202020202034313430,
  0x45492052455454454C204C4154495041432043494C4C4952594320202020202020264C2023202020202020202020202035333430203B46435F434B464E203B2020202020202020202035313430,
  0x45485A2052455454454C204C4154495041432043494C4C4952594320202020202020264C2023202020202020202020202036333430203B46435F434B464E203B2020202020202020202036313430,
  0x455A2052455454454C204C4154495041432043494C4C4952594320202020202020264C2023202020202020202020202037333430203B46435F434B464E203B2020202020202020202037313430,
  0x492052455454454C204C4154495041432043494C4C4952594320202020202020264C2023202020202020202020202038333430203B46435F434B464E203B2020202020202020202038313430,
  0x492054524F48532052455454454C204C4154495041432043494C4C4952594320202020202020264C2023202020202020202020202039333430203B46435F434B464E203B2020202020202020202039313430,
  0x414B2052455454454C204C4154495041432043494C4C4952594320202020202020264C2023202020202020202020202041333430203B46435F434B464E203B2020202020202020202041313430,
  0x4C452052455454454C204C4154495041432043494C4C4952594320202020202020264C2023202020202020202020202042333430203B46435F434B464E203B2020202020202020202042313430,
  0x4D452052455454454C204C4154495041432043494C4C4952594320202020202020264C2023202020202020202020202043333430203B46435F434B464E203B2020202020202020202043313430,
  0x4E452052455454454C204C4154495041432043494C4C4952594320202020202020264C2023202020202020202020202044333430203B46435F434B464E203B2020202020202020202044313430,
  0x4F2052455454454C204C4154495041432043494C4C4952594320202020202020264C2023202020202020202020202045333430203B46435F434B464E203B2020202020202020202045313430,
  0x45502052455454454C204C4154495041432043494C4C4952594320202020202020264C2023202020202020202020202046333430203B46435F434B464E203B2020202020202020202046313430,
  0x52452052455454454C204C4154495041432043494C4C4952594320202020202020264C2023202020202020202020202030343430203B46435F434B464E203B2020202020202020202030323430,
  0x53452052455454454C204C4154495041432043494C4C4952594320202020202020264C2023202020202020202020202031343430203B46435F434B464E203B2020202020202020202031323430,
  0x45542052455454454C204C4154495041432043494C4C4952594320202020202020264C2023202020202020202020202032343430203B46435F434B464E203B2020202020202020202032323430,
  0x552052455454454C204C4154495041432043494C4C4952594320202020202020264C2023202020202020202020202033343430203B46435F434B464E203B2020202020202020202033323430,
  0x46452052455454454C204C4154495041432043494C4C4952594320202020202020264C2023202020202020202020202034343430203B46435F434B464E203B2020202020202020202034323430,
  0x41482052455454454C204C4154495041432043494C4C4952594320202020202020264C2023202020202020202020202035343430203B46435F434B464E203B2020202020202020202035323430,
  0x4553542052455454454C204C4154495041432043494C4C4952594320202020202020264C2023202020202020202020202036343430203B46435F434B464E203B2020202020202020202036323430,
  0x4548432052455454454C204C4154495041432043494C4C4952594320202020202020264C2023202020202020202020202037343430203B46435F434B464E203B2020202020202020202037323430,
  0x4148532052455454454C204C4154495041432043494C4C4952594320202020202020264C2023202020202020202020202038343430203B46435F434B464E203B2020202020202020202038323430,
  0x41484348532052455454454C204C4154495041432043494C4C4952594320202020202020264C2023202020202020202020202039343430203B46435F434B464E203B2020202020202020202039323430,
  0x4E47495320445241482052455454454C204C4154495041432043494C4C4952594320202020202020264C2023202020202020202020202041343430203B46435F434B464E203B2020202020202020202041323430,
  0x555245592052455454454C204C4154495041432043494C4C4952594320202020202020264C2023202020202020202020202042343430203B46435F434B464E203B2020202020202020202042323430,
  0x4E4749532054464F532052455454454C204C4154495041432043494C4C4952594320202020202020264C2023202020202020202020202043343430203B46435F434B464E203B2020202020202020202043323430,
  0x452052455454454C204C4154495041432043494C4C4952594320202020202020264C2023202020202020202020202044343430203B46435F434B464E203B2020202020202020202044323430,
  0x55592052455454454C204C4154495041432043494C4C4952594320202020202020264C2023202020202020202020202045343430203B46435F434B464E203B2020202020202020202045323430,
  0x41592052455454454C204C4154495041432043494C4C4952594320202020202020264C2023202020202020202020202046343430203B46435F434B464E203B2020202020202020202046323430,
  0x4147454D4F2052455454454C204C4154495041432043494C4C4952594320202020202020264C2023202020202020202020202031363430203B46435F434B464E203B2020202020202020202030363430,
  0x5441592052455454454C204C4154495041432043494C4C4952594320202020202020264C2023202020202020202020202033363430203B46435F434B464E203B2020202020202020202032363430,
  0x45204445494649544F492052455454454C204C4154495041432043494C4C4952594320202020202020264C2023202020202020202020202035363430203B46435F434B464E203B2020202020202020202034363430,
  0x53555920454C5454494C2052455454454C204C4154495041432043494C4C4952594320202020202020264C2023202020202020202020202037363430203B46435F434B464E203B2020202020202020202036363430,
  0x53555920454C5454494C204445494649544F492052455454454C204C4154495041432043494C4C4952594320202020202020264C2023202020202020202020202039363430203B46435F434B464E203B2020202020202020202038363430,
  0x535559204749422052455454454C204C4154495041432043494C4C4952594320202020202020264C2023202020202020202020202042363430203B46435F434B464E203B2020202020202020202041363430,
  0x53555920474942204445494649544F492052455454454C204C4154495041432043494C4C4952594320202020202020264C2023202020202020202020202044363430203B46435F434B464E203B2020202020202020202043363430,
  0x49534B2052455454454C204C4154495041432043494C4C4952594320202020202020264C2023202020202020202020202046363430203B46435F434B464E203B2020202020202020202045363430,
  0x4953502052455454454C204C4154495041432043494C4C4952594320202020202020264C2023202020202020202020202031373430203B46435F434B464E203B2020202020202020202030373430,
  0x415449462052455454454C204C4154495041432043494C4C4952594320202020202020264C2023202020202020202020202033373430203B46435F434B464E203B2020202020202020202032373430,
  0x41535449485A492052455454454C204C4154495041432043494C4C4952594320202020202020264C2023202020202020202020202035373430203B46435F434B464E203B2020202020202020202034373430,
  0x544E4543434120455641524720454C42554F4420485449572041535449485A492052455454454C204C4154495041432043494C4C4952594320202020202020264C2023202020202020202020202037373430203B46435F434B464E203B2020202020202020202036373430,
  0x4B552052455454454C204C4154495041432043494C4C4952594320202020202020264C2023202020202020202020202039373430203B46435F434B464E203B2020202020202020202038373430,
  0x4147454D4F20444E554F522052455454454C204C4154495041432043494C4C4952594320202020202020264C2023202020202020202020202042373430203B46435F434B464E203B2020202020202020202041373430,
  0x4F4C5449542048544957204147454D4F2052455454454C204C4154495041432043494C4C4952594320202020202020264C2023202020202020202020202044373430203B46435F434B464E203B2020202020202020202043373430,
  0x544F2052455454454C204C4154495041432043494C4C4952594320202020202020264C2023202020202020202020202046373430203B46435F434B464E203B2020202020202020202045373430,
  0x4150504F4B2052455454454C204C4154495041432043494C4C4952594320202020202020264C2023202020202020202020202031383430203B46435F434B464E203B2020202020202020202030383430,
  0x4C494154204854495720492054524F48532052455454454C204C4154495041432043494C4C4952594320202020202020264C2023202020202020202020202042383430203B46435F434B464E203B2020202020202020202041383430,
  0x4E4749532054464F53494D45532052455454454C204C4154495041432043494C4C4952594320202020202020264C2023202020202020202020202044383430203B46435F434B464E203B2020202020202020202043383430,
  0x4B43495420485449572052452052455454454C204C4154495041432043494C4C4952594320202020202020264C2023202020202020202020202046383430203B46435F434B464E203B2020202020202020202045383430,
  0x4E52555450552048544957204548472052455454454C204C4154495041432043494C4C4952594320202020202020264C2023202020202020202020202031393430203B46435F434B464E203B2020202020202020202030393430,
  0x454B4F5254532048544957204548472052455454454C204C4154495041432043494C4C4952594320202020202020264C2023202020202020202020202033393430203B46435F434B464E203B2020202020202020202032393430,
  0x4B4F4F4820454C4444494D2048544957204548472052455454454C204C4154495041432043494C4C4952594320202020202020264C2023202020202020202020202035393430203B46435F434B464E203B2020202020202020202034393430,
  0x5245444E454353454420485449572045485A2052455454454C204C4154495041432043494C4C4952594320202020202020264C2023202020202020202020202037393430203B46435F434B464E203B2020202020202020202036393430,
  0x5245444E4543534544204854495720455A2052455454454C204C4154495041432043494C4C4952594320202020202020264C2023202020202020202020202039393430203B46435F434B464E203B2020202020202020202038393430,
  0x5245444E4543534544204854495720414B2052455454454C204C4154495041432043494C4C4952594320202020202020264C2023202020202020202020202042393430203B46435F434B464E203B2020202020202020202041393430,
  0x454B4F525453204C41434954524556204854495720414B2052455454454C204C4154495041432043494C4C4952594320202020202020264C2023202020202020202020202044393430203B46435F434B464E203B2020202020202020202043393430,
  0x454B4F525453204854495720414B2052455454454C204C4154495041432043494C4C4952594320202020202020264C2023202020202020202020202046393430203B46435F434B464E203B2020202020202020202045393430,
  0x414B2052494B485341422052455454454C204C4154495041432043494C4C4952594320202020202020264C2023202020202020202020202031413430203B46435F434B464E203B2020202020202020202030413430,
  0x5245444E45435345442048544957204E452052455454454C204C4154495041432043494C4C4952594320202020202020264C2023202020202020202020202033413430203B46435F434B464E203B2020202020202020202032413430,
  0x454847204E4520455255544147494C204C4154495041432043494C4C4952594320202020202020264C2023202020202020202020202035413430203B46435F434B464E203B2020202020202020202034413430,
  0x4B4F4F4820454C4444494D20485449572045502052455454454C204C4154495041432043494C4C4952594320202020202020264C2023202020202020202020202037413430203B46435F434B464E203B2020202020202020202036413430,
  0x4148204E41495341484B42412052455454454C204C4154495041432043494C4C4952594320202020202020264C2023202020202020202020202039413430203B46435F434B464E203B2020202020202020202038413430,
  0x5245444E454353454420485449572053452052455454454C204C4154495041432043494C4C4952594320202020202020264C2023202020202020202020202042413430203B46435F434B464E203B2020202020202020202041413430,
  0x5245444E454353454420485449572045542052455454454C204C4154495041432043494C4C4952594320202020202020264C2023202020202020202020202044413430203B46435F434B464E203B2020202020202020202043413430,
  0x552054484749415254532052455454454C204C4154495041432043494C4C4952594320202020202020264C2023202020202020202020202046413430203B46435F434B464E203B2020202020202020202045413430,
  0x454B4F525453204854495720552054484749415254532052455454454C204C4154495041432043494C4C4952594320202020202020264C2023202020202020202020202031423430203B46435F434B464E203B2020202020202020202030423430,
  0x5245444E454353454420485449572041482052455454454C204C4154495041432043494C4C4952594320202020202020264C2023202020202020202020202033423430203B46435F434B464E203B2020202020202020202032423430,
  0x45535420455420455255544147494C204C4154495041432043494C4C4952594320202020202020264C2023202020202020202020202035423430203B46435F434B464E203B2020202020202020202034423430,
  0x5245444E45435345442048544957204548432052455454454C204C4154495041432043494C4C4952594320202020202020264C2023202020202020202020202037423430203B46435F434B464E203B2020202020202020202036423430,
  0x454B4F525453204C414349545245562048544957204548432052455454454C204C4154495041432043494C4C4952594320202020202020264C2023202020202020202020202039423430203B46435F434B464E203B2020202020202020202038423430,
  0x414848532052455454454C204C4154495041432043494C4C4952594320202020202020264C2023202020202020202020202042423430203B46435F434B464E203B2020202020202020202041423430,
  0x454843204E41495341484B42412052455454454C204C4154495041432043494C4C4952594320202020202020264C2023202020202020202020202044423430203B46435F434B464E203B2020202020202020202043423430,
  0x5245444E4543534544204854495720454843204E41495341484B42412052455454454C204C4154495041432043494C4C4952594320202020202020264C2023202020202020202020202046423430203B46435F434B464E203B2020202020202020202045423430,
  0x414B48434F4C41502052455454454C2043494C4C4952594320202020202020264C2023202020202020202020202046433430203B46435F434B464E203B2020202020202020202030433430,
  0x455645524220485449572045485A2052455454454C204C4154495041432043494C4C4952594320202020202020264C2023202020202020202020202032433430203B46435F434B464E203B2020202020202020202031433430,
  0x4B4F4F48204854495720414B2052455454454C204C4154495041432043494C4C4952594320202020202020264C2023202020202020202020202034433430203B46435F434B464E203B2020202020202020202033433430,
  0x4C4941542048544957204C452052455454454C204C4154495041432043494C4C4952594320202020202020264C2023202020202020202020202036433430203B46435F434B464E203B2020202020202020202035433430,
  0x4B4F4F482048544957204E452052455454454C204C4154495041432043494C4C4952594320202020202020264C2023202020202020202020202038433430203B46435F434B464E203B2020202020202020202037433430,
  0x4C4941542048544957204E452052455454454C204C4154495041432043494C4C4952594320202020202020264C2023202020202020202020202041433430203B46435F434B464E203B2020202020202020202039433430,
  0x454843204E41495353414B41484B2052455454454C204C4154495041432043494C4C4952594320202020202020264C2023202020202020202020202043433430203B46435F434B464E203B2020202020202020202042433430,
  0x4C4941542048544957204D452052455454454C204C4154495041432043494C4C4952594320202020202020264C2023202020202020202020202045433430203B46435F434B464E203B2020202020202020202044433430,
  0x4556455242204854495720412052455454454C204C4154495041432043494C4C4952594320202020202020264C2023202020202020202020202031443430203B46435F434B464E203B2020202020202020202030443430,
  0x534953455245414944204854495720412052455454454C204C4154495041432043494C4C4952594320202020202020264C2023202020202020202020202033443430203B46435F434B464E203B2020202020202020202032443430,
  0x4549204120455255544147494C204C4154495041432043494C4C4952594320202020202020264C2023202020202020202020202035443430203B46435F434B464E203B2020202020202020202034443430,
  0x455645524220485449572045492052455454454C204C4154495041432043494C4C4952594320202020202020264C2023202020202020202020202037443430203B46435F434B464E203B2020202020202020202036443430,
  0x41574843532052455454454C204C4154495041432043494C4C4952594320202020202020264C2023202020202020202020202039443430203B46435F434B464E203B2020202020202020202038443430,
  0x53495345524541494420485449572041574843532052455454454C204C4154495041432043494C4C4952594320202020202020264C2023202020202020202020202042443430203B46435F434B464E203B2020202020202020202041443430,
  0x53495345524541494420485449572045485A2052455454454C204C4154495041432043494C4C4952594320202020202020264C2023202020202020202020202044443430203B46435F434B464E203B2020202020202020202043443430,
  0x534953455245414944204854495720455A2052455454454C204C4154495041432043494C4C4952594320202020202020264C2023202020202020202020202046443430203B46435F434B464E203B2020202020202020202045443430,
  0x455A44204E41495341484B42412052455454454C204C4154495041432043494C4C4952594320202020202020264C2023202020202020202020202031453430203B46435F434B464E203B2020202020202020202030453430,
  0x4E4F5243414D204854495720492052455454454C204C4154495041432043494C4C4952594320202020202020264C2023202020202020202020202033453430203B46435F434B464E203B2020202020202020202032453430,
  0x534953455245414944204854495720492052455454454C204C4154495041432043494C4C4952594320202020202020264C2023202020202020202020202035453430203B46435F434B464E203B2020202020202020202034453430,
  0x5349534552454149442048544957204F2052455454454C204C4154495041432043494C4C4952594320202020202020264C2023202020202020202020202037453430203B46435F434B464E203B2020202020202020202036453430,
  0x4F204445525241422052455454454C204C4154495041432043494C4C4952594320202020202020264C2023202020202020202020202039453430203B46435F434B464E203B2020202020202020202038453430,
  0x5349534552454149442048544957204F204445525241422052455454454C204C4154495041432043494C4C4952594320202020202020264C2023202020202020202020202042453430203B46435F434B464E203B2020202020202020202041453430,
  0x534953455245414944204854495720452052455454454C204C4154495041432043494C4C4952594320202020202020264C2023202020202020202020202044453430203B46435F434B464E203B2020202020202020202043453430,
  0x4E4F5243414D204854495720552052455454454C204C4154495041432043494C4C4952594320202020202020264C2023202020202020202020202046453430203B46435F434B464E203B2020202020202020202045453430,
  0x534953455245414944204854495720552052455454454C204C4154495041432043494C4C4952594320202020202020264C2023202020202020202020202031463430203B46435F434B464E203B2020202020202020202030463430,
  0x455455434120454C42554F44204854495720552052455454454C204C4154495041432043494C4C4952594320202020202020264C2023202020202020202020202033463430203B46435F434B464E203B2020202020202020202032463430,
  0x5349534552454149442048544957204548432052455454454C204C4154495041432043494C4C4952594320202020202020264C2023202020202020202020202035463430203B46435F434B464E203B2020202020202020202034463430,
  0x5245444E45435345442048544957204548472052455454454C204C4154495041432043494C4C4952594320202020202020264C2023202020202020202020202037463430203B46435F434B464E203B2020202020202020202036463430,
  0x534953455245414944204854495720555245592052455454454C204C4154495041432043494C4C4952594320202020202020264C2023202020202020202020202039463430203B46435F434B464E203B2020202020202020202038463430,
  0x4B4F4F4820444E4120454B4F5254532048544957204548472052455454454C204C4154495041432043494C4C4952594320202020202020264C2023202020202020202020202042463430203B46435F434B464E203B2020202020202020202041463430,
  0x4B4F4F4820485449572041482052455454454C204C4154495041432043494C4C4952594320202020202020264C2023202020202020202020202044463430203B46435F434B464E203B2020202020202020202043463430,
  0x454B4F52545320485449572041482052455454454C204C4154495041432043494C4C4952594320202020202020264C2023202020202020202020202046463430203B46435F434B464E203B2020202020202020202045463430,
  0x454420494D4F4B2052455454454C204C4154495041432043494C4C4952594320202020202020264C2023202020202020202020202031303530203B46435F434B464E203B2020202020202020202030303530,
  0x454A4420494D4F4B2052455454454C204C4154495041432043494C4C4952594320202020202020264C2023202020202020202020202033303530203B46435F434B464E203B2020202020202020202032303530,
  0x454A5A20494D4F4B2052455454454C204C4154495041432043494C4C4952594320202020202020264C2023202020202020202020202035303530203B46435F434B464E203B2020202020202020202034303530,
  0x454A5A4420494D4F4B2052455454454C204C4154495041432043494C4C4952594320202020202020264C2023202020202020202020202037303530203B46435F434B464E203B2020202020202020202036303530,
  0x454A4C20494D4F4B2052455454454C204C4154495041432043494C4C4952594320202020202020264C2023202020202020202020202039303530203B46435F434B464E203B2020202020202020202038303530,
  0x454A4E20494D4F4B2052455454454C204C4154495041432043494C4C4952594320202020202020264C2023202020202020202020202042303530203B46435F434B464E203B2020202020202020202041303530,
  0x454A5320494D4F4B2052455454454C204C4154495041432043494C4C4952594320202020202020264C2023202020202020202020202044303530203B46435F434B464E203B2020202020202020202043303530,
  0x454A5420494D4F4B2052455454454C204C4154495041432043494C4C4952594320202020202020264C2023202020202020202020202046303530203B46435F434B464E203B2020202020202020202045303530,
  0x455A2044455352455645522052455454454C204C4154495041432043494C4C4952594320202020202020264C2023202020202020202020202031313530203B46435F434B464E203B2020202020202020202030313530,
  0x4B4F4F482048544957204C452052455454454C204C4154495041432043494C4C4952594320202020202020264C2023202020202020202020202033313530203B46435F434B464E203B2020202020202020202032313530,
  0x41484C2052455454454C204C4154495041432043494C4C4952594320202020202020264C2023202020202020202020202035313530203B46435F434B464E203B2020202020202020202034313530,
  0x4148522052455454454C204C4154495041432043494C4C4952594320202020202020264C2023202020202020202020202037313530203B46435F434B464E203B2020202020202020202036313530,
  0x4541592052455454454C204C4154495041432043494C4C4952594320202020202020264C2023202020202020202020202039313530203B46435F434B464E203B2020202020202020202038313530,
  0x41512052455454454C204C4154495041432043494C4C4952594320202020202020264C2023202020202020202020202042313530203B46435F434B464E203B2020202020202020202041313530,
  0x45572052455454454C204C4154495041432043494C4C4952594320202020202020264C2023202020202020202020202044313530203B46435F434B464E203B2020202020202020202043313530,
  0x414B205455454C412052455454454C204C4154495041432043494C4C4952594320202020202020264C2023202020202020202020202046313530203B46435F434B464E203B2020202020202020202045313530,
  0x4B4F4F4820454C4444494D2048544957204C452052455454454C204C4154495041432043494C4C4952594320202020202020264C2023202020202020202020202031323530203B46435F434B464E203B2020202020202020202030323530,
  0x4B4F4F4820454C4444494D2048544957204E452052455454454C204C4154495041432043494C4C4952594320202020202020264C2023202020202020202020202033323530203B46435F434B464E203B2020202020202020202032323530,
  0x5245444E454353454420485449572045502052455454454C204C4154495041432043494C4C4952594320202020202020264C2023202020202020202020202035323530203B46435F434B464E203B2020202020202020202034323530,
  0x5245444E4543534544204854495720414848532052455454454C204C4154495041432043494C4C4952594320202020202020264C2023202020202020202020202037323530203B46435F434B464E203B2020202020202020202036323530,
  0x4B4F4F48205446454C2048544957204E452052455454454C204C4154495041432043494C4C4952594320202020202020264C2023202020202020202020202039323530203B46435F434B464E203B2020202020202020202038323530,
  0x45485A5A442052455454454C204C4154495041432043494C4C4952594320202020202020264C2023202020202020202020202042323530203B46435F434B464E203B2020202020202020202041323530,
  0x454843442052455454454C204C4154495041432043494C4C4952594320202020202020264C2023202020202020202020202044323530203B46435F434B464E203B2020202020202020202043323530,
  0x5245444E45435345442048544957204C452052455454454C204C4154495041432043494C4C4952594320202020202020264C2023202020202020202020202046323530203B46435F434B464E203B2020202020202020202045323530,
  0x4259412052455454454C204C415449504143204E41494E454D524120202020202020264C2023202020202020202020202031363530203B46435F434B464E203B2020202020202020202031333530,
  0x4E45422052455454454C204C415449504143204E41494E454D524120202020202020264C2023202020202020202020202032363530203B46435F434B464E203B2020202020202020202032333530,
  0x4D49472052455454454C204C415449504143204E41494E454D524120202020202020264C2023202020202020202020202033363530203B46435F434B464E203B2020202020202020202033333530,
  0x41442052455454454C204C415449504143204E41494E454D524120202020202020264C2023202020202020202020202034363530203B46435F434B464E203B2020202020202020202034333530,
  0x4843452052455454454C204C415449504143204E41494E454D524120202020202020264C2023202020202020202020202035363530203B46435F434B464E203B2020202020202020202035333530,
  0x415A2052455454454C204C415449504143204E41494E454D524120202020202020264C2023202020202020202020202036363530203B46435F434B464E203B2020202020202020202036333530,
  0x48452052455454454C204C415449504143204E41494E454D524120202020202020264C2023202020202020202020202037363530203B46435F434B464E203B2020202020202020202037333530,
  0x54452052455454454C204C415449504143204E41494E454D524120202020202020264C2023202020202020202020202038363530203B46435F434B464E203B2020202020202020202038333530,
  0x4F542052455454454C204C415449504143204E41494E454D524120202020202020264C2023202020202020202020202039363530203B46435F434B464E203B2020202020202020202039333530,
  0x45485A2052455454454C204C415449504143204E41494E454D524120202020202020264C2023202020202020202020202041363530203B46435F434B464E203B2020202020202020202041333530,
  0x494E492052455454454C204C415449504143204E41494E454D524120202020202020264C2023202020202020202020202042363530203B46435F434B464E203B2020202020202020202042333530,
  0x4E57494C2052455454454C204C415449504143204E41494E454D524120202020202020264C2023202020202020202020202043363530203B46435F434B464E203B2020202020202020202043333530,
  0x4845582052455454454C204C415449504143204E41494E454D524120202020202020264C2023202020202020202020202044363530203B46435F434B464E203B2020202020202020202044333530,
  0x41432052455454454C204C415449504143204E41494E454D524120202020202020264C2023202020202020202020202045363530203B46435F434B464E203B2020202020202020202045333530,
  0x4E454B2052455454454C204C415449504143204E41494E454D524120202020202020264C2023202020202020202020202046363530203B46435F434B464E203B2020202020202020202046333530,
  0x4F482052455454454C204C415449504143204E41494E454D524120202020202020264C2023202020202020202020202030373530203B46435F434B464E203B2020202020202020202030343530,
  0x414A2052455454454C204C415449504143204E41494E454D524120202020202020264C2023202020202020202020202031373530203B46435F434B464E203B2020202020202020202031343530,
  0x444148472052455454454C204C415449504143204E41494E454D524120202020202020264C2023202020202020202020202032373530203B46435F434B464E203B2020202020202020202032343530,
  0x484548432052455454454C204C415449504143204E41494E454D524120202020202020264C2023202020202020202020202033373530203B46435F434B464E203B2020202020202020202033343530,
  0x4E454D2052455454454C204C415449504143204E41494E454D524120202020202020264C2023202020202020202020202034373530203B46435F434B464E203B2020202020202020202034343530,
  0x49592052455454454C204C415449504143204E41494E454D524120202020202020264C2023202020202020202020202035373530203B46435F434B464E203B2020202020202020202035343530,
  0x574F4E2052455454454C204C415449504143204E41494E454D524120202020202020264C2023202020202020202020202036373530203B46435F434B464E203B2020202020202020202036343530,
  0x4148532052455454454C204C415449504143204E41494E454D524120202020202020264C2023202020202020202020202037373530203B46435F434B464E203B2020202020202020202037343530,
  0x4F562052455454454C204C415449504143204E41494E454D524120202020202020264C2023202020202020202020202038373530203B46435F434B464E203B2020202020202020202038343530,
  0x4148432052455454454C204C415449504143204E41494E454D524120202020202020264C2023202020202020202020202039373530203B46435F434B464E203B2020202020202020202039343530,
  0x4845502052455454454C204C415449504143204E41494E454D524120202020202020264C2023202020202020202020202041373530203B46435F434B464E203B2020202020202020202041343530,
  0x4845484A2052455454454C204C415449504143204E41494E454D524120202020202020264C2023202020202020202020202042373530203B46435F434B464E203B2020202020202020202042343530,
  0x41522052455454454C204C415449504143204E41494E454D524120202020202020264C2023202020202020202020202043373530203B46435F434B464E203B2020202020202020202043343530,
  0x4845532052455454454C204C415449504143204E41494E454D524120202020202020264C2023202020202020202020202044373530203B46435F434B464E203B2020202020202020202044343530,
  0x5745562052455454454C204C415449504143204E41494E454D524120202020202020264C2023202020202020202020202045373530203B46435F434B464E203B2020202020202020202045343530,
  0x4E5749542052455454454C204C415449504143204E41494E454D524120202020202020264C2023202020202020202020202046373530203B46435F434B464E203B2020202020202020202046343530,
  0x4845522052455454454C204C415449504143204E41494E454D524120202020202020264C2023202020202020202020202030383530203B46435F434B464E203B2020202020202020202030353530,
  0x4F432052455454454C204C415449504143204E41494E454D524120202020202020264C2023202020202020202020202031383530203B46435F434B464E203B2020202020202020202031353530,
  0x4E5749592052455454454C204C415449504143204E41494E454D524120202020202020264C2023202020202020202020202032383530203B46435F434B464E203B2020202020202020202032353530,
  0x525749502052455454454C204C415449504143204E41494E454D524120202020202020264C2023202020202020202020202033383530203B46435F434B464E203B2020202020202020202033353530,
  0x48454B2052455454454C204C415449504143204E41494E454D524120202020202020264C2023202020202020202020202034383530203B46435F434B464E203B2020202020202020202034353530,
  0x484F2052455454454C204C415449504143204E41494E454D524120202020202020264C2023202020202020202020202035383530203B46435F434B464E203B2020202020202020202035353530,
  0x4845462052455454454C204C415449504143204E41494E454D524120202020202020264C2023202020202020202020202036383530203B46435F434B464E203B2020202020202020202036353530,
  0x4E5749592048434520455255544147494C204C4C414D53204E41494E454D524120202020202020264C2023202020202020323835302035363530203B46435F434B464E203B2020202020202020202037383530,
  0x4B52414D2052455454454C204349424152412020202020202066432023202020202020202020202020202020203B46435F434B464E203B2020202020202020202043313630,
  0x46454C4120415A4D414820484749482052455454454C20434942415241202020202020206F4C2023202020202020343736302037323630203B46435F434B464E203B2020202020202020202035373630,
  0x57415720415A4D414820484749482052455454454C20434942415241202020202020206F4C2023202020202020343736302038343630203B46435F434B464E203B2020202020202020202036373630,
  0x45564F424120415A4D4148204854495720552052455454454C20434942415241202020202020206F4C2023202020202020343736302037433630203B46435F434B464E203B2020202020202020202037373630,
  0x48455920415A4D414820484749482052455454454C20434942415241202020202020206F4C2023202020202020343736302041343630203B46435F434B464E203B2020202020202020202038373630,
  0x41512052455454454C2049524147414E41564544202020202020206F4C2023202020202020433339302035313930203B46435F434B464E203B2020202020202020202038353930,
  0x4148484B2052455454454C2049524147414E41564544202020202020206F4C2023202020202020433339302036313930203B46435F434B464E203B2020202020202020202039353930,
  0x414848472052455454454C2049524147414E41564544202020202020206F4C2023202020202020433339302037313930203B46435F434B464E203B2020202020202020202041353930,
  0x415A2052455454454C2049524147414E41564544202020202020206F4C2023202020202020433339302043313930203B46435F434B464E203B2020202020202020202042353930,
  0x41484444442052455454454C2049524147414E41564544202020202020206F4C2023202020202020433339302031323930203B46435F434B464E203B2020202020202020202043353930,
  0x4148522052455454454C2049524147414E41564544202020202020206F4C2023202020202020433339302032323930203B46435F434B464E203B2020202020202020202044353930,
  0x41462052455454454C2049524147414E41564544202020202020206F4C2023202020202020433339302042323930203B46435F434B464E203B2020202020202020202045353930,
  0x4159592052455454454C2049524147414E41564544202020202020206F4C2023202020202020433339302046323930203B46435F434B464E203B2020202020202020202046353930,
  0x4152522052455454454C20494C41474E4542202020202020206F4C2023202020202020434239302031413930203B46435F434B464E203B2020202020202020202043443930,
  0x4148522052455454454C20494C41474E4542202020202020206F4C2023202020202020434239302032413930203B46435F434B464E203B2020202020202020202044443930,
  0x4159592052455454454C20494C41474E4542202020202020206F4C2023202020202020434239302046413930203B46435F434B464E203B2020202020202020202046443930,
  0x414C4C2052455454454C2049484B554D525547202020202020206F4C2023202020202020433341302032334130203B46435F434B464E203B2020202020202020202033334130,
  0x4148532052455454454C2049484B554D525547202020202020206F4C2023202020202020433341302038334130203B46435F434B464E203B2020202020202020202036334130,
  0x4148484B2052455454454C2049484B554D525547202020202020206F4C2023202020202020433341302036314130203B46435F434B464E203B2020202020202020202039354130,
  0x414848472052455454454C2049484B554D525547202020202020206F4C2023202020202020433341302037314130203B46435F434B464E203B2020202020202020202041354130,
  0x415A2052455454454C2049484B554D525547202020202020206F4C2023202020202020433341302043314130203B46435F434B464E203B2020202020202020202042354130,
  0x41462052455454454C2049484B554D525547202020202020206F4C2023202020202020433341302042324130203B46435F434B464E203B2020202020202020202045354130,
  0x4152522052455454454C20415949524F202020202020206F4C2023202020202020433342302031324230203B46435F434B464E203B2020202020202020202043354230,
  0x4148522052455454454C20415949524F202020202020206F4C2023202020202020433342302032324230203B46435F434B464E203B2020202020202020202044354230,
  0x4D412041524153205245544341524148432049414854202020202020206F4C2023202020202020323345302044344530203B46435F434B464E203B2020202020202020202033334530,
  0x4D41204E474953204C45574F56204F414C202020202020206F4C2023202020202020324245302044434530203B46435F434B464E203B2020202020202020202033424530,
  0x4F4E204F48204F414C202020202020206F4C2023202020202020393945302042414530203B46435F434B464E203B2020202020202020202043444530,
  0x4F4D204F48204F414C202020202020206F4C2023202020202020314145302042414530203B46435F434B464E203B2020202020202020202044444530,
  0x524154534220474548535420524554494D494C4544204B52414D204E415445424954202020202020206F502023202020202020202020202042304630203B46435F434B464E203B2020202020202020202043304630,
  0x4148472052455454454C204E415445424954202020202020206F4C2023202020202020374246302032344630203B46435F434B464E203B2020202020202020202033344630,
  0x414844442052455454454C204E415445424954202020202020206F4C2023202020202020374246302043344630203B46435F434B464E203B2020202020202020202044344630,
  0x4148442052455454454C204E415445424954202020202020206F4C2023202020202020374246302031354630203B46435F434B464E203B2020202020202020202032354630,
  0x4148422052455454454C204E415445424954202020202020206F4C2023202020202020374246302036354630203B46435F434B464E203B2020202020202020202037354630,
  0x41485A442052455454454C204E415445424954202020202020206F4C2023202020202020374246302042354630203B46435F434B464E203B2020202020202020202043354630,
  0x4153534B2052455454454C204E415445424954202020202020206F4C2023202020202020354246302030344630203B46435F434B464E203B2020202020202020202039364630,
  0x4949204E474953204C45574F56204E415445424954202020202020206E4D2023202020202020323746302031374630203B46435F434B464E203B2020202020202020202033374630,
  0x5555204E474953204C45574F56204E415445424954202020202020206E4D2023202020202020343746302031374630203B46435F434B464E203B2020202020202020202035374630,
  0x522043494C41434F56204E474953204C45574F56204E415445424954202020202020206E4D2023202020202020303846302032424630203B46435F434B464E203B2020202020202020202036374630,
  0x52522043494C41434F56204E474953204C45574F56204E415445424954202020202020206E4D2023203038463020313746302032424630203B46435F434B464E203B2020202020202020202037374630,
  0x4C2043494C41434F56204E474953204C45574F56204E415445424954202020202020206E4D2023202020202020303846302033424630203B46435F434B464E203B2020202020202020202038374630,
  0x4C4C2043494C41434F56204E474953204C45574F56204E415445424954202020202020206E4D2023203038463020313746302033424630203B46435F434B464E203B2020202020202020202039374630,
  0x4949204445535245564552204E474953204C45574F56204E415445424954202020202020206E4D2023202020202020303846302031374630203B46435F434B464E203B2020202020202020202031384630,
  0x4148472052455454454C2044454E494F4A425553204E415445424954202020202020206E4D2023202020202020374246302032394630203B46435F434B464E203B2020202020202020202033394630,
  0x414844442052455454454C2044454E494F4A425553204E415445424954202020202020206E4D2023202020202020374246302043394630203B46435F434B464E203B2020202020202020202044394630,
  0x4148442052455454454C2044454E494F4A425553204E415445424954202020202020206E4D2023202020202020374246302031414630203B46435F434B464E203B2020202020202020202032414630,
  0x4148422052455454454C2044454E494F4A425553204E415445424954202020202020206E4D2023202020202020374246302036414630203B46435F434B464E203B2020202020202020202037414630,
  0x41485A442052455454454C2044454E494F4A425553204E415445424954202020202020206E4D2023202020202020374246302042414630203B46435F434B464E203B2020202020202020202043414630,
  0x4153534B2052455454454C2044454E494F4A425553204E415445424954202020202020206E4D2023202020202020354246302030394630203B46435F434B464E203B2020202020202020202039424630,
  0x4E412052455454454C204C415449504143204E414947524F454720202020202020264C2023202020202020202020202030304432203B46435F434B464E203B2020202020202020202030413031,
  0x4E41422052455454454C204C415449504143204E414947524F454720202020202020264C2023202020202020202020202031304432203B46435F434B464E203B2020202020202020202031413031,
  0x4E41472052455454454C204C415449504143204E414947524F454720202020202020264C2023202020202020202020202032304432203B46435F434B464E203B2020202020202020202032413031,
  0x4E4F442052455454454C204C415449504143204E414947524F454720202020202020264C2023202020202020202020202033304432203B46435F434B464E203B2020202020202020202033413031,
  0x4E452052455454454C204C415449504143204E414947524F454720202020202020264C2023202020202020202020202034304432203B46435F434B464E203B2020202020202020202034413031,
  0x4E49562052455454454C204C415449504143204E414947524F454720202020202020264C2023202020202020202020202035304432203B46435F434B464E203B2020202020202020202035413031,
  0x4E455A2052455454454C204C415449504143204E414947524F454720202020202020264C2023202020202020202020202036304432203B46435F434B464E203B2020202020202020202036413031,
  0x4E41542052455454454C204C415449504143204E414947524F454720202020202020264C2023202020202020202020202037304432203B46435F434B464E203B2020202020202020202037413031,
  0x4E492052455454454C204C415449504143204E414947524F454720202020202020264C2023202020202020202020202038304432203B46435F434B464E203B2020202020202020202038413031,
  0x4E414B2052455454454C204C415449504143204E414947524F454720202020202020264C2023202020202020202020202039304432203B46435F434B464E203B2020202020202020202039413031,
  0x53414C2052455454454C204C415449504143204E414947524F454720202020202020264C2023202020202020202020202041304432203B46435F434B464E203B2020202020202020202041413031,
  0x4E414D2052455454454C204C415449504143204E414947524F454720202020202020264C2023202020202020202020202042304432203B46435F434B464E203B2020202020202020202042413031,
  0x52414E2052455454454C204C415449504143204E414947524F454720202020202020264C2023202020202020202020202043304432203B46435F434B464E203B2020202020202020202043413031,
  0x4E4F2052455454454C204C415449504143204E414947524F454720202020202020264C2023202020202020202020202044304432203B46435F434B464E203B2020202020202020202044413031,
  0x5241502052455454454C204C415449504143204E414947524F454720202020202020264C2023202020202020202020202045304432203B46435F434B464E203B2020202020202020202045413031,
  0x5241485A2052455454454C204C415449504143204E414947524F454720202020202020264C2023202020202020202020202046304432203B46435F434B464E203B2020202020202020202046413031,
  0x4541522052455454454C204C415449504143204E414947524F454720202020202020264C2023202020202020202020202030314432203B46435F434B464E203B2020202020202020202030423031,
  0x4E41532052455454454C204C415449504143204E414947524F454720202020202020264C2023202020202020202020202031314432203B46435F434B464E203B2020202020202020202031423031,
  0x5241542052455454454C204C415449504143204E414947524F454720202020202020264C2023202020202020202020202032314432203B46435F434B464E203B2020202020202020202032423031,
  0x4E552052455454454C204C415449504143204E414947524F454720202020202020264C2023202020202020202020202033314432203B46435F434B464E203B2020202020202020202033423031,
  0x524148502052455454454C204C415449504143204E414947524F454720202020202020264C2023202020202020202020202034314432203B46435F434B464E203B2020202020202020202034423031,
  0x5241484B2052455454454C204C415449504143204E414947524F454720202020202020264C2023202020202020202020202035314432203B46435F434B464E203B2020202020202020202035423031,
  0x4E4148472052455454454C204C415449504143204E414947524F454720202020202020264C2023202020202020202020202036314432203B46435F434B464E203B2020202020202020202036423031,
  0x5241512052455454454C204C415449504143204E414947524F454720202020202020264C2023202020202020202020202037314432203B46435F434B464E203B2020202020202020202037423031,
  0x4E4948532052455454454C204C415449504143204E414947524F454720202020202020264C2023202020202020202020202038314432203B46435F434B464E203B2020202020202020202038423031,
  0x4E4948432052455454454C204C415449504143204E414947524F454720202020202020264C2023202020202020202020202039314432203B46435F434B464E203B2020202020202020202039423031]

def qcText14 : List Nat := [
  0x4E41432052455454454C204C415449504143204E414947524F454720202020202020264C2023202020202020202020202041314432203B46435F434B464E203B2020202020202020202041423031,
  0x4C494A2052455454454C204C415449504143204E414947524F454720202020202020264C2023202020202020202020202042314432203B46435F434B464E203B2020202020202020202042423031,
  0x4C49432052455454454C204C415449504143204E414947524F454720202020202020264C2023202020202020202020202043314432203B46435F434B464E203B2020202020202020202043423031,
  0x524148432052455454454C204C415449504143204E414947524F454720202020202020264C2023202020202020202020202044314432203B46435F434B464E203B2020202020202020202044423031,
  0x4E41582052455454454C204C415449504143204E414947524F454720202020202020264C2023202020202020202020202045314432203B46435F434B464E203B2020202020202020202045423031,
  0x4E41484A2052455454454C204C415449504143204E414947524F454720202020202020264C2023202020202020202020202046314432203B46435F434B464E203B2020202020202020202046423031,
  0x4541482052455454454C204C415449504143204E414947524F454720202020202020264C2023202020202020202020202030324432203B46435F434B464E203B2020202020202020202030433031,
  0x45482052455454454C204C415449504143204E414947524F454720202020202020264C2023202020202020202020202031324432203B46435F434B464E203B2020202020202020202031433031,
  0x4549482052455454454C204C415449504143204E414947524F454720202020202020264C2023202020202020202020202032324432203B46435F434B464E203B2020202020202020202032433031,
  0x45572052455454454C204C415449504143204E414947524F454720202020202020264C2023202020202020202020202033324432203B46435F434B464E203B2020202020202020202033433031,
  0x5241482052455454454C204C415449504143204E414947524F454720202020202020264C2023202020202020202020202034324432203B46435F434B464E203B2020202020202020202034433031,
  0x454F482052455454454C204C415449504143204E414947524F454720202020202020264C2023202020202020202020202035324432203B46435F434B464E203B2020202020202020202035433031,
  0x4E592052455454454C204C415449504143204E414947524F454720202020202020264C2023202020202020202020202037324432203B46435F434B464E203B2020202020202020202037433031,
  0x4E45412052455454454C204C415449504143204E414947524F454720202020202020264C2023202020202020202020202044324432203B46435F434B464E203B2020202020202020202044433031,
  0x52414E204E414947524F45472052455454454C205245494649444F4D202020202020206D4C2023202020202020202020202043443031203B46435F434B464E203B2020202020202020202043463031,
  0x52454C4C494620474E4F4553474E554A204C55474E41482E2E52454C4C494620474E4F45534F4843204C55474E4148205D325B2020206F4C2023202020202020202020202020202020203B46435F434B464E203B20202020303631312E2E46353131,
  0x45592052455454454C204C4C414D532045454B4F5245484320202020202020264C2023202020202020202020202030463331203B46435F434B464E203B2020202020202020202038463331,
  0x49592052455454454C204C4C414D532045454B4F5245484320202020202020264C2023202020202020202020202031463331203B46435F434B464E203B2020202020202020202039463331,
  0x4F592052455454454C204C4C414D532045454B4F5245484320202020202020264C2023202020202020202020202032463331203B46435F434B464E203B2020202020202020202041463331,
  0x55592052455454454C204C4C414D532045454B4F5245484320202020202020264C2023202020202020202020202033463331203B46435F434B464E203B2020202020202020202042463331,
  0x56592052455454454C204C4C414D532045454B4F5245484320202020202020264C2023202020202020202020202034463331203B46435F434B464E203B2020202020202020202043463331,
  0x564D2052455454454C204C4C414D532045454B4F5245484320202020202020264C2023202020202020202020202035463331203B46435F434B464E203B2020202020202020202044463331,
  0x414120544E455245484E49204C45574F562052454D484B2E2E514120544E455245484E49204C45574F562052454D484B205D325B2020206E4D2023202020202020202020202020202020203B46435F434B464E203B20202020354237312E2E34423731,
  0x454552485420524F5443454C4553204E4F495441495241562045455246204E41494C4F474E4F4D2E2E454E4F20524F5443454C4553204E4F495441495241562045455246204E41494C4F474E4F4D205D335B2020206E4D2023202020202020202020202020202020203B46435F434B464E203B20202020443038312E2E42303831,
  0x524F54415241504553204C45574F56204E41494C4F474E4F4D2020202020202066432023202020202020202020202020202020203B46435F434B464E203B2020202020202020202045303831,
  0x4556204445444E554F522052455454454C204C4C414D532043494C4C4952594320202020202020264C2023202020202020202020202032333430203B46435F434B464E203B2020202020202020202030384331,
  0x45442044454747454C2D474E4F4C2052455454454C204C4C414D532043494C4C4952594320202020202020264C2023202020202020202020202034333430203B46435F434B464E203B2020202020202020202031384331,
  0x4F20574F5252414E2052455454454C204C4C414D532043494C4C4952594320202020202020264C2023202020202020202020202045333430203B46435F434B464E203B2020202020202020202032384331,
  0x534520454449572052455454454C204C4C414D532043494C4C4952594320202020202020264C2023202020202020202020202031343430203B46435F434B464E203B2020202020202020202033384331,
  0x45542044454747454C2D45455248542052455454454C204C4C414D532043494C4C495259432E2E4554204C4C41542052455454454C204C4C414D532043494C4C49525943205D325B202020264C2023202020202020202020202032343430203B46435F434B464E203B20202020353843312E2E34384331,
  0x4E4749532044524148204C4C41542052455454454C204C4C414D532043494C4C4952594320202020202020264C2023202020202020202020202041343430203B46435F434B464E203B2020202020202020202036384331,
  0x544159204C4C41542052455454454C204C4C414D532043494C4C4952594320202020202020264C2023202020202020202020202033363430203B46435F434B464E203B2020202020202020202037384331,
  0x4B55204445444E454C424E552052455454454C204C4C414D532043494C4C4952594320202020202020264C2023202020202020202020202042343641203B46435F434B464E203B2020202020202020202038384331,
  0x4E412052455454454C204C41544950414320494C55525641544D204E414947524F454720202020202020264C2023202020202020202020202030443031203B46435F434B464E203B2020202020202020202030394331,
  0x4E41422052455454454C204C41544950414320494C55525641544D204E414947524F454720202020202020264C2023202020202020202020202031443031203B46435F434B464E203B2020202020202020202031394331,
  0x4E41472052455454454C204C41544950414320494C55525641544D204E414947524F454720202020202020264C2023202020202020202020202032443031203B46435F434B464E203B2020202020202020202032394331,
  0x4E4F442052455454454C204C41544950414320494C55525641544D204E414947524F454720202020202020264C2023202020202020202020202033443031203B46435F434B464E203B2020202020202020202033394331,
  0x4E452052455454454C204C41544950414320494C55525641544D204E414947524F454720202020202020264C2023202020202020202020202034443031203B46435F434B464E203B2020202020202020202034394331,
  0x4E49562052455454454C204C41544950414320494C55525641544D204E414947524F454720202020202020264C2023202020202020202020202035443031203B46435F434B464E203B2020202020202020202035394331,
  0x4E455A2052455454454C204C41544950414320494C55525641544D204E414947524F454720202020202020264C2023202020202020202020202036443031203B46435F434B464E203B2020202020202020202036394331,
  0x4E41542052455454454C204C41544950414320494C55525641544D204E414947524F454720202020202020264C2023202020202020202020202037443031203B46435F434B464E203B2020202020202020202037394331,
  0x4E492052455454454C204C41544950414320494C55525641544D204E414947524F454720202020202020264C2023202020202020202020202038443031203B46435F434B464E203B2020202020202020202038394331,
  0x4E414B2052455454454C204C41544950414320494C55525641544D204E414947524F454720202020202020264C2023202020202020202020202039443031203B46435F434B464E203B2020202020202020202039394331,
  0x53414C2052455454454C204C41544950414320494C55525641544D204E414947524F454720202020202020264C2023202020202020202020202041443031203B46435F434B464E203B2020202020202020202041394331,
  0x4E414D2052455454454C204C41544950414320494C55525641544D204E414947524F454720202020202020264C2023202020202020202020202042443031203B46435F434B464E203B2020202020202020202042394331,
  0x52414E2052455454454C204C41544950414320494C55525641544D204E414947524F454720202020202020264C2023202020202020202020202043443031203B46435F434B464E203B2020202020202020202043394331,
  0x4E4F2052455454454C204C41544950414320494C55525641544D204E414947524F454720202020202020264C2023202020202020202020202044443031203B46435F434B464E203B2020202020202020202044394331,
  0x5241502052455454454C204C41544950414320494C55525641544D204E414947524F454720202020202020264C2023202020202020202020202045443031203B46435F434B464E203B2020202020202020202045394331,
  0x5241485A2052455454454C204C41544950414320494C55525641544D204E414947524F454720202020202020264C2023202020202020202020202046443031203B46435F434B464E203B2020202020202020202046394331,
  0x4541522052455454454C204C41544950414320494C55525641544D204E414947524F454720202020202020264C2023202020202020202020202030453031203B46435F434B464E203B2020202020202020202030414331,
  0x4E41532052455454454C204C41544950414320494C55525641544D204E414947524F454720202020202020264C2023202020202020202020202031453031203B46435F434B464E203B2020202020202020202031414331,
  0x5241542052455454454C204C41544950414320494C55525641544D204E414947524F454720202020202020264C2023202020202020202020202032453031203B46435F434B464E203B2020202020202020202032414331,
  0x4E552052455454454C204C41544950414320494C55525641544D204E414947524F454720202020202020264C2023202020202020202020202033453031203B46435F434B464E203B2020202020202020202033414331,
  0x524148502052455454454C204C41544950414320494C55525641544D204E414947524F454720202020202020264C2023202020202020202020202034453031203B46435F434B464E203B2020202020202020202034414331,
  0x5241484B2052455454454C204C41544950414320494C55525641544D204E414947524F454720202020202020264C2023202020202020202020202035453031203B46435F434B464E203B2020202020202020202035414331,
  0x4E4148472052455454454C204C41544950414320494C55525641544D204E414947524F454720202020202020264C2023202020202020202020202036453031203B46435F434B464E203B2020202020202020202036414331,
  0x5241512052455454454C204C41544950414320494C55525641544D204E414947524F454720202020202020264C2023202020202020202020202037453031203B46435F434B464E203B2020202020202020202037414331,
  0x4E4948532052455454454C204C41544950414320494C55525641544D204E414947524F454720202020202020264C2023202020202020202020202038453031203B46435F434B464E203B2020202020202020202038414331,
  0x4E4948432052455454454C204C41544950414320494C55525641544D204E414947524F454720202020202020264C2023202020202020202020202039453031203B46435F434B464E203B2020202020202020202039414331,
  0x4E41432052455454454C204C41544950414320494C55525641544D204E414947524F454720202020202020264C2023202020202020202020202041453031203B46435F434B464E203B2020202020202020202041414331,
  0x4C494A2052455454454C204C41544950414320494C55525641544D204E414947524F454720202020202020264C2023202020202020202020202042453031203B46435F434B464E203B2020202020202020202042414331,
  0x4C49432052455454454C204C41544950414320494C55525641544D204E414947524F454720202020202020264C2023202020202020202020202043453031203B46435F434B464E203B2020202020202020202043414331,
  0x524148432052455454454C204C41544950414320494C55525641544D204E414947524F454720202020202020264C2023202020202020202020202044453031203B46435F434B464E203B2020202020202020202044414331,
  0x4E41582052455454454C204C41544950414320494C55525641544D204E414947524F454720202020202020264C2023202020202020202020202045453031203B46435F434B464E203B2020202020202020202045414331,
  0x4E41484A2052455454454C204C41544950414320494C55525641544D204E414947524F454720202020202020264C2023202020202020202020202046453031203B46435F434B464E203B2020202020202020202046414331,
  0x4541482052455454454C204C41544950414320494C55525641544D204E414947524F454720202020202020264C2023202020202020202020202030463031203B46435F434B464E203B2020202020202020202030424331,
  0x45482052455454454C204C41544950414320494C55525641544D204E414947524F454720202020202020264C2023202020202020202020202031463031203B46435F434B464E203B2020202020202020202031424331,
  0x4549482052455454454C204C41544950414320494C55525641544D204E414947524F454720202020202020264C2023202020202020202020202032463031203B46435F434B464E203B2020202020202020202032424331,
  0x45572052455454454C204C41544950414320494C55525641544D204E414947524F454720202020202020264C2023202020202020202020202033463031203B46435F434B464E203B2020202020202020202033424331,
  0x5241482052455454454C204C41544950414320494C55525641544D204E414947524F454720202020202020264C2023202020202020202020202034463031203B46435F434B464E203B2020202020202020202034424331,
  0x454F482052455454454C204C41544950414320494C55525641544D204E414947524F454720202020202020264C2023202020202020202020202035463031203B46435F434B464E203B2020202020202020202035424331,
  0x49462052455454454C204C41544950414320494C55525641544D204E414947524F454720202020202020264C2023202020202020202020202036463031203B46435F434B464E203B2020202020202020202036424331,
  0x4E592052455454454C204C41544950414320494C55525641544D204E414947524F454720202020202020264C2023202020202020202020202037463031203B46435F434B464E203B2020202020202020202037424331,
  0x4946494C452052455454454C204C41544950414320494C55525641544D204E414947524F454720202020202020264C2023202020202020202020202038463031203B46435F434B464E203B2020202020202020202038424331,
  0x4E41472044454E5255542052455454454C204C41544950414320494C55525641544D204E414947524F454720202020202020264C2023202020202020202020202039463031203B46435F434B464E203B2020202020202020202039424331,
  0x4E49412052455454454C204C41544950414320494C55525641544D204E414947524F454720202020202020264C2023202020202020202020202041463031203B46435F434B464E203B2020202020202020202041424331,
  0x4E45412052455454454C204C41544950414320494C55525641544D204E414947524F454720202020202020264C2023202020202020202020202044463031203B46435F434B464E203B2020202020202020202044424331,
  0x4E47495320445241482052455454454C204C41544950414320494C55525641544D204E414947524F454720202020202020264C2023202020202020202020202045463031203B46435F434B464E203B2020202020202020202045424331,
  0x4E474953204C414942414C2052455454454C204C41544950414320494C55525641544D204E414947524F454720202020202020264C2023202020202020202020202046463031203B46435F434B464E203B2020202020202020202046424331,
  0x41204C4154495041432052455454454C205245494649444F4D202020202020206D4C2023202020202020202020202031363030203B46435F434B464E203B2020202020202020202043324431,
  0x4541204C4154495041432052455454454C205245494649444F4D202020202020206D4C2023202020202020202020202036453030203B46435F434B464E203B2020202020202020202044324431,
  0x42204C4154495041432052455454454C205245494649444F4D202020202020206D4C2023202020202020202020202032363030203B46435F434B464E203B2020202020202020202045324431,
  0x44204C4154495041432052455454454C205245494649444F4D202020202020206D4C2023202020202020202020202034363030203B46435F434B464E203B2020202020202020202030334431,
  0x45204C4154495041432052455454454C205245494649444F4D202020202020206D4C2023202020202020202020202035363030203B46435F434B464E203B2020202020202020202031334431,
  0x45204445535245564552204C4154495041432052455454454C205245494649444F4D202020202020206D4C2023202020202020202020202044443130203B46435F434B464E203B2020202020202020202032334431,
  0x47204C4154495041432052455454454C205245494649444F4D202020202020206D4C2023202020202020202020202037363030203B46435F434B464E203B2020202020202020202033334431,
  0x48204C4154495041432052455454454C205245494649444F4D202020202020206D4C2023202020202020202020202038363030203B46435F434B464E203B2020202020202020202034334431,
  0x49204C4154495041432052455454454C205245494649444F4D202020202020206D4C2023202020202020202020202039363030203B46435F434B464E203B2020202020202020202035334431,
  0x4A204C4154495041432052455454454C205245494649444F4D202020202020206D4C2023202020202020202020202041363030203B46435F434B464E203B2020202020202020202036334431,
  0x4B204C4154495041432052455454454C205245494649444F4D202020202020206D4C2023202020202020202020202042363030203B46435F434B464E203B2020202020202020202037334431,
  0x4C204C4154495041432052455454454C205245494649444F4D202020202020206D4C2023202020202020202020202043363030203B46435F434B464E203B2020202020202020202038334431,
  0x4D204C4154495041432052455454454C205245494649444F4D202020202020206D4C2023202020202020202020202044363030203B46435F434B464E203B2020202020202020202039334431,
  0x4E204C4154495041432052455454454C205245494649444F4D202020202020206D4C2023202020202020202020202045363030203B46435F434B464E203B2020202020202020202041334431,
  0x4F204C4154495041432052455454454C205245494649444F4D202020202020206D4C2023202020202020202020202046363030203B46435F434B464E203B2020202020202020202043334431,
  0x554F204C4154495041432052455454454C205245494649444F4D202020202020206D4C2023202020202020202020202033323230203B46435F434B464E203B2020202020202020202044334431,
  0x50204C4154495041432052455454454C205245494649444F4D202020202020206D4C2023202020202020202020202030373030203B46435F434B464E203B2020202020202020202045334431,
  0x52204C4154495041432052455454454C205245494649444F4D202020202020206D4C2023202020202020202020202032373030203B46435F434B464E203B2020202020202020202046334431,
  0x54204C4154495041432052455454454C205245494649444F4D202020202020206D4C2023202020202020202020202034373030203B46435F434B464E203B2020202020202020202030344431,
  0x55204C4154495041432052455454454C205245494649444F4D202020202020206D4C2023202020202020202020202035373030203B46435F434B464E203B2020202020202020202031344431,
  0x57204C4154495041432052455454454C205245494649444F4D202020202020206D4C2023202020202020202020202037373030203B46435F434B464E203B2020202020202020202032344431,
  0x41204C4C414D532052455454454C205245494649444F4D202020202020206D4C2023202020202020202020202031363030203B46435F434B464E203B2020202020202020202033344431,
  0x412044454E525554204C4C414D532052455454454C205245494649444F4D202020202020206D4C2023202020202020202020202030353230203B46435F434B464E203B2020202020202020202034344431,
  0x4148504C41204C4C414D532052455454454C205245494649444F4D202020202020206D4C2023202020202020202020202031353230203B46435F434B464E203B2020202020202020202035344431,
  0x45412044454E525554204C4C414D532052455454454C205245494649444F4D202020202020206D4C2023202020202020202020202032304431203B46435F434B464E203B2020202020202020202036344431,
  0x42204C4C414D532052455454454C205245494649444F4D202020202020206D4C2023202020202020202020202032363030203B46435F434B464E203B2020202020202020202037344431,
  0x44204C4C414D532052455454454C205245494649444F4D202020202020206D4C2023202020202020202020202034363030203B46435F434B464E203B2020202020202020202038344431,
  0x45204C4C414D532052455454454C205245494649444F4D202020202020206D4C2023202020202020202020202035363030203B46435F434B464E203B2020202020202020202039344431,
  0x4157484353204C4C414D532052455454454C205245494649444F4D202020202020206D4C2023202020202020202020202039353230203B46435F434B464E203B2020202020202020202041344431,
  0x45204E45504F204C4C414D532052455454454C205245494649444F4D202020202020206D4C2023202020202020202020202042353230203B46435F434B464E203B2020202020202020202042344431,
  0x45204E45504F2044454E525554204C4C414D532052455454454C205245494649444F4D202020202020206D4C2023202020202020202020202043353230203B46435F434B464E203B2020202020202020202043344431,
  0x47204C4C414D532052455454454C205245494649444F4D202020202020206D4C2023202020202020202020202037363030203B46435F434B464E203B2020202020202020202044344431,
  0x4B204C4C414D532052455454454C205245494649444F4D202020202020206D4C2023202020202020202020202042363030203B46435F434B464E203B2020202020202020202046344431,
  0x4D204C4C414D532052455454454C205245494649444F4D202020202020206D4C2023202020202020202020202044363030203B46435F434B464E203B2020202020202020202030354431,
  0x474E45204C4C414D532052455454454C205245494649444F4D202020202020206D4C2023202020202020202020202042343130203B46435F434B464E203B2020202020202020202031354431,
  0x4F204C4C414D532052455454454C205245494649444F4D202020202020206D4C2023202020202020202020202046363030203B46435F434B464E203B2020202020202020202032354431,
  0x4F204E45504F204C4C414D532052455454454C205245494649444F4D202020202020206D4C2023202020202020202020202034353230203B46435F434B464E203B2020202020202020202033354431,
  0x4F20464C414820504F54204C4C414D532052455454454C205245494649444F4D202020202020206D4C2023202020202020202020202036314431203B46435F434B464E203B2020202020202020202034354431,
  0x4F20464C4148204D4F54544F42204C4C414D532052455454454C205245494649444F4D202020202020206D4C2023202020202020202020202037314431203B46435F434B464E203B2020202020202020202035354431,
  0x50204C4C414D532052455454454C205245494649444F4D202020202020206D4C2023202020202020202020202030373030203B46435F434B464E203B2020202020202020202036354431,
  0x54204C4C414D532052455454454C205245494649444F4D202020202020206D4C2023202020202020202020202034373030203B46435F434B464E203B2020202020202020202037354431,
  0x55204C4C414D532052455454454C205245494649444F4D202020202020206D4C2023202020202020202020202035373030203B46435F434B464E203B2020202020202020202038354431,
  0x55205359415745444953204C4C414D532052455454454C205245494649444F4D202020202020206D4C2023202020202020202020202044314431203B46435F434B464E203B2020202020202020202039354431,
  0x4D2044454E525554204C4C414D532052455454454C205245494649444F4D202020202020206D4C2023202020202020202020202046363230203B46435F434B464E203B2020202020202020202041354431,
  0x56204C4C414D532052455454454C205245494649444F4D202020202020206D4C2023202020202020202020202036373030203B46435F434B464E203B2020202020202020202042354431,
  0x4E4941204C4C414D532052455454454C205245494649444F4D202020202020206D4C2023202020202020202020202035324431203B46435F434B464E203B2020202020202020202043354431,
  0x41544542204C4C414D532052455454454C205245494649444F4D202020202020206D4C2023202020202020202020202032423330203B46435F434B464E203B2020202020202020202044354431,
  0x414D4D4147204B45455247204C4C414D532052455454454C205245494649444F4D202020202020206D4C2023202020202020202020202033423330203B46435F434B464E203B2020202020202020202045354431,
  0x41544C4544204C4C414D532052455454454C205245494649444F4D202020202020206D4C2023202020202020202020202034423330203B46435F434B464E203B2020202020202020202046354431,
  0x494850204B45455247204C4C414D532052455454454C205245494649444F4D202020202020206D4C2023202020202020202020202036433330203B46435F434B464E203B2020202020202020202030364431,
  0x494843204C4C414D532052455454454C205245494649444F4D202020202020206D4C2023202020202020202020202037433330203B46435F434B464E203B2020202020202020202031364431,
  0x492052455454454C204C4C414D5320545049524353425553204E4954414C202020202020206D4C2023202020202020202020202039363030203B46435F434B464E203B2020202020202020202032364431,
  0x522052455454454C204C4C414D5320545049524353425553204E4954414C202020202020206D4C2023202020202020202020202032373030203B46435F434B464E203B2020202020202020202033364431,
  0x552052455454454C204C4C414D5320545049524353425553204E4954414C202020202020206D4C2023202020202020202020202035373030203B46435F434B464E203B2020202020202020202034364431,
  0x562052455454454C204C4C414D5320545049524353425553204E4954414C202020202020206D4C2023202020202020202020202036373030203B46435F434B464E203B2020202020202020202035364431,
  0x415445422052455454454C204C4C414D5320545049524353425553204B45455247202020202020206D4C2023202020202020202020202032423330203B46435F434B464E203B2020202020202020202036364431,
  0x414D4D41472052455454454C204C4C414D5320545049524353425553204B45455247202020202020206D4C2023202020202020202020202033423330203B46435F434B464E203B2020202020202020202037364431,
  0x4F48522052455454454C204C4C414D5320545049524353425553204B45455247202020202020206D4C2023202020202020202020202031433330203B46435F434B464E203B2020202020202020202038364431,
  0x4948502052455454454C204C4C414D5320545049524353425553204B45455247202020202020206D4C2023202020202020202020202036433330203B46435F434B464E203B2020202020202020202039364431,
  0x4948432052455454454C204C4C414D5320545049524353425553204B45455247202020202020206D4C2023202020202020202020202037433330203B46435F434B464E203B2020202020202020202041364431,
  0x4E452043494C4C495259432052455454454C205245494649444F4D202020202020206D4C2023202020202020202020202044333430203B46435F434B464E203B2020202020202020202038374431,
  0x4148504C412044454E525554204C4C414D532052455454454C205245494649444F4D202020202020206D4C2023202020202020202020202032353230203B46435F434B464E203B2020202020202020202042394431,
  0x43204C4C414D532052455454454C205245494649444F4D202020202020206D4C2023202020202020202020202033363030203B46435F434B464E203B2020202020202020202043394431,
  0x4C52554320485449572043204C4C414D532052455454454C205245494649444F4D202020202020206D4C2023202020202020202020202035353230203B46435F434B464E203B2020202020202020202044394431,
  0x485445204C4C414D532052455454454C205245494649444F4D202020202020206D4C2023202020202020202020202030463030203B46435F434B464E203B2020202020202020202045394431,
  0x45204E45504F204445535245564552204C4C414D532052455454454C205245494649444F4D202020202020206D4C2023202020202020202020202043353230203B46435F434B464E203B2020202020202020202046394431,
  0x46204C4C414D532052455454454C205245494649444F4D202020202020206D4C2023202020202020202020202036363030203B46435F434B464E203B2020202020202020202030414431,
  0x454B4F5254532048544957204A205353454C544F44204C4C414D532052455454454C205245494649444F4D202020202020206D4C2023202020202020202020202046353230203B46435F434B464E203B2020202020202020202031414431,
  0x4720545049524353204C4C414D532052455454454C205245494649444F4D202020202020206D4C2023202020202020202020202031363230203B46435F434B464E203B2020202020202020202032414431,
  0x482044454E525554204C4C414D532052455454454C205245494649444F4D202020202020206D4C2023202020202020202020202035363230203B46435F434B464E203B2020202020202020202033414431,
  0x454B4F52545320485449572049204C4C414D532052455454454C205245494649444F4D202020202020206D4C2023202020202020202020202038363230203B46435F434B464E203B2020202020202020202034414431,
  0x41544F49204C4C414D532052455454454C205245494649444F4D202020202020206D4C2023202020202020202020202039363230203B46435F434B464E203B2020202020202020202035414431,
  0x49204C415449504143204C4C414D532052455454454C205245494649444F4D202020202020206D4C2023202020202020202020202041363230203B46435F434B464E203B2020202020202020202036414431,
  0x454B4F52545320485449572049204C415449504143204C4C414D532052455454454C205245494649444F4D202020202020206D4C2023202020202020202020202042374431203B46435F434B464E203B2020202020202020202037414431,
  0x4C4941542D444553534F52432048544957204A204C4C414D532052455454454C205245494649444F4D202020202020206D4C2023202020202020202020202044393230203B46435F434B464E203B2020202020202020202038414431,
  0x4B4F4F482058454C464F525445522048544957204C204C4C414D532052455454454C205245494649444F4D202020202020206D4C2023202020202020202020202044363230203B46435F434B464E203B2020202020202020202039414431,
  0x4B4F4F48204C4154414C41502048544957204C204C4C414D532052455454454C205245494649444F4D202020202020206D4C2023202020202020202020202035384431203B46435F434B464E203B2020202020202020202041414431,
  0x4C204C415449504143204C4C414D532052455454454C205245494649444F4D202020202020206D4C2023202020202020202020202046393230203B46435F434B464E203B2020202020202020202042414431,
  0x4B4F4F482048544957204D204C4C414D532052455454454C205245494649444F4D202020202020206D4C2023202020202020202020202031373230203B46435F434B464E203B2020202020202020202043414431,
  0x47454C20474E4F4C2048544957204D2044454E525554204C4C414D532052455454454C205245494649444F4D202020202020206D4C2023202020202020202020202030373230203B46435F434B464E203B2020202020202020202044414431,
  0x4B4F4F48205446454C2048544957204E204C4C414D532052455454454C205245494649444F4D202020202020206D4C2023202020202020202020202032373230203B46435F434B464E203B2020202020202020202045414431,
  0x4B4F4F482058454C464F525445522048544957204E204C4C414D532052455454454C205245494649444F4D202020202020206D4C2023202020202020202020202033373230203B46435F434B464E203B2020202020202020202046414431,
  0x4E204C415449504143204C4C414D532052455454454C205245494649444F4D202020202020206D4C2023202020202020202020202034373230203B46435F434B464E203B2020202020202020202030424431,
  0x4F20444552524142204C4C414D532052455454454C205245494649444F4D202020202020206D4C2023202020202020202020202035373230203B46435F434B464E203B2020202020202020202031424431,
  0x494850204C4C414D532052455454454C205245494649444F4D202020202020206D4C2023202020202020202020202038373230203B46435F434B464E203B2020202020202020202032424431,
  0x4B4F4F4820485449572053204C4C414D532052455454454C205245494649444F4D202020202020206D4C2023202020202020202020202032383230203B46435F434B464E203B2020202020202020202033424431,
  0x485345204C4C414D532052455454454C205245494649444F4D202020202020206D4C2023202020202020202020202033383230203B46435F434B464E203B2020202020202020202034424431,
  0x4B4F4F48204C4154414C415020485449572054204C4C414D532052455454454C205245494649444F4D202020202020206D4C2023202020202020202020202042413130203B46435F434B464E203B2020202020202020202035424431,
  0x5241422055204C4C414D532052455454454C205245494649444F4D202020202020206D4C2023202020202020202020202039383230203B46435F434B464E203B2020202020202020202036424431,
  0x4E4F4C49535055204C4C414D532052455454454C205245494649444F4D202020202020206D4C2023202020202020202020202041383230203B46435F434B464E203B2020202020202020202037424431,
  0x55204C415449504143204C4C414D532052455454454C205245494649444F4D202020202020206D4C2023202020202020202020202043314431203B46435F434B464E203B2020202020202020202038424431,
  0x4B4F4F4820485449572056204C4C414D532052455454454C205245494649444F4D202020202020206D4C2023202020202020202020202042383230203B46435F434B464E203B2020202020202020202039424431,
  0x562044454E525554204C4C414D532052455454454C205245494649444F4D202020202020206D4C2023202020202020202020202043383230203B46435F434B464E203B2020202020202020202041424431,
  0x5A204C4C414D532052455454454C205245494649444F4D202020202020206D4C2023202020202020202020202041373030203B46435F434B464E203B2020202020202020202042424431,
  0x4B4F4F482058454C464F525445522048544957205A204C4C414D532052455454454C205245494649444F4D202020202020206D4C2023202020202020202020202030393230203B46435F434B464E203B2020202020202020202043424431,
  0x4C5255432048544957205A204C4C414D532052455454454C205245494649444F4D202020202020206D4C2023202020202020202020202031393230203B46435F434B464E203B2020202020202020202044424431,
  0x485A45204C4C414D532052455454454C205245494649444F4D202020202020206D4C2023202020202020202020202032393230203B46435F434B464E203B2020202020202020202045424431,
  0x4154454854204C4C414D532052455454454C205245494649444F4D202020202020206D4C2023202020202020202020202038423330203B46435F434B464E203B2020202020202020202046424431,
  0x574F4C454220474E4952204854495720412052455454454C204C415449504143204E4954414C20202020202020264C2023202020202020202020202031304531203B46435F434B464E203B2020202020202020202030304531,
  0x45564F424120544F44204854495720422052455454454C204C415449504143204E4954414C20202020202020264C2023202020202020202020202033304531203B46435F434B464E203B2020202020202020202032304531,
  0x574F4C454220544F44204854495720422052455454454C204C415449504143204E4954414C20202020202020264C2023202020202020202020202035304531203B46435F434B464E203B2020202020202020202034304531,
  0x574F4C454220454E494C204854495720422052455454454C204C415449504143204E4954414C20202020202020264C2023202020202020202020202037304531203B46435F434B464E203B2020202020202020202036304531,
  0x455455434120444E4120414C4C49444543204854495720432052455454454C204C415449504143204E4954414C20202020202020264C2023202020202020202020202039304531203B46435F434B464E203B2020202020202020202038304531,
  0x45564F424120544F44204854495720442052455454454C204C415449504143204E4954414C20202020202020264C2023202020202020202020202042304531203B46435F434B464E203B2020202020202020202041304531,
  0x574F4C454220544F44204854495720442052455454454C204C415449504143204E4954414C20202020202020264C2023202020202020202020202044304531203B46435F434B464E203B2020202020202020202043304531,
  0x574F4C454220454E494C204854495720442052455454454C204C415449504143204E4954414C20202020202020264C2023202020202020202020202046304531203B46435F434B464E203B2020202020202020202045304531,
  0x414C4C49444543204854495720442052455454454C204C415449504143204E4954414C20202020202020264C2023202020202020202020202031314531203B46435F434B464E203B2020202020202020202030314531,
  0x574F4C45422058454C464D5543524943204854495720442052455454454C204C415449504143204E4954414C20202020202020264C2023202020202020202020202033314531203B46435F434B464E203B2020202020202020202032314531,
  0x455641524720444E41204E4F5243414D204854495720452052455454454C204C415449504143204E4954414C20202020202020264C2023202020202020202020202035314531203B46435F434B464E203B2020202020202020202034314531,
  0x455455434120444E41204E4F5243414D204854495720452052455454454C204C415449504143204E4954414C20202020202020264C2023202020202020202020202037314531203B46435F434B464E203B2020202020202020202036314531,
  0x574F4C45422058454C464D5543524943204854495720452052455454454C204C415449504143204E4954414C20202020202020264C2023202020202020202020202039314531203B46435F434B464E203B2020202020202020202038314531,
  0x574F4C45422045444C4954204854495720452052455454454C204C415449504143204E4954414C20202020202020264C2023202020202020202020202042314531203B46435F434B464E203B2020202020202020202041314531,
  0x455645524220444E4120414C4C49444543204854495720452052455454454C204C415449504143204E4954414C20202020202020264C2023202020202020202020202044314531203B46435F434B464E203B2020202020202020202043314531,
  0x45564F424120544F44204854495720462052455454454C204C415449504143204E4954414C20202020202020264C2023202020202020202020202046314531203B46435F434B464E203B2020202020202020202045314531,
  0x4E4F5243414D204854495720472052455454454C204C415449504143204E4954414C20202020202020264C2023202020202020202020202031324531203B46435F434B464E203B2020202020202020202030324531,
  0x45564F424120544F44204854495720482052455454454C204C415449504143204E4954414C20202020202020264C2023202020202020202020202033324531203B46435F434B464E203B2020202020202020202032324531,
  0x574F4C454220544F44204854495720482052455454454C204C415449504143204E4954414C20202020202020264C2023202020202020202020202035324531203B46435F434B464E203B2020202020202020202034324531,
  0x534953455245414944204854495720482052455454454C204C415449504143204E4954414C20202020202020264C2023202020202020202020202037324531203B46435F434B464E203B2020202020202020202036324531,
  0x414C4C49444543204854495720482052455454454C204C415449504143204E4954414C20202020202020264C2023202020202020202020202039324531203B46435F434B464E203B2020202020202020202038324531,
  0x574F4C4542204556455242204854495720482052455454454C204C415449504143204E4954414C20202020202020264C2023202020202020202020202042324531203B46435F434B464E203B2020202020202020202041324531,
  0x574F4C45422045444C4954204854495720492052455454454C204C415449504143204E4954414C20202020202020264C2023202020202020202020202044324531203B46435F434B464E203B2020202020202020202043324531,
  0x455455434120444E4120534953455245414944204854495720492052455454454C204C415449504143204E4954414C20202020202020264C2023202020202020202020202046324531203B46435F434B464E203B2020202020202020202045324531,
  0x45545543412048544957204B2052455454454C204C415449504143204E4954414C20202020202020264C2023202020202020202020202031334531203B46435F434B464E203B2020202020202020202030334531,
  0x574F4C454220544F442048544957204B2052455454454C204C415449504143204E4954414C20202020202020264C2023202020202020202020202033334531203B46435F434B464E203B2020202020202020202032334531,
  0x574F4C454220454E494C2048544957204B2052455454454C204C415449504143204E4954414C20202020202020264C2023202020202020202020202035334531203B46435F434B464E203B2020202020202020202034334531,
  0x574F4C454220544F442048544957204C2052455454454C204C415449504143204E4954414C20202020202020264C2023202020202020202020202037334531203B46435F434B464E203B2020202020202020202036334531,
  0x4E4F5243414D20444E4120574F4C454220544F442048544957204C2052455454454C204C415449504143204E4954414C20202020202020264C2023202020202020202020202039334531203B46435F434B464E203B2020202020202020202038334531,
  0x574F4C454220454E494C2048544957204C2052455454454C204C415449504143204E4954414C20202020202020264C2023202020202020202020202042334531203B46435F434B464E203B2020202020202020202041334531,
  0x574F4C45422058454C464D55435249432048544957204C2052455454454C204C415449504143204E4954414C20202020202020264C2023202020202020202020202044334531203B46435F434B464E203B2020202020202020202043334531,
  0x45545543412048544957204D2052455454454C204C415449504143204E4954414C20202020202020264C2023202020202020202020202046334531203B46435F434B464E203B2020202020202020202045334531,
  0x45564F424120544F442048544957204D2052455454454C204C415449504143204E4954414C20202020202020264C2023202020202020202020202031344531203B46435F434B464E203B2020202020202020202030344531,
  0x574F4C454220544F442048544957204D2052455454454C204C415449504143204E4954414C20202020202020264C2023202020202020202020202033344531203B46435F434B464E203B2020202020202020202032344531,
  0x45564F424120544F442048544957204E2052455454454C204C415449504143204E4954414C20202020202020264C2023202020202020202020202035344531203B46435F434B464E203B2020202020202020202034344531,
  0x574F4C454220544F442048544957204E2052455454454C204C415449504143204E4954414C20202020202020264C2023202020202020202020202037344531203B46435F434B464E203B2020202020202020202036344531,
  0x574F4C454220454E494C2048544957204E2052455454454C204C415449504143204E4954414C20202020202020264C2023202020202020202020202039344531203B46435F434B464E203B2020202020202020202038344531,
  0x574F4C45422058454C464D55435249432048544957204E2052455454454C204C415449504143204E4954414C20202020202020264C2023202020202020202020202042344531203B46435F434B464E203B2020202020202020202041344531,
  0x455455434120444E412045444C49542048544957204F2052455454454C204C415449504143204E4954414C20202020202020264C2023202020202020202020202044344531203B46435F434B464E203B2020202020202020202043344531,
  0x53495345524541494420444E412045444C49542048544957204F2052455454454C204C415449504143204E4954414C20202020202020264C2023202020202020202020202046344531203B46435F434B464E203B2020202020202020202045344531,
  0x455641524720444E41204E4F5243414D2048544957204F2052455454454C204C415449504143204E4954414C20202020202020264C2023202020202020202020202031354531203B46435F434B464E203B2020202020202020202030354531,
  0x455455434120444E41204E4F5243414D2048544957204F2052455454454C204C415449504143204E4954414C20202020202020264C2023202020202020202020202033354531203B46435F434B464E203B2020202020202020202032354531,
  0x4554554341204854495720502052455454454C204C415449504143204E4954414C20202020202020264C2023202020202020202020202035354531203B46435F434B464E203B2020202020202020202034354531,
  0x45564F424120544F44204854495720502052455454454C204C415449504143204E4954414C20202020202020264C2023202020202020202020202037354531203B46435F434B464E203B2020202020202020202036354531,
  0x45564F424120544F44204854495720522052455454454C204C415449504143204E4954414C20202020202020264C2023202020202020202020202039354531203B46435F434B464E203B2020202020202020202038354531,
  0x574F4C454220544F44204854495720522052455454454C204C415449504143204E4954414C20202020202020264C2023202020202020202020202042354531203B46435F434B464E203B2020202020202020202041354531,
  0x4E4F5243414D20444E4120574F4C454220544F44204854495720522052455454454C204C415449504143204E4954414C20202020202020264C2023202020202020202020202044354531203B46435F434B464E203B2020202020202020202043354531,
  0x574F4C454220454E494C204854495720522052455454454C204C415449504143204E4954414C20202020202020264C2023202020202020202020202046354531203B46435F434B464E203B2020202020202020202045354531,
  0x45564F424120544F44204854495720532052455454454C204C415449504143204E4954414C20202020202020264C2023202020202020202020202031364531203B46435F434B464E203B2020202020202020202030364531,
  0x574F4C454220544F44204854495720532052455454454C204C415449504143204E4954414C20202020202020264C2023202020202020202020202033364531203B46435F434B464E203B2020202020202020202032364531,
  0x45564F424120544F4420444E41204554554341204854495720532052455454454C204C415449504143204E4954414C20202020202020264C2023202020202020202020202035364531203B46435F434B464E203B2020202020202020202034364531,
  0x45564F424120544F4420444E41204E4F524143204854495720532052455454454C204C415449504143204E4954414C20202020202020264C2023202020202020202020202037364531203B46435F434B464E203B2020202020202020202036364531,
  0x45564F424120544F4420444E4120574F4C454220544F44204854495720532052455454454C204C415449504143204E4954414C20202020202020264C2023202020202020202020202039364531203B46435F434B464E203B2020202020202020202038364531,
  0x45564F424120544F44204854495720542052455454454C204C415449504143204E4954414C20202020202020264C2023202020202020202020202042364531203B46435F434B464E203B2020202020202020202041364531,
  0x574F4C454220544F44204854495720542052455454454C204C415449504143204E4954414C20202020202020264C2023202020202020202020202044364531203B46435F434B464E203B2020202020202020202043364531,
  0x574F4C454220454E494C204854495720542052455454454C204C415449504143204E4954414C20202020202020264C2023202020202020202020202046364531203B46435F434B464E203B2020202020202020202045364531,
  0x574F4C45422058454C464D5543524943204854495720542052455454454C204C415449504143204E4954414C20202020202020264C2023202020202020202020202031374531203B46435F434B464E203B2020202020202020202030374531,
  0x574F4C454220534953455245414944204854495720552052455454454C204C415449504143204E4954414C20202020202020264C2023202020202020202020202033374531203B46435F434B464E203B2020202020202020202032374531,
  0x574F4C45422045444C4954204854495720552052455454454C204C415449504143204E4954414C20202020202020264C2023202020202020202020202035374531203B46435F434B464E203B2020202020202020202034374531,
  0x574F4C45422058454C464D5543524943204854495720552052455454454C204C415449504143204E4954414C20202020202020264C2023202020202020202020202037374531203B46435F434B464E203B2020202020202020202036374531,
  0x455455434120444E412045444C4954204854495720552052455454454C204C415449504143204E4954414C20202020202020264C2023202020202020202020202039374531203B46435F434B464E203B2020202020202020202038374531,
  0x53495345524541494420444E41204E4F5243414D204854495720552052455454454C204C415449504143204E4954414C20202020202020264C2023202020202020202020202042374531203B46435F434B464E203B2020202020202020202041374531,
  0x45444C4954204854495720562052455454454C204C415449504143204E4954414C20202020202020264C2023202020202020202020202044374531203B46435F434B464E203B2020202020202020202043374531,
  0x574F4C454220544F44204854495720562052455454454C204C415449504143204E4954414C20202020202020264C2023202020202020202020202046374531203B46435F434B464E203B2020202020202020202045374531,
  0x4556415247204854495720572052455454454C204C415449504143204E4954414C20202020202020264C2023202020202020202020202031384531203B46435F434B464E203B2020202020202020202030384531,
  0x4554554341204854495720572052455454454C204C415449504143204E4954414C20202020202020264C2023202020202020202020202033384531203B46435F434B464E203B2020202020202020202032384531,
  0x534953455245414944204854495720572052455454454C204C415449504143204E4954414C20202020202020264C2023202020202020202020202035384531203B46435F434B464E203B2020202020202020202034384531,
  0x45564F424120544F44204854495720572052455454454C204C415449504143204E4954414C20202020202020264C2023202020202020202020202037384531203B46435F434B464E203B2020202020202020202036384531,
  0x574F4C454220544F44204854495720572052455454454C204C415449504143204E4954414C20202020202020264C2023202020202020202020202039384531203B46435F434B464E203B2020202020202020202038384531,
  0x45564F424120544F44204854495720582052455454454C204C415449504143204E4954414C20202020202020264C2023202020202020202020202042384531203B46435F434B464E203B2020202020202020202041384531,
  0x534953455245414944204854495720582052455454454C204C415449504143204E4954414C20202020202020264C2023202020202020202020202044384531203B46435F434B464E203B2020202020202020202043384531,
  0x45564F424120544F44204854495720592052455454454C204C415449504143204E4954414C20202020202020264C2023202020202020202020202046384531203B46435F434B464E203B2020202020202020202045384531,
  0x58454C464D55435249432048544957205A2052455454454C204C415449504143204E4954414C20202020202020264C2023202020202020202020202031394531203B46435F434B464E203B2020202020202020202030394531]

def qcText15 : List Nat := [
  0x574F4C454220544F442048544957205A2052455454454C204C415449504143204E4954414C20202020202020264C2023202020202020202020202033394531203B46435F434B464E203B2020202020202020202032394531,
  0x574F4C454220454E494C2048544957205A2052455454454C204C415449504143204E4954414C20202020202020264C2023202020202020202020202035394531203B46435F434B464E203B2020202020202020202034394531,
  0x474E495220464C4148205448474952204854495720412052455454454C204C4C414D53204E4954414C20202020202020264C2023202020202020454232302031363030203B46435F434B464E203B2020202020202020202041394531,
  0x45564F424120544F442048544957205320474E4F4C2052455454454C204C4C414D53204E4954414C20202020202020264C2023202020202020202020202031364531203B46435F434B464E203B2020202020202020202042394531,
  0x532050524148532052455454454C204C415449504143204E4954414C20202020202020264C2023202020202020333730302033373030203B46435F434B464E203B2020202020202020202045394531,
  0x574F4C454220544F44204854495720412052455454454C204C415449504143204E4954414C20202020202020264C2023202020202020202020202031414531203B46435F434B464E203B2020202020202020202030414531,
  0x45564F4241204B4F4F48204854495720412052455454454C204C415449504143204E4954414C20202020202020264C2023202020202020202020202033414531203B46435F434B464E203B2020202020202020202032414531,
  0x455455434120444E412058454C464D5543524943204854495720412052455454454C204C415449504143204E4954414C20202020202020264C2023202020202020202020202035414531203B46435F434B464E203B2020202020202020202034414531,
  0x455641524720444E412058454C464D5543524943204854495720412052455454454C204C415449504143204E4954414C20202020202020264C2023202020202020202020202037414531203B46435F434B464E203B2020202020202020202036414531,
  0x45564F4241204B4F4F4820444E412058454C464D5543524943204854495720412052455454454C204C415449504143204E4954414C20202020202020264C2023202020202020202020202039414531203B46435F434B464E203B2020202020202020202038414531,
  0x45444C495420444E412058454C464D5543524943204854495720412052455454454C204C415449504143204E4954414C20202020202020264C2023202020202020202020202042414531203B46435F434B464E203B2020202020202020202041414531,
  0x574F4C454220544F4420444E412058454C464D5543524943204854495720412052455454454C204C415449504143204E4954414C20202020202020264C2023202020202020202020202044414531203B46435F434B464E203B2020202020202020202043414531,
  0x455455434120444E41204556455242204854495720412052455454454C204C415449504143204E4954414C20202020202020264C2023202020202020202020202046414531203B46435F434B464E203B2020202020202020202045414531,
  0x455641524720444E41204556455242204854495720412052455454454C204C415449504143204E4954414C20202020202020264C2023202020202020202020202031424531203B46435F434B464E203B2020202020202020202030424531,
  0x45564F4241204B4F4F4820444E41204556455242204854495720412052455454454C204C415449504143204E4954414C20202020202020264C2023202020202020202020202033424531203B46435F434B464E203B2020202020202020202032424531,
  0x45444C495420444E41204556455242204854495720412052455454454C204C415449504143204E4954414C20202020202020264C2023202020202020202020202035424531203B46435F434B464E203B2020202020202020202034424531,
  0x574F4C454220544F4420444E41204556455242204854495720412052455454454C204C415449504143204E4954414C20202020202020264C2023202020202020202020202037424531203B46435F434B464E203B2020202020202020202036424531,
  0x574F4C454220544F44204854495720452052455454454C204C415449504143204E4954414C20202020202020264C2023202020202020202020202039424531203B46435F434B464E203B2020202020202020202038424531,
  0x45564F4241204B4F4F48204854495720452052455454454C204C415449504143204E4954414C20202020202020264C2023202020202020202020202042424531203B46435F434B464E203B2020202020202020202041424531,
  0x45444C4954204854495720452052455454454C204C415449504143204E4954414C20202020202020264C2023202020202020202020202044424531203B46435F434B464E203B2020202020202020202043424531,
  0x455455434120444E412058454C464D5543524943204854495720452052455454454C204C415449504143204E4954414C20202020202020264C2023202020202020202020202046424531203B46435F434B464E203B2020202020202020202045424531,
  0x455641524720444E412058454C464D5543524943204854495720452052455454454C204C415449504143204E4954414C20202020202020264C2023202020202020202020202031434531203B46435F434B464E203B2020202020202020202030434531,
  0x45564F4241204B4F4F4820444E412058454C464D5543524943204854495720452052455454454C204C415449504143204E4954414C20202020202020264C2023202020202020202020202033434531203B46435F434B464E203B2020202020202020202032434531,
  0x45444C495420444E412058454C464D5543524943204854495720452052455454454C204C415449504143204E4954414C20202020202020264C2023202020202020202020202035434531203B46435F434B464E203B2020202020202020202034434531,
  0x574F4C454220544F4420444E412058454C464D5543524943204854495720452052455454454C204C415449504143204E4954414C20202020202020264C2023202020202020202020202037434531203B46435F434B464E203B2020202020202020202036434531,
  0x45564F4241204B4F4F48204854495720492052455454454C204C415449504143204E4954414C20202020202020264C2023202020202020202020202039434531203B46435F434B464E203B2020202020202020202038434531,
  0x574F4C454220544F44204854495720492052455454454C204C415449504143204E4954414C20202020202020264C2023202020202020202020202042434531203B46435F434B464E203B2020202020202020202041434531,
  0x574F4C454220544F442048544957204F2052455454454C204C415449504143204E4954414C20202020202020264C2023202020202020202020202044434531203B46435F434B464E203B2020202020202020202043434531,
  0x45564F4241204B4F4F482048544957204F2052455454454C204C415449504143204E4954414C20202020202020264C2023202020202020202020202046434531203B46435F434B464E203B2020202020202020202045434531,
  0x455455434120444E412058454C464D55435249432048544957204F2052455454454C204C415449504143204E4954414C20202020202020264C2023202020202020202020202031444531203B46435F434B464E203B2020202020202020202030444531,
  0x455641524720444E412058454C464D55435249432048544957204F2052455454454C204C415449504143204E4954414C20202020202020264C2023202020202020202020202033444531203B46435F434B464E203B2020202020202020202032444531,
  0x45564F4241204B4F4F4820444E412058454C464D55435249432048544957204F2052455454454C204C415449504143204E4954414C20202020202020264C2023202020202020202020202035444531203B46435F434B464E203B2020202020202020202034444531,
  0x45444C495420444E412058454C464D55435249432048544957204F2052455454454C204C415449504143204E4954414C20202020202020264C2023202020202020202020202037444531203B46435F434B464E203B2020202020202020202036444531,
  0x574F4C454220544F4420444E412058454C464D55435249432048544957204F2052455454454C204C415449504143204E4954414C20202020202020264C2023202020202020202020202039444531203B46435F434B464E203B2020202020202020202038444531,
  0x455455434120444E41204E524F482048544957204F2052455454454C204C415449504143204E4954414C20202020202020264C2023202020202020202020202042444531203B46435F434B464E203B2020202020202020202041444531,
  0x455641524720444E41204E524F482048544957204F2052455454454C204C415449504143204E4954414C20202020202020264C2023202020202020202020202044444531203B46435F434B464E203B2020202020202020202043444531,
  0x45564F4241204B4F4F4820444E41204E524F482048544957204F2052455454454C204C415449504143204E4954414C20202020202020264C2023202020202020202020202046444531203B46435F434B464E203B2020202020202020202045444531,
  0x45444C495420444E41204E524F482048544957204F2052455454454C204C415449504143204E4954414C20202020202020264C2023202020202020202020202031454531203B46435F434B464E203B2020202020202020202030454531,
  0x574F4C454220544F4420444E41204E524F482048544957204F2052455454454C204C415449504143204E4954414C20202020202020264C2023202020202020202020202033454531203B46435F434B464E203B2020202020202020202032454531,
  0x574F4C454220544F44204854495720552052455454454C204C415449504143204E4954414C20202020202020264C2023202020202020202020202035454531203B46435F434B464E203B2020202020202020202034454531,
  0x45564F4241204B4F4F48204854495720552052455454454C204C415449504143204E4954414C20202020202020264C2023202020202020202020202037454531203B46435F434B464E203B2020202020202020202036454531,
  0x455455434120444E41204E524F48204854495720552052455454454C204C415449504143204E4954414C20202020202020264C2023202020202020202020202039454531203B46435F434B464E203B2020202020202020202038454531,
  0x455641524720444E41204E524F48204854495720552052455454454C204C415449504143204E4954414C20202020202020264C2023202020202020202020202042454531203B46435F434B464E203B2020202020202020202041454531,
  0x45564F4241204B4F4F4820444E41204E524F48204854495720552052455454454C204C415449504143204E4954414C20202020202020264C2023202020202020202020202044454531203B46435F434B464E203B2020202020202020202043454531,
  0x45444C495420444E41204E524F48204854495720552052455454454C204C415449504143204E4954414C20202020202020264C2023202020202020202020202046454531203B46435F434B464E203B2020202020202020202045454531,
  0x574F4C454220544F4420444E41204E524F48204854495720552052455454454C204C415449504143204E4954414C20202020202020264C2023202020202020202020202031464531203B46435F434B464E203B2020202020202020202030464531,
  0x4556415247204854495720592052455454454C204C415449504143204E4954414C20202020202020264C2023202020202020202020202033464531203B46435F434B464E203B2020202020202020202032464531,
  0x574F4C454220544F44204854495720592052455454454C204C415449504143204E4954414C20202020202020264C2023202020202020202020202035464531203B46435F434B464E203B2020202020202020202034464531,
  0x45564F4241204B4F4F48204854495720592052455454454C204C415449504143204E4954414C20202020202020264C2023202020202020202020202037464531203B46435F434B464E203B2020202020202020202036464531,
  0x45444C4954204854495720592052455454454C204C415449504143204E4954414C20202020202020264C2023202020202020202020202039464531203B46435F434B464E203B2020202020202020202038464531,
  0x4C4C2048534C45572D454C4444494D2052455454454C204C415449504143204E4954414C20202020202020264C2023202020202020202020202042464531203B46435F434B464E203B2020202020202020202041464531,
  0x562048534C45572D454C4444494D2052455454454C204C415449504143204E4954414C20202020202020264C2023202020202020202020202044464531203B46435F434B464E203B2020202020202020202043464531,
  0x504F4F4C204854495720592052455454454C204C415449504143204E4954414C20202020202020264C2023202020202020202020202046464531203B46435F434B464E203B2020202020202020202045464531,
  0x494C4953502048544957204148504C412052455454454C204C415449504143204B4545524720202020202020264C2023202020202020202020202030304631203B46435F434B464E203B2020202020202020202038304631,
  0x41495341442048544957204148504C412052455454454C204C415449504143204B4545524720202020202020264C2023202020202020202020202031304631203B46435F434B464E203B2020202020202020202039304631,
  0x414952415620444E4120494C4953502048544957204148504C412052455454454C204C415449504143204B4545524720202020202020264C2023202020202020202020202032304631203B46435F434B464E203B2020202020202020202041304631,
  0x414952415620444E412041495341442048544957204148504C412052455454454C204C415449504143204B4545524720202020202020264C2023202020202020202020202033304631203B46435F434B464E203B2020202020202020202042304631,
  0x4149584F20444E4120494C4953502048544957204148504C412052455454454C204C415449504143204B4545524720202020202020264C2023202020202020202020202034304631203B46435F434B464E203B2020202020202020202043304631,
  0x4149584F20444E412041495341442048544957204148504C412052455454454C204C415449504143204B4545524720202020202020264C2023202020202020202020202035304631203B46435F434B464E203B2020202020202020202044304631,
  0x494E454D4F50534952455020444E4120494C4953502048544957204148504C412052455454454C204C415449504143204B4545524720202020202020264C2023202020202020202020202036304631203B46435F434B464E203B2020202020202020202045304631,
  0x494E454D4F50534952455020444E412041495341442048544957204148504C412052455454454C204C415449504143204B4545524720202020202020264C2023202020202020202020202037304631203B46435F434B464E203B2020202020202020202046304631,
  0x494C4953502048544957204E4F4C495350452052455454454C204C415449504143204B4545524720202020202020264C2023202020202020202020202030314631203B46435F434B464E203B2020202020202020202038314631,
  0x41495341442048544957204E4F4C495350452052455454454C204C415449504143204B4545524720202020202020264C2023202020202020202020202031314631203B46435F434B464E203B2020202020202020202039314631,
  0x414952415620444E4120494C4953502048544957204E4F4C495350452052455454454C204C415449504143204B4545524720202020202020264C2023202020202020202020202032314631203B46435F434B464E203B2020202020202020202041314631,
  0x414952415620444E412041495341442048544957204E4F4C495350452052455454454C204C415449504143204B4545524720202020202020264C2023202020202020202020202033314631203B46435F434B464E203B2020202020202020202042314631,
  0x4149584F20444E4120494C4953502048544957204E4F4C495350452052455454454C204C415449504143204B4545524720202020202020264C2023202020202020202020202034314631203B46435F434B464E203B2020202020202020202043314631,
  0x4149584F20444E412041495341442048544957204E4F4C495350452052455454454C204C415449504143204B4545524720202020202020264C2023202020202020202020202035314631203B46435F434B464E203B2020202020202020202044314631,
  0x494C4953502048544957204154452052455454454C204C415449504143204B4545524720202020202020264C2023202020202020202020202030324631203B46435F434B464E203B2020202020202020202038324631,
  0x41495341442048544957204154452052455454454C204C415449504143204B4545524720202020202020264C2023202020202020202020202031324631203B46435F434B464E203B2020202020202020202039324631,
  0x414952415620444E4120494C4953502048544957204154452052455454454C204C415449504143204B4545524720202020202020264C2023202020202020202020202032324631203B46435F434B464E203B2020202020202020202041324631,
  0x414952415620444E412041495341442048544957204154452052455454454C204C415449504143204B4545524720202020202020264C2023202020202020202020202033324631203B46435F434B464E203B2020202020202020202042324631,
  0x4149584F20444E4120494C4953502048544957204154452052455454454C204C415449504143204B4545524720202020202020264C2023202020202020202020202034324631203B46435F434B464E203B2020202020202020202043324631,
  0x4149584F20444E412041495341442048544957204154452052455454454C204C415449504143204B4545524720202020202020264C2023202020202020202020202035324631203B46435F434B464E203B2020202020202020202044324631,
  0x494E454D4F50534952455020444E4120494C4953502048544957204154452052455454454C204C415449504143204B4545524720202020202020264C2023202020202020202020202036324631203B46435F434B464E203B2020202020202020202045324631,
  0x494E454D4F50534952455020444E412041495341442048544957204154452052455454454C204C415449504143204B4545524720202020202020264C2023202020202020202020202037324631203B46435F434B464E203B2020202020202020202046324631,
  0x494C49535020485449572041544F492052455454454C204C415449504143204B4545524720202020202020264C2023202020202020202020202030334631203B46435F434B464E203B2020202020202020202038334631,
  0x414953414420485449572041544F492052455454454C204C415449504143204B4545524720202020202020264C2023202020202020202020202031334631203B46435F434B464E203B2020202020202020202039334631,
  0x414952415620444E4120494C49535020485449572041544F492052455454454C204C415449504143204B4545524720202020202020264C2023202020202020202020202032334631203B46435F434B464E203B2020202020202020202041334631,
  0x414952415620444E4120414953414420485449572041544F492052455454454C204C415449504143204B4545524720202020202020264C2023202020202020202020202033334631203B46435F434B464E203B2020202020202020202042334631,
  0x4149584F20444E4120494C49535020485449572041544F492052455454454C204C415449504143204B4545524720202020202020264C2023202020202020202020202034334631203B46435F434B464E203B2020202020202020202043334631,
  0x4149584F20444E4120414953414420485449572041544F492052455454454C204C415449504143204B4545524720202020202020264C2023202020202020202020202035334631203B46435F434B464E203B2020202020202020202044334631,
  0x494E454D4F50534952455020444E4120494C49535020485449572041544F492052455454454C204C415449504143204B4545524720202020202020264C2023202020202020202020202036334631203B46435F434B464E203B2020202020202020202045334631,
  0x494E454D4F50534952455020444E4120414953414420485449572041544F492052455454454C204C415449504143204B4545524720202020202020264C2023202020202020202020202037334631203B46435F434B464E203B2020202020202020202046334631,
  0x494C4953502048544957204E4F5243494D4F2052455454454C204C415449504143204B4545524720202020202020264C2023202020202020202020202030344631203B46435F434B464E203B2020202020202020202038344631,
  0x41495341442048544957204E4F5243494D4F2052455454454C204C415449504143204B4545524720202020202020264C2023202020202020202020202031344631203B46435F434B464E203B2020202020202020202039344631,
  0x414952415620444E4120494C4953502048544957204E4F5243494D4F2052455454454C204C415449504143204B4545524720202020202020264C2023202020202020202020202032344631203B46435F434B464E203B2020202020202020202041344631,
  0x414952415620444E412041495341442048544957204E4F5243494D4F2052455454454C204C415449504143204B4545524720202020202020264C2023202020202020202020202033344631203B46435F434B464E203B2020202020202020202042344631,
  0x4149584F20444E4120494C4953502048544957204E4F5243494D4F2052455454454C204C415449504143204B4545524720202020202020264C2023202020202020202020202034344631203B46435F434B464E203B2020202020202020202043344631,
  0x4149584F20444E412041495341442048544957204E4F5243494D4F2052455454454C204C415449504143204B4545524720202020202020264C2023202020202020202020202035344631203B46435F434B464E203B2020202020202020202044344631,
  0x41495341442048544957204E4F4C495350552052455454454C204C415449504143204B4545524720202020202020264C2023202020202020202020202031354631203B46435F434B464E203B2020202020202020202039354631,
  0x414952415620444E412041495341442048544957204E4F4C495350552052455454454C204C415449504143204B4545524720202020202020264C2023202020202020202020202033354631203B46435F434B464E203B2020202020202020202042354631,
  0x4149584F20444E412041495341442048544957204E4F4C495350552052455454454C204C415449504143204B4545524720202020202020264C2023202020202020202020202035354631203B46435F434B464E203B2020202020202020202044354631,
  0x494E454D4F50534952455020444E412041495341442048544957204E4F4C495350552052455454454C204C415449504143204B4545524720202020202020264C2023202020202020202020202037354631203B46435F434B464E203B2020202020202020202046354631,
  0x494C4953502048544957204147454D4F2052455454454C204C415449504143204B4545524720202020202020264C2023202020202020202020202030364631203B46435F434B464E203B2020202020202020202038364631,
  0x41495341442048544957204147454D4F2052455454454C204C415449504143204B4545524720202020202020264C2023202020202020202020202031364631203B46435F434B464E203B2020202020202020202039364631,
  0x414952415620444E4120494C4953502048544957204147454D4F2052455454454C204C415449504143204B4545524720202020202020264C2023202020202020202020202032364631203B46435F434B464E203B2020202020202020202041364631,
  0x414952415620444E412041495341442048544957204147454D4F2052455454454C204C415449504143204B4545524720202020202020264C2023202020202020202020202033364631203B46435F434B464E203B2020202020202020202042364631,
  0x4149584F20444E4120494C4953502048544957204147454D4F2052455454454C204C415449504143204B4545524720202020202020264C2023202020202020202020202034364631203B46435F434B464E203B2020202020202020202043364631,
  0x4149584F20444E412041495341442048544957204147454D4F2052455454454C204C415449504143204B4545524720202020202020264C2023202020202020202020202035364631203B46435F434B464E203B2020202020202020202044364631,
  0x494E454D4F50534952455020444E4120494C4953502048544957204147454D4F2052455454454C204C415449504143204B4545524720202020202020264C2023202020202020202020202036364631203B46435F434B464E203B2020202020202020202045364631,
  0x494E454D4F50534952455020444E412041495341442048544957204147454D4F2052455454454C204C415449504143204B4545524720202020202020264C2023202020202020202020202037364631203B46435F434B464E203B2020202020202020202046364631,
  0x4149584F2048544957204148504C412052455454454C204C4C414D53204B4545524720202020202020264C2023202020202020202020202043413330203B46435F434B464E203B2020202020202020202031374631,
  0x4149584F2048544957204E4F4C495350452052455454454C204C4C414D53204B4545524720202020202020264C2023202020202020202020202044413330203B46435F434B464E203B2020202020202020202033374631,
  0x4149584F2048544957204154452052455454454C204C4C414D53204B4545524720202020202020264C2023202020202020202020202045413330203B46435F434B464E203B2020202020202020202035374631,
  0x4149584F20485449572041544F492052455454454C204C4C414D53204B4545524720202020202020264C2023202020202020202020202046413330203B46435F434B464E203B2020202020202020202037374631,
  0x4149584F2048544957204E4F5243494D4F2052455454454C204C4C414D53204B4545524720202020202020264C2023202020202020202020202043433330203B46435F434B464E203B2020202020202020202039374631,
  0x4149584F2048544957204E4F4C495350552052455454454C204C4C414D53204B4545524720202020202020264C2023202020202020202020202044433330203B46435F434B464E203B2020202020202020202042374631,
  0x4149584F2048544957204147454D4F2052455454454C204C4C414D53204B4545524720202020202020264C2023202020202020202020202045433330203B46435F434B464E203B2020202020202020202044374631,
  0x494E454D4D41524745474F505920444E4120494C4953502048544957204148504C412052455454454C204C4C414D53204B4545524720202020202020264C2023202020202020394233302030304631203B46435F434B464E203B2020202020202020202030384631,
  0x494E454D4D41524745474F505920444E412041495341442048544957204148504C412052455454454C204C4C414D53204B4545524720202020202020264C2023202020202020394233302031304631203B46435F434B464E203B2020202020202020202031384631,
  0x494E454D4D41524745474F505920444E4120414952415620444E4120494C4953502048544957204148504C412052455454454C204C4C414D53204B4545524720202020202020264C2023202020202020394233302032304631203B46435F434B464E203B2020202020202020202032384631,
  0x494E454D4D41524745474F505920444E4120414952415620444E412041495341442048544957204148504C412052455454454C204C4C414D53204B4545524720202020202020264C2023202020202020394233302033304631203B46435F434B464E203B2020202020202020202033384631,
  0x494E454D4D41524745474F505920444E41204149584F20444E4120494C4953502048544957204148504C412052455454454C204C4C414D53204B4545524720202020202020264C2023202020202020394233302034304631203B46435F434B464E203B2020202020202020202034384631,
  0x494E454D4D41524745474F505920444E41204149584F20444E412041495341442048544957204148504C412052455454454C204C4C414D53204B4545524720202020202020264C2023202020202020394233302035304631203B46435F434B464E203B2020202020202020202035384631,
  0x494E454D4D41524745474F505920444E4120494E454D4F50534952455020444E4120494C4953502048544957204148504C412052455454454C204C4C414D53204B4545524720202020202020264C2023202020202020394233302036304631203B46435F434B464E203B2020202020202020202036384631,
  0x494E454D4D41524745474F505920444E4120494E454D4F50534952455020444E412041495341442048544957204148504C412052455454454C204C4C414D53204B4545524720202020202020264C2023202020202020394233302037304631203B46435F434B464E203B2020202020202020202037384631,
  0x494E454D4D4152474547534F525020444E4120494C4953502048544957204148504C412052455454454C204C415449504143204B4545524720202020202020264C2023202020202020394233302030304631203B46435F434B464E203B2020202020202020202038384631,
  0x494E454D4D4152474547534F525020444E412041495341442048544957204148504C412052455454454C204C415449504143204B4545524720202020202020264C2023202020202020394233302031304631203B46435F434B464E203B2020202020202020202039384631,
  0x494E454D4D4152474547534F525020444E4120414952415620444E4120494C4953502048544957204148504C412052455454454C204C415449504143204B4545524720202020202020264C2023202020202020394233302032304631203B46435F434B464E203B2020202020202020202041384631,
  0x494E454D4D4152474547534F525020444E4120414952415620444E412041495341442048544957204148504C412052455454454C204C415449504143204B4545524720202020202020264C2023202020202020394233302033304631203B46435F434B464E203B2020202020202020202042384631,
  0x494E454D4D4152474547534F525020444E41204149584F20444E4120494C4953502048544957204148504C412052455454454C204C415449504143204B4545524720202020202020264C2023202020202020394233302034304631203B46435F434B464E203B2020202020202020202043384631,
  0x494E454D4D4152474547534F525020444E41204149584F20444E412041495341442048544957204148504C412052455454454C204C415449504143204B4545524720202020202020264C2023202020202020394233302035304631203B46435F434B464E203B2020202020202020202044384631,
  0x494E454D4D4152474547534F525020444E4120494E454D4F50534952455020444E4120494C4953502048544957204148504C412052455454454C204C415449504143204B4545524720202020202020264C2023202020202020394233302036304631203B46435F434B464E203B2020202020202020202045384631,
  0x494E454D4D4152474547534F525020444E4120494E454D4F50534952455020444E412041495341442048544957204148504C412052455454454C204C415449504143204B4545524720202020202020264C2023202020202020394233302037304631203B46435F434B464E203B2020202020202020202046384631,
  0x494E454D4D41524745474F505920444E4120494C4953502048544957204154452052455454454C204C4C414D53204B4545524720202020202020264C2023202020202020394233302030324631203B46435F434B464E203B2020202020202020202030394631,
  0x494E454D4D41524745474F505920444E412041495341442048544957204154452052455454454C204C4C414D53204B4545524720202020202020264C2023202020202020394233302031324631203B46435F434B464E203B2020202020202020202031394631,
  0x494E454D4D41524745474F505920444E4120414952415620444E4120494C4953502048544957204154452052455454454C204C4C414D53204B4545524720202020202020264C2023202020202020394233302032324631203B46435F434B464E203B2020202020202020202032394631,
  0x494E454D4D41524745474F505920444E4120414952415620444E412041495341442048544957204154452052455454454C204C4C414D53204B4545524720202020202020264C2023202020202020394233302033324631203B46435F434B464E203B2020202020202020202033394631,
  0x494E454D4D41524745474F505920444E41204149584F20444E4120494C4953502048544957204154452052455454454C204C4C414D53204B4545524720202020202020264C2023202020202020394233302034324631203B46435F434B464E203B2020202020202020202034394631,
  0x494E454D4D41524745474F505920444E41204149584F20444E412041495341442048544957204154452052455454454C204C4C414D53204B4545524720202020202020264C2023202020202020394233302035324631203B46435F434B464E203B2020202020202020202035394631,
  0x494E454D4D41524745474F505920444E4120494E454D4F50534952455020444E4120494C4953502048544957204154452052455454454C204C4C414D53204B4545524720202020202020264C2023202020202020394233302036324631203B46435F434B464E203B2020202020202020202036394631,
  0x494E454D4D41524745474F505920444E4120494E454D4F50534952455020444E412041495341442048544957204154452052455454454C204C4C414D53204B4545524720202020202020264C2023202020202020394233302037324631203B46435F434B464E203B2020202020202020202037394631,
  0x494E454D4D4152474547534F525020444E4120494C4953502048544957204154452052455454454C204C415449504143204B4545524720202020202020264C2023202020202020394233302030324631203B46435F434B464E203B2020202020202020202038394631,
  0x494E454D4D4152474547534F525020444E412041495341442048544957204154452052455454454C204C415449504143204B4545524720202020202020264C2023202020202020394233302031324631203B46435F434B464E203B2020202020202020202039394631,
  0x494E454D4D4152474547534F525020444E4120414952415620444E4120494C4953502048544957204154452052455454454C204C415449504143204B4545524720202020202020264C2023202020202020394233302032324631203B46435F434B464E203B2020202020202020202041394631,
  0x494E454D4D4152474547534F525020444E4120414952415620444E412041495341442048544957204154452052455454454C204C415449504143204B4545524720202020202020264C2023202020202020394233302033324631203B46435F434B464E203B2020202020202020202042394631,
  0x494E454D4D4152474547534F525020444E41204149584F20444E4120494C4953502048544957204154452052455454454C204C415449504143204B4545524720202020202020264C2023202020202020394233302034324631203B46435F434B464E203B2020202020202020202043394631,
  0x494E454D4D4152474547534F525020444E41204149584F20444E412041495341442048544957204154452052455454454C204C415449504143204B4545524720202020202020264C2023202020202020394233302035324631203B46435F434B464E203B2020202020202020202044394631,
  0x494E454D4D4152474547534F525020444E4120494E454D4F50534952455020444E4120494C4953502048544957204154452052455454454C204C415449504143204B4545524720202020202020264C2023202020202020394233302036324631203B46435F434B464E203B2020202020202020202045394631,
  0x494E454D4D4152474547534F525020444E4120494E454D4F50534952455020444E412041495341442048544957204154452052455454454C204C415449504143204B4545524720202020202020264C2023202020202020394233302037324631203B46435F434B464E203B2020202020202020202046394631,
  0x494E454D4D41524745474F505920444E4120494C4953502048544957204147454D4F2052455454454C204C4C414D53204B4545524720202020202020264C2023202020202020394233302030364631203B46435F434B464E203B2020202020202020202030414631,
  0x494E454D4D41524745474F505920444E412041495341442048544957204147454D4F2052455454454C204C4C414D53204B4545524720202020202020264C2023202020202020394233302031364631203B46435F434B464E203B2020202020202020202031414631,
  0x494E454D4D41524745474F505920444E4120414952415620444E4120494C4953502048544957204147454D4F2052455454454C204C4C414D53204B4545524720202020202020264C2023202020202020394233302032364631203B46435F434B464E203B2020202020202020202032414631,
  0x494E454D4D41524745474F505920444E4120414952415620444E412041495341442048544957204147454D4F2052455454454C204C4C414D53204B4545524720202020202020264C2023202020202020394233302033364631203B46435F434B464E203B2020202020202020202033414631,
  0x494E454D4D41524745474F505920444E41204149584F20444E4120494C4953502048544957204147454D4F2052455454454C204C4C414D53204B4545524720202020202020264C2023202020202020394233302034364631203B46435F434B464E203B2020202020202020202034414631,
  0x494E454D4D41524745474F505920444E41204149584F20444E412041495341442048544957204147454D4F2052455454454C204C4C414D53204B4545524720202020202020264C2023202020202020394233302035364631203B46435F434B464E203B2020202020202020202035414631,
  0x494E454D4D41524745474F505920444E4120494E454D4F50534952455020444E4120494C4953502048544957204147454D4F2052455454454C204C4C414D53204B4545524720202020202020264C2023202020202020394233302036364631203B46435F434B464E203B2020202020202020202036414631,
  0x494E454D4D41524745474F505920444E4120494E454D4F50534952455020444E412041495341442048544957204147454D4F2052455454454C204C4C414D53204B4545524720202020202020264C2023202020202020394233302037364631203B46435F434B464E203B2020202020202020202037414631,
  0x494E454D4D4152474547534F525020444E4120494C4953502048544957204147454D4F2052455454454C204C415449504143204B4545524720202020202020264C2023202020202020394233302030364631203B46435F434B464E203B2020202020202020202038414631,
  0x494E454D4D4152474547534F525020444E412041495341442048544957204147454D4F2052455454454C204C415449504143204B4545524720202020202020264C2023202020202020394233302031364631203B46435F434B464E203B2020202020202020202039414631,
  0x494E454D4D4152474547534F525020444E4120414952415620444E4120494C4953502048544957204147454D4F2052455454454C204C415449504143204B4545524720202020202020264C2023202020202020394233302032364631203B46435F434B464E203B2020202020202020202041414631,
  0x494E454D4D4152474547534F525020444E4120414952415620444E412041495341442048544957204147454D4F2052455454454C204C415449504143204B4545524720202020202020264C2023202020202020394233302033364631203B46435F434B464E203B2020202020202020202042414631,
  0x494E454D4D4152474547534F525020444E41204149584F20444E4120494C4953502048544957204147454D4F2052455454454C204C415449504143204B4545524720202020202020264C2023202020202020394233302034364631203B46435F434B464E203B2020202020202020202043414631,
  0x494E454D4D4152474547534F525020444E41204149584F20444E412041495341442048544957204147454D4F2052455454454C204C415449504143204B4545524720202020202020264C2023202020202020394233302035364631203B46435F434B464E203B2020202020202020202044414631,
  0x494E454D4D4152474547534F525020444E4120494E454D4F50534952455020444E4120494C4953502048544957204147454D4F2052455454454C204C415449504143204B4545524720202020202020264C2023202020202020394233302036364631203B46435F434B464E203B2020202020202020202045414631,
  0x494E454D4D4152474547534F525020444E4120494E454D4F50534952455020444E412041495341442048544957204147454D4F2052455454454C204C415449504143204B4545524720202020202020264C2023202020202020394233302037364631203B46435F434B464E203B2020202020202020202046414631,
  0x494E454D4D41524745474F505920444E412041495241562048544957204148504C412052455454454C204C4C414D53204B4545524720202020202020264C2023202020202020394233302030374631203B46435F434B464E203B2020202020202020202032424631,
  0x494E454D4D41524745474F50592048544957204148504C412052455454454C204C4C414D53204B4545524720202020202020264C2023202020202020394233302031423330203B46435F434B464E203B2020202020202020202033424631,
  0x494E454D4D41524745474F505920444E41204149584F2048544957204148504C412052455454454C204C4C414D53204B4545524720202020202020264C2023202020202020394233302043413330203B46435F434B464E203B2020202020202020202034424631,
  0x494E454D4D41524745474F505920444E4120494E454D4F5053495245502048544957204148504C412052455454454C204C4C414D53204B4545524720202020202020264C2023202020202020394233302036424631203B46435F434B464E203B2020202020202020202037424631,
  0x5948434152562048544957204148504C412052455454454C204C415449504143204B4545524720202020202020264C2023202020202020202020202030424631203B46435F434B464E203B2020202020202020202038424631,
  0x4E4F5243414D2048544957204148504C412052455454454C204C415449504143204B4545524720202020202020264C2023202020202020202020202031424631203B46435F434B464E203B2020202020202020202039424631,
  0x41495241562048544957204148504C412052455454454C204C415449504143204B4545524720202020202020264C2023202020202020202020202030374631203B46435F434B464E203B2020202020202020202041424631,
  0x4149584F2048544957204148504C412052455454454C204C415449504143204B4545524720202020202020264C2023202020202020202020202043413330203B46435F434B464E203B2020202020202020202042424631,
  0x494E454D4D4152474547534F52502048544957204148504C412052455454454C204C415449504143204B4545524720202020202020264C2023202020202020394233302031423330203B46435F434B464E203B2020202020202020202043424631,
  0x53494E4F524F4B204B45455247202020202020206B532023202020202020333133302030323030203B46435F434B464E203B2020202020202020202044424631,
  0x494E454D4D4152474547534F5250204B4545524720202020202020264C2023202020202020202020202039423330203B46435F434B464E203B2020202020202020202045424631,
  0x494C495350204B45455247202020202020206B532023202020202020333133302030323030203B46435F434B464E203B2020202020202020202046424631,
  0x494E454D4F505349524550204B45455247202020202020206B532023202020202020323433302030323030203B46435F434B464E203B2020202020202020202030434631,
  0x494E454D4F50534952455020444E4120414B4954594C414944204B45455247202020202020206B532023203234333020383033302030323030203B46435F434B464E203B2020202020202020202031434631,
  0x494E454D4D41524745474F505920444E412041495241562048544957204154452052455454454C204C4C414D53204B4545524720202020202020264C2023202020202020394233302034374631203B46435F434B464E203B2020202020202020202032434631,
  0x494E454D4D41524745474F50592048544957204154452052455454454C204C4C414D53204B4545524720202020202020264C2023202020202020394233302037423330203B46435F434B464E203B2020202020202020202033434631,
  0x494E454D4D41524745474F505920444E41204149584F2048544957204154452052455454454C204C4C414D53204B4545524720202020202020264C2023202020202020394233302045413330203B46435F434B464E203B2020202020202020202034434631,
  0x494E454D4D41524745474F505920444E4120494E454D4F5053495245502048544957204154452052455454454C204C4C414D53204B4545524720202020202020264C2023202020202020394233302036434631203B46435F434B464E203B2020202020202020202037434631,
  0x41495241562048544957204E4F4C495350452052455454454C204C415449504143204B4545524720202020202020264C2023202020202020202020202032374631203B46435F434B464E203B2020202020202020202038434631,
  0x4149584F2048544957204E4F4C495350452052455454454C204C415449504143204B4545524720202020202020264C2023202020202020202020202044413330203B46435F434B464E203B2020202020202020202039434631,
  0x41495241562048544957204154452052455454454C204C415449504143204B4545524720202020202020264C2023202020202020202020202034374631203B46435F434B464E203B2020202020202020202041434631,
  0x4149584F2048544957204154452052455454454C204C415449504143204B4545524720202020202020264C2023202020202020202020202045413330203B46435F434B464E203B2020202020202020202042434631,
  0x494E454D4D4152474547534F52502048544957204154452052455454454C204C415449504143204B4545524720202020202020264C2023202020202020394233302037423330203B46435F434B464E203B2020202020202020202043434631,
  0x414952415620444E4120494C495350204B45455247202020202020206B532023203030333020333133302030323030203B46435F434B464E203B2020202020202020202044434631,
  0x4149584F20444E4120494C495350204B45455247202020202020206B532023203130333020333133302030323030203B46435F434B464E203B2020202020202020202045434631,
  0x494E454D4F50534952455020444E4120494C495350204B45455247202020202020206B532023203234333020333133302030323030203B46435F434B464E203B2020202020202020202046434631,
  0x4149584F20444E4120414B4954594C41494420485449572041544F492052455454454C204C4C414D53204B4545524720202020202020264C2023202020202020202020202030393330203B46435F434B464E203B2020202020202020202033444631,
  0x59484341525620485449572041544F492052455454454C204C415449504143204B4545524720202020202020264C2023202020202020202020202030444631203B46435F434B464E203B2020202020202020202038444631,
  0x4E4F5243414D20485449572041544F492052455454454C204C415449504143204B4545524720202020202020264C2023202020202020202020202031444631203B46435F434B464E203B2020202020202020202039444631,
  0x414952415620485449572041544F492052455454454C204C415449504143204B4545524720202020202020264C2023202020202020202020202036374631203B46435F434B464E203B2020202020202020202041444631,
  0x4149584F20485449572041544F492052455454454C204C415449504143204B4545524720202020202020264C2023202020202020202020202046413330203B46435F434B464E203B2020202020202020202042444631,
  0x414952415620444E41204149534144204B45455247202020202020206B532023203030333020343133302030323030203B46435F434B464E203B2020202020202020202044444631,
  0x4149584F20444E41204149534144204B45455247202020202020206B532023203130333020343133302030323030203B46435F434B464E203B2020202020202020202045444631,
  0x494E454D4F50534952455020444E41204149534144204B45455247202020202020206B532023203234333020343133302030323030203B46435F434B464E203B2020202020202020202046444631,
  0x4149584F20444E4120414B4954594C4149442048544957204E4F4C495350552052455454454C204C4C414D53204B4545524720202020202020264C2023202020202020202020202030423330203B46435F434B464E203B2020202020202020202033454631,
  0x5948434152562048544957204E4F4C495350552052455454454C204C415449504143204B4545524720202020202020264C2023202020202020202020202030454631203B46435F434B464E203B2020202020202020202038454631,
  0x4E4F5243414D2048544957204E4F4C495350552052455454454C204C415449504143204B4545524720202020202020264C2023202020202020202020202031454631203B46435F434B464E203B2020202020202020202039454631,
  0x41495241562048544957204E4F4C495350552052455454454C204C415449504143204B4545524720202020202020264C2023202020202020202020202041374631203B46435F434B464E203B2020202020202020202041454631,
  0x4149584F2048544957204E4F4C495350552052455454454C204C415449504143204B4545524720202020202020264C2023202020202020202020202044433330203B46435F434B464E203B2020202020202020202042454631,
  0x41495341442048544957204F48522052455454454C204C415449504143204B4545524720202020202020264C2023202020202020202020202035454631203B46435F434B464E203B2020202020202020202043454631,
  0x414952415620444E4120414B4954594C414944204B45455247202020202020206B532023203030333020383033302030323030203B46435F434B464E203B2020202020202020202044454631,
  0x4149584F20444E4120414B4954594C414944204B45455247202020202020206B532023203130333020383033302030323030203B46435F434B464E203B2020202020202020202045454631,
  0x4149524156204B45455247202020202020206B532023202020202020202020202030363030203B46435F434B464E203B2020202020202020202046454631,
  0x494E454D4D41524745474F505920444E412041495241562048544957204147454D4F2052455454454C204C4C414D53204B4545524720202020202020264C2023202020202020394233302043374631203B46435F434B464E203B2020202020202020202032464631,
  0x494E454D4D41524745474F50592048544957204147454D4F2052455454454C204C4C414D53204B4545524720202020202020264C2023202020202020394233302039433330203B46435F434B464E203B2020202020202020202033464631,
  0x494E454D4D41524745474F505920444E41204149584F2048544957204147454D4F2052455454454C204C4C414D53204B4545524720202020202020264C2023202020202020394233302045433330203B46435F434B464E203B2020202020202020202034464631,
  0x494E454D4D41524745474F505920444E4120494E454D4F5053495245502048544957204147454D4F2052455454454C204C4C414D53204B4545524720202020202020264C2023202020202020394233302036464631203B46435F434B464E203B2020202020202020202037464631,
  0x41495241562048544957204E4F5243494D4F2052455454454C204C415449504143204B4545524720202020202020264C2023202020202020202020202038374631203B46435F434B464E203B2020202020202020202038464631,
  0x4149584F2048544957204E4F5243494D4F2052455454454C204C415449504143204B4545524720202020202020264C2023202020202020202020202043433330203B46435F434B464E203B2020202020202020202039464631,
  0x41495241562048544957204147454D4F2052455454454C204C415449504143204B4545524720202020202020264C2023202020202020202020202043374631203B46435F434B464E203B2020202020202020202041464631,
  0x4149584F2048544957204147454D4F2052455454454C204C415449504143204B4545524720202020202020264C2023202020202020202020202045433330203B46435F434B464E203B2020202020202020202042464631,
  0x494E454D4D4152474547534F52502048544957204147454D4F2052455454454C204C415449504143204B4545524720202020202020264C2023202020202020394233302039433330203B46435F434B464E203B2020202020202020202043464631,
  0x4149584F204B45455247202020202020206B532023202020202020313033302030323030203B46435F434B464E203B2020202020202020202044464631,
  0x4149534144204B45455247202020202020206B532023202020202020343133302030323030203B46435F434B464E203B2020202020202020202045464631,
  0x454341505320524941482E2E44415551204E45205D31315B2020735A2023202020202020202020202030323030203B46435F434B464E203B20202020413030322E2E30303032,
  0x4B52414D205446454C2D4F542D54484749522E2E4543415053204854444957204F52455A205D355B20202066432023202020202020202020202020202020203B46435F434B464E203B20202020463030322E2E42303032,
  0x4E454850594820474E494B414552422D4E4F4E2020202020202064502023202020202020202020202030313032203B46435F434B464E203B2020202020202020202031313032,
  0x454E494C20574F4C20454C42554F44202020202020206F502023202020202020333333302030323030203B46435F434B464E203B2020202020202020202037313032,
  0x52454441454C20544F4420454E4F202020202020206F502023202020202020202020202045323030203B46435F434B464E203B2020202020202020202034323032,
  0x52454441454C20544F44204F5754202020202020206F502023202020202020453230302045323030203B46435F434B464E203B2020202020202020202035323032,
  0x53495350494C4C45204C41544E4F5A49524F48202020202020206F502023204532303020453230302045323030203B46435F434B464E203B2020202020202020202036323032,
  0x454449525245564F205446454C2D4F542D54484749522E2E474E49444445424D452054484749522D4F542D5446454C205D355B20202066432023202020202020202020202020202020203B46435F434B464E203B20202020453230322E2E41323032,
  0x4543415053204B414552422D4F4E20574F5252414E20202020202020735A2023202020202020202020202030323030203B46435F434B464E203B2020202020202020202046323032,
  0x454D49525020454C42554F44202020202020206F502023202020202020323330322032333032203B46435F434B464E203B2020202020202020202033333032,
  0x454D49525020454C50495254202020202020206F502023203233303220323330322032333032203B46435F434B464E203B2020202020202020202034333032,
  0x454D49525020454C42554F44204445535245564552202020202020206F502023202020202020353330322035333032203B46435F434B464E203B2020202020202020202036333032,
  0x454D49525020454C50495254204445535245564552202020202020206F502023203533303220353330322035333032203B46435F434B464E203B2020202020202020202037333032,
  0x4B52414D204E4F4954414D414C43584520454C42554F44202020202020206F502023202020202020313230302031323030203B46435F434B464E203B2020202020202020202043333032,
  0x454E494C5245564F202020202020206F502023202020202020353033302030323030203B46435F434B464E203B2020202020202020202045333032,
  0x4B52414D204E4F49545345555120454C42554F44202020202020206F502023202020202020463330302046333030203B46435F434B464E203B2020202020202020202037343032,
  0x4B52414D204E4F4954414D414C435845204E4F495453455551202020202020206F502023202020202020313230302046333030203B46435F434B464E203B2020202020202020202038343032,
  0x4B52414D204E4F495453455551204E4F4954414D414C435845202020202020206F502023202020202020463330302031323030203B46435F434B464E203B2020202020202020202039343032,
  0x454D49525020454C505552444155512020206F50232032333032203233303220323330322032333032203B46435F434B464E203B2020202020202020202037353032,
  0x4543415053204C41434954414D454854414D204D554944454D20202020202020735A2023202020202020202020202030323030203B46435F434B464E203B2020202020202020202046353032,
  0x53554C5020454C42495349564E492E2E52454E494F4A2044524F57205D355B20202066432023202020202020202020202020202020203B46435F434B464E203B20202020343630322E2E30363032,
  0x3E353630322D64657672657365723C202020202020206E432023202020202020202020202020202020203B46435F434B464E203B2020202020202020202035363032,
  0x534550414853205449474944204C414E494D4F4E2E2E4554414C4F53492054484749522D4F542D5446454C205D30315B202066432023202020202020202020202020202020203B46435F434B464E203B20202020463630322E2E36363032,
  0x4F52455A205450495243535245505553202020202020206F4E2023202020202020202020202030333030203B46435F434B464E203B2020202020202020202030373032,
  0x492052455454454C204C4C414D53204E4954414C205450495243535245505553202020202020206D4C2023202020202020202020202039363030203B46435F434B464E203B2020202020202020202031373032,
  0x52554F46205450495243535245505553202020202020206F4E2023202020202020202020202034333030203B46435F434B464E203B2020202020202020202034373032,
  0x45564946205450495243535245505553202020202020206F4E2023202020202020202020202035333030203B46435F434B464E203B2020202020202020202035373032,
  0x584953205450495243535245505553202020202020206F4E2023202020202020202020202036333030203B46435F434B464E203B2020202020202020202036373032,
  0x4E45564553205450495243535245505553202020202020206F4E2023202020202020202020202037333030203B46435F434B464E203B2020202020202020202037373032,
  0x5448474945205450495243535245505553202020202020206F4E2023202020202020202020202038333030203B46435F434B464E203B2020202020202020202038373032,
  0x454E494E205450495243535245505553202020202020206F4E2023202020202020202020202039333030203B46435F434B464E203B2020202020202020202039373032,
  0x4E4749532053554C50205450495243535245505553202020202020206D532023202020202020202020202042323030203B46435F434B464E203B2020202020202020202041373032,
  0x53554E494D205450495243535245505553202020202020206D532023202020202020202020202032313232203B46435F434B464E203B2020202020202020202042373032,
  0x4E47495320534C41555145205450495243535245505553202020202020206D532023202020202020202020202044333030203B46435F434B464E203B2020202020202020202043373032,
  0x5349534548544E45524150205446454C2054504952435352455055532020202020202073502023202020202020202020202038323030203B46435F434B464E203B2020202020202020202044373032,
  0x5349534548544E455241502054484749522054504952435352455055532020202020202065502023202020202020202020202039323030203B46435F434B464E203B2020202020202020202045373032,
  0x4E2052455454454C204C4C414D53204E4954414C205450495243535245505553202020202020206D4C2023202020202020202020202045363030203B46435F434B464E203B2020202020202020202046373032,
  0x4F52455A20545049524353425553202020202020206F4E2023202020202020202020202030333030203B46435F434B464E203B2020202020202020202030383032,
  0x454E4F20545049524353425553202020202020206F4E2023202020202020202020202031333030203B46435F434B464E203B2020202020202020202031383032,
  0x4F575420545049524353425553202020202020206F4E2023202020202020202020202032333030203B46435F434B464E203B2020202020202020202032383032]

def qcText16 : List Nat := [
  0x454552485420545049524353425553202020202020206F4E2023202020202020202020202033333030203B46435F434B464E203B2020202020202020202033383032,
  0x52554F4620545049524353425553202020202020206F4E2023202020202020202020202034333030203B46435F434B464E203B2020202020202020202034383032,
  0x4556494620545049524353425553202020202020206F4E2023202020202020202020202035333030203B46435F434B464E203B2020202020202020202035383032,
  0x58495320545049524353425553202020202020206F4E2023202020202020202020202036333030203B46435F434B464E203B2020202020202020202036383032,
  0x4E4556455320545049524353425553202020202020206F4E2023202020202020202020202037333030203B46435F434B464E203B2020202020202020202037383032,
  0x544847494520545049524353425553202020202020206F4E2023202020202020202020202038333030203B46435F434B464E203B2020202020202020202038383032,
  0x454E494E20545049524353425553202020202020206F4E2023202020202020202020202039333030203B46435F434B464E203B2020202020202020202039383032,
  0x4E4749532053554C5020545049524353425553202020202020206D532023202020202020202020202042323030203B46435F434B464E203B2020202020202020202041383032,
  0x53554E494D20545049524353425553202020202020206D532023202020202020202020202032313232203B46435F434B464E203B2020202020202020202042383032,
  0x4E47495320534C4155514520545049524353425553202020202020206D532023202020202020202020202044333030203B46435F434B464E203B2020202020202020202043383032,
  0x5349534548544E45524150205446454C205450495243534255532020202020202073502023202020202020202020202038323030203B46435F434B464E203B2020202020202020202044383032,
  0x5349534548544E45524150205448474952205450495243534255532020202020202065502023202020202020202020202039323030203B46435F434B464E203B2020202020202020202045383032,
  0x412052455454454C204C4C414D5320545049524353425553204E4954414C202020202020206D4C2023202020202020202020202031363030203B46435F434B464E203B2020202020202020202030393032,
  0x452052455454454C204C4C414D5320545049524353425553204E4954414C202020202020206D4C2023202020202020202020202035363030203B46435F434B464E203B2020202020202020202031393032,
  0x4F2052455454454C204C4C414D5320545049524353425553204E4954414C202020202020206D4C2023202020202020202020202046363030203B46435F434B464E203B2020202020202020202032393032,
  0x582052455454454C204C4C414D5320545049524353425553204E4954414C202020202020206D4C2023202020202020202020202038373030203B46435F434B464E203B2020202020202020202033393032,
  0x41574843532052455454454C204C4C414D5320545049524353425553204E4954414C202020202020206D4C2023202020202020202020202039353230203B46435F434B464E203B2020202020202020202034393032,
  0x482052455454454C204C4C414D5320545049524353425553204E4954414C202020202020206D4C2023202020202020202020202038363030203B46435F434B464E203B2020202020202020202035393032,
  0x4B2052455454454C204C4C414D5320545049524353425553204E4954414C202020202020206D4C2023202020202020202020202042363030203B46435F434B464E203B2020202020202020202036393032,
  0x4C2052455454454C204C4C414D5320545049524353425553204E4954414C202020202020206D4C2023202020202020202020202043363030203B46435F434B464E203B2020202020202020202037393032,
  0x4D2052455454454C204C4C414D5320545049524353425553204E4954414C202020202020206D4C2023202020202020202020202044363030203B46435F434B464E203B2020202020202020202038393032,
  0x4E2052455454454C204C4C414D5320545049524353425553204E4954414C202020202020206D4C2023202020202020202020202045363030203B46435F434B464E203B2020202020202020202039393032,
  0x502052455454454C204C4C414D5320545049524353425553204E4954414C202020202020206D4C2023202020202020202020202030373030203B46435F434B464E203B2020202020202020202041393032,
  0x532052455454454C204C4C414D5320545049524353425553204E4954414C202020202020206D4C2023202020202020202020202033373030203B46435F434B464E203B2020202020202020202042393032,
  0x542052455454454C204C4C414D5320545049524353425553204E4954414C202020202020206D4C2023202020202020202020202034373030203B46435F434B464E203B2020202020202020202043393032,
  0x4E4749532045455055522020202020202063532023202020202020333730302032373030203B46435F434B464E203B2020202020202020202038413032,
  0x464F20544E554F434341202020202020206F532023203336303020463230302031363030203B46435F434B464E203B2020202020202020202030303132,
  0x5443454A42555320454854204F5420444553534552444441202020202020206F532023203337303020463230302031363030203B46435F434B464E203B2020202020202020202031303132,
  0x43204C415449504143204B43555254532D454C42554F4420202020202020264C2023202020202020202020202033363030203B46435F434B464E203B2020202020202020202032303132,
  0x535549534C454320454552474544202020202020206F532023202020202020333630302030423030203B46435F434B464E203B2020202020202020202033303132,
  0x464F2045524143202020202020206F532023204636303020463230302033363030203B46435F434B464E203B2020202020202020202035303132,
  0x414E552041444143202020202020206F532023203537303020463230302033363030203B46435F434B464E203B2020202020202020202036303132,
  0x544E4154534E4F432052454C554520202020202020264C2023202020202020202020202042353230203B46435F434B464E203B2020202020202020202037303132,
  0x544945484E455248414620454552474544202020202020206F532023202020202020363630302030423030203B46435F434B464E203B2020202020202020202039303132,
  0x47204C4C414D532054504952435320202020202020264C2023202020202020202020202037363030203B46435F434B464E203B2020202020202020202041303132,
  0x544E4154534E4F43204B434E414C502E2E48204C41544950414320545049524353205D345B202020264C2023202020202020202020202038363030203B46435F434B464E203B20202020453031322E2E42303132,
  0x4950204F5754205245564F20544E4154534E4F43204B434E414C5020202020202020264C2023202020202020202020202037323130203B46435F434B464E203B2020202020202020202046303132,
  0x49204C4154495041432052455454454C2D4B43414C422E2E49204C41544950414320545049524353205D325B202020264C2023202020202020202020202039363030203B46435F434B464E203B20202020313131322E2E30313132,
  0x4C204C4C414D53205450495243532E2E4C204C41544950414320545049524353205D325B202020264C2023202020202020202020202043363030203B46435F434B464E203B20202020333131322E2E32313132,
  0x4E204C415449504143204B43555254532D454C42554F4420202020202020264C2023202020202020202020202045363030203B46435F434B464E203B2020202020202020202035313132,
  0x4E474953204F52454D554E202020202020206F532023202020202020463630302045363030203B46435F434B464E203B2020202020202020202036313132,
  0x50204C415449504143204B43555254532D454C42554F4420202020202020264C2023202020202020202020202030373030203B46435F434B464E203B2020202020202020202039313132,
  0x51204C415449504143204B43555254532D454C42554F4420202020202020264C2023202020202020202020202031373030203B46435F434B464E203B2020202020202020202041313132,
  0x52204C415449504143204B43555254532D454C42554F442E2E52204C41544950414320545049524353205D335B202020264C2023202020202020202020202032373030203B46435F434B464E203B20202020443131322E2E42313132,
  0x4B52414D2045434956524553202020202020206F532023202020202020443630302033373030203B46435F434B464E203B2020202020202020202030323132,
  0x4E47495320454E4F4850454C4554202020202020206F532023204336303020353630302034373030203B46435F434B464E203B2020202020202020202031323132,
  0x4E474953204B52414D204544415254202020202020206F532023202020202020443630302034373030203B46435F434B464E203B2020202020202020202032323132,
  0x5A204C415449504143204B43555254532D454C42554F4420202020202020264C2023202020202020202020202041373030203B46435F434B464E203B2020202020202020202034323132,
  0x4E474953204D484F20202020202020264C2023202020202020202020202039433330203B46435F434B464E203B2020202020202020202036323132,
  0x5A204C4154495041432052455454454C2D4B43414C4220202020202020264C2023202020202020202020202041373030203B46435F434B464E203B2020202020202020202038323132,
  0x4E474953204E49564C454B20202020202020264C2023202020202020202020202042363030203B46435F434B464E203B2020202020202020202041323132,
  0x4E474953204D4F525453474E4120202020202020264C2023202020202020202020202035453030203B46435F434B464E203B2020202020202020202042323132,
  0x42204C4154495041432054504952435320202020202020264C2023202020202020202020202032363030203B46435F434B464E203B2020202020202020202043323132,
  0x43204C4154495041432052455454454C2D4B43414C4220202020202020264C2023202020202020202020202033363030203B46435F434B464E203B2020202020202020202044323132,
  0x45204C415449504143205450495243532E2E45204C4C414D5320545049524353205D325B202020264C2023202020202020202020202035363030203B46435F434B464E203B20202020303331322E2E46323132,
  0x46204C4154495041432054504952435320202020202020264C2023202020202020202020202036363030203B46435F434B464E203B2020202020202020202031333132,
  0x46204C4154495041432044454E52555420202020202020264C2023202020202020202020202045343132203B46435F434B464E203B2020202020202020202032333132,
  0x4D204C4154495041432054504952435320202020202020264C2023202020202020202020202044363030203B46435F434B464E203B2020202020202020202033333132,
  0x4F204C4C414D532054504952435320202020202020264C2023202020202020202020202046363030203B46435F434B464E203B2020202020202020202034333132,
  0x4C4F424D59532046454C41202020202020206F4C2023202020202020202020202030443530203B46435F434B464E203B2020202020202020202035333132,
  0x4C4F424D595320544542202020202020206F4C2023202020202020202020202031443530203B46435F434B464E203B2020202020202020202036333132,
  0x4C4F424D5953204C454D4947202020202020206F4C2023202020202020202020202032443530203B46435F434B464E203B2020202020202020202037333132,
  0x4C4F424D59532054454C4144202020202020206F4C2023202020202020202020202033443530203B46435F434B464E203B2020202020202020202038333132,
  0x454352554F53204E4F4954414D524F464E4920202020202020264C2023202020202020202020202039363030203B46435F434B464E203B2020202020202020202039333132,
  0x4E47495320454C494D4953434146202020202020206F532023203837303020313630302036363030203B46435F434B464E203B2020202020202020202042333132,
  0x4950204C4C414D53204B43555254532D454C42554F4420202020202020264C2023202020202020202020202030433330203B46435F434B464E203B2020202020202020202043333132,
  0x414D4D4147204C415449504143204B43555254532D454C42554F442E2E414D4D4147204C4C414D53204B43555254532D454C42554F44205D325B202020264C2023202020202020202020202033423330203B46435F434B464E203B20202020453331322E2E44333132,
  0x4950204C415449504143204B43555254532D454C42554F4420202020202020264C2023202020202020202020202030433330203B46435F434B464E203B2020202020202020202046333132,
  0x4E4F4954414D4D5553205952412D4E204B43555254532D454C42554F44202020202020206D532023202020202020202020202031313232203B46435F434B464E203B2020202020202020202030343132,
  0x44204C4C414D532043494C415449204B43555254532D454C42554F442E2E44204C4154495041432043494C415449204B43555254532D454C42554F44205D325B202020264C2023202020202020202020202034363030203B46435F434B464E203B20202020363431322E2E35343132,
  0x45204C4C414D532043494C415449204B43555254532D454C42554F4420202020202020264C2023202020202020202020202035363030203B46435F434B464E203B2020202020202020202037343132,
  0x49204C4C414D532043494C415449204B43555254532D454C42554F4420202020202020264C2023202020202020202020202039363030203B46435F434B464E203B2020202020202020202038343132,
  0x4A204C4C414D532043494C415449204B43555254532D454C42554F4420202020202020264C2023202020202020202020202041363030203B46435F434B464E203B2020202020202020202039343132,
  0x48544E4556455320454E4F204E4F495443415246205241474C5556202020202020206F4E2023203733303020343430322031333030203B46435F434B464E203B2020202020202020202030353132,
  0x48544E494E20454E4F204E4F495443415246205241474C5556202020202020206F4E2023203933303020343430322031333030203B46435F434B464E203B2020202020202020202031353132,
  0x48544E455420454E4F204E4F495443415246205241474C55562020206F4E232030333030203133303020343430322031333030203B46435F434B464E203B2020202020202020202032353132,
  0x445249485420454E4F204E4F495443415246205241474C5556202020202020206F4E2023203333303020343430322031333030203B46435F434B464E203B2020202020202020202033353132,
  0x534452494854204F5754204E4F495443415246205241474C5556202020202020206F4E2023203333303020343430322032333030203B46435F434B464E203B2020202020202020202034353132,
  0x485446494620454E4F204E4F495443415246205241474C5556202020202020206F4E2023203533303020343430322031333030203B46435F434B464E203B2020202020202020202035353132,
  0x534854464946204F5754204E4F495443415246205241474C5556202020202020206F4E2023203533303020343430322032333030203B46435F434B464E203B2020202020202020202036353132,
  0x534854464946204545524854204E4F495443415246205241474C5556202020202020206F4E2023203533303020343430322033333030203B46435F434B464E203B2020202020202020202037353132,
  0x5348544649462052554F46204E4F495443415246205241474C5556202020202020206F4E2023203533303020343430322034333030203B46435F434B464E203B2020202020202020202038353132,
  0x485458495320454E4F204E4F495443415246205241474C5556202020202020206F4E2023203633303020343430322031333030203B46435F434B464E203B2020202020202020202039353132,
  0x5348545849532045564946204E4F495443415246205241474C5556202020202020206F4E2023203633303020343430322035333030203B46435F434B464E203B2020202020202020202041353132,
  0x48544847494520454E4F204E4F495443415246205241474C5556202020202020206F4E2023203833303020343430322031333030203B46435F434B464E203B2020202020202020202042353132,
  0x53485448474945204545524854204E4F495443415246205241474C5556202020202020206F4E2023203833303020343430322033333030203B46435F434B464E203B2020202020202020202043353132,
  0x534854484749452045564946204E4F495443415246205241474C5556202020202020206F4E2023203833303020343430322035333030203B46435F434B464E203B2020202020202020202044353132,
  0x53485448474945204E45564553204E4F495443415246205241474C5556202020202020206F4E2023203833303020343430322037333030203B46435F434B464E203B2020202020202020202045353132,
  0x454E4F20524F544152454D554E204E4F495443415246202020202020206F4E2023202020202020343430322031333030203B46435F434B464E203B2020202020202020202046353132,
  0x454E4F204C4152454D554E204E414D4F52202020202020206C4E2023202020202020202020202039363030203B46435F434B464E203B2020202020202020202030363132,
  0x4F5754204C4152454D554E204E414D4F52202020202020206C4E2023202020202020393630302039363030203B46435F434B464E203B2020202020202020202031363132,
  0x4545524854204C4152454D554E204E414D4F52202020202020206C4E2023203936303020393630302039363030203B46435F434B464E203B2020202020202020202032363132,
  0x52554F46204C4152454D554E204E414D4F52202020202020206C4E2023202020202020363730302039363030203B46435F434B464E203B2020202020202020202033363132,
  0x45564946204C4152454D554E204E414D4F52202020202020206C4E2023202020202020202020202036373030203B46435F434B464E203B2020202020202020202034363132,
  0x584953204C4152454D554E204E414D4F52202020202020206C4E2023202020202020393630302036373030203B46435F434B464E203B2020202020202020202035363132,
  0x4E45564553204C4152454D554E204E414D4F52202020202020206C4E2023203936303020393630302036373030203B46435F434B464E203B2020202020202020202036363132,
  0x5448474945204C4152454D554E204E414D4F522020206C4E232039363030203936303020393630302036373030203B46435F434B464E203B2020202020202020202037363132,
  0x454E494E204C4152454D554E204E414D4F52202020202020206C4E2023202020202020383730302039363030203B46435F434B464E203B2020202020202020202038363132,
  0x4E4554204C4152454D554E204E414D4F52202020202020206C4E2023202020202020202020202038373030203B46435F434B464E203B2020202020202020202039363132,
  0x4E4556454C45204C4152454D554E204E414D4F52202020202020206C4E2023202020202020393630302038373030203B46435F434B464E203B2020202020202020202041363132,
  0x45564C455754204C4152454D554E204E414D4F52202020202020206C4E2023203936303020393630302038373030203B46435F434B464E203B2020202020202020202042363132,
  0x5954464946204C4152454D554E204E414D4F52202020202020206C4E2023202020202020202020202043363030203B46435F434B464E203B2020202020202020202043363132,
  0x444552444E554820454E4F204C4152454D554E204E414D4F52202020202020206C4E2023202020202020202020202033363030203B46435F434B464E203B2020202020202020202044363132,
  0x444552444E55482045564946204C4152454D554E204E414D4F52202020202020206C4E2023202020202020202020202034363030203B46435F434B464E203B2020202020202020202045363132,
  0x444E4153554F485420454E4F204C4152454D554E204E414D4F52202020202020206C4E2023202020202020202020202044363030203B46435F434B464E203B2020202020202020202046363132,
  0x454E4F204C4152454D554E204E414D4F52204C4C414D53202020202020206C4E2023202020202020202020202039363030203B46435F434B464E203B2020202020202020202030373132,
  0x4F5754204C4152454D554E204E414D4F52204C4C414D53202020202020206C4E2023202020202020393630302039363030203B46435F434B464E203B2020202020202020202031373132,
  0x4545524854204C4152454D554E204E414D4F52204C4C414D53202020202020206C4E2023203936303020393630302039363030203B46435F434B464E203B2020202020202020202032373132,
  0x52554F46204C4152454D554E204E414D4F52204C4C414D53202020202020206C4E2023202020202020363730302039363030203B46435F434B464E203B2020202020202020202033373132,
  0x45564946204C4152454D554E204E414D4F52204C4C414D53202020202020206C4E2023202020202020202020202036373030203B46435F434B464E203B2020202020202020202034373132,
  0x584953204C4152454D554E204E414D4F52204C4C414D53202020202020206C4E2023202020202020393630302036373030203B46435F434B464E203B2020202020202020202035373132,
  0x4E45564553204C4152454D554E204E414D4F52204C4C414D53202020202020206C4E2023203936303020393630302036373030203B46435F434B464E203B2020202020202020202036373132,
  0x5448474945204C4152454D554E204E414D4F52204C4C414D532020206C4E232039363030203936303020393630302036373030203B46435F434B464E203B2020202020202020202037373132,
  0x454E494E204C4152454D554E204E414D4F52204C4C414D53202020202020206C4E2023202020202020383730302039363030203B46435F434B464E203B2020202020202020202038373132,
  0x4E4554204C4152454D554E204E414D4F52204C4C414D53202020202020206C4E2023202020202020202020202038373030203B46435F434B464E203B2020202020202020202039373132,
  0x4E4556454C45204C4152454D554E204E414D4F52204C4C414D53202020202020206C4E2023202020202020393630302038373030203B46435F434B464E203B2020202020202020202041373132,
  0x45564C455754204C4152454D554E204E414D4F52204C4C414D53202020202020206C4E2023203936303020393630302038373030203B46435F434B464E203B2020202020202020202042373132,
  0x5954464946204C4152454D554E204E414D4F52204C4C414D53202020202020206C4E2023202020202020202020202043363030203B46435F434B464E203B2020202020202020202043373132,
  0x444552444E554820454E4F204C4152454D554E204E414D4F52204C4C414D53202020202020206C4E2023202020202020202020202033363030203B46435F434B464E203B2020202020202020202044373132,
  0x444552444E55482045564946204C4152454D554E204E414D4F52204C4C414D53202020202020206C4E2023202020202020202020202034363030203B46435F434B464E203B2020202020202020202045373132,
  0x444E4153554F485420454E4F204C4152454D554E204E414D4F52204C4C414D53202020202020206C4E2023202020202020202020202044363030203B46435F434B464E203B2020202020202020202046373132,
  0x444552444E554820454E4F204445535245564552204C4152454D554E204E414D4F5220202020202020264C2023202020202020202020202034383132203B46435F434B464E203B2020202020202020202033383132,
  0x534452494854204F52455A204E4F495443415246205241474C5556202020202020206F4E2023203333303020343430322030333030203B46435F434B464E203B2020202020202020202039383132,
  0x4C41524745544E4920454C42554F44202020202020206D532023202020202020423232322042323232203B46435F434B464E203B2020202020202020202043323232,
  0x4C41524745544E4920454C50495254202020202020206D532023204232323220423232322042323232203B46435F434B464E203B2020202020202020202044323232,
  0x4C41524745544E492045434146525553202020202020206D532023202020202020453232322045323232203B46435F434B464E203B2020202020202020202046323232,
  0x4C41524745544E4920454D554C4F56202020202020206D532023204532323220453232322045323232203B46435F434B464E203B2020202020202020202030333232,
  0x54454B4341524220454C474E4120474E49544E494F502D5446454C2020202020202073502023202020202020202020202038303033203B46435F434B464E203B2020202020202020202039323332,
  0x54454B4341524220454C474E4120474E49544E494F502D54484749522020202020202065502023202020202020202020202039303033203B46435F434B464E203B2020202020202020202041323332,
  0x454E4F2054494749442044454C43524943202020202020206F4E2023202020202020202020202031333030203B46435F434B464E203B2020202020202020202030363432,
  0x4F57542054494749442044454C43524943202020202020206F4E2023202020202020202020202032333030203B46435F434B464E203B2020202020202020202031363432,
  0x45455248542054494749442044454C43524943202020202020206F4E2023202020202020202020202033333030203B46435F434B464E203B2020202020202020202032363432,
  0x52554F462054494749442044454C43524943202020202020206F4E2023202020202020202020202034333030203B46435F434B464E203B2020202020202020202033363432,
  0x455649462054494749442044454C43524943202020202020206F4E2023202020202020202020202035333030203B46435F434B464E203B2020202020202020202034363432,
  0x5849532054494749442044454C43524943202020202020206F4E2023202020202020202020202036333030203B46435F434B464E203B2020202020202020202035363432,
  0x4E455645532054494749442044454C43524943202020202020206F4E2023202020202020202020202037333030203B46435F434B464E203B2020202020202020202036363432,
  0x54484749452054494749442044454C43524943202020202020206F4E2023202020202020202020202038333030203B46435F434B464E203B2020202020202020202037363432,
  0x454E494E2054494749442044454C43524943202020202020206F4E2023202020202020202020202039333030203B46435F434B464E203B2020202020202020202038363432,
  0x4E4554205245424D554E2044454C43524943202020202020206F4E2023202020202020303330302031333030203B46435F434B464E203B2020202020202020202039363432,
  0x4E4556454C45205245424D554E2044454C43524943202020202020206F4E2023202020202020313330302031333030203B46435F434B464E203B2020202020202020202041363432,
  0x45564C455754205245424D554E2044454C43524943202020202020206F4E2023202020202020323330302031333030203B46435F434B464E203B2020202020202020202042363432,
  0x4E45455452494854205245424D554E2044454C43524943202020202020206F4E2023202020202020333330302031333030203B46435F434B464E203B2020202020202020202043363432,
  0x4E45455452554F46205245424D554E2044454C43524943202020202020206F4E2023202020202020343330302031333030203B46435F434B464E203B2020202020202020202044363432,
  0x4E454554464946205245424D554E2044454C43524943202020202020206F4E2023202020202020353330302031333030203B46435F434B464E203B2020202020202020202045363432,
  0x4E454554584953205245424D554E2044454C43524943202020202020206F4E2023202020202020363330302031333030203B46435F434B464E203B2020202020202020202046363432,
  0x4E4545544E45564553205245424D554E2044454C43524943202020202020206F4E2023202020202020373330302031333030203B46435F434B464E203B2020202020202020202030373432,
  0x4E45455448474945205245424D554E2044454C43524943202020202020206F4E2023202020202020383330302031333030203B46435F434B464E203B2020202020202020202031373432,
  0x4E454554454E494E205245424D554E2044454C43524943202020202020206F4E2023202020202020393330302031333030203B46435F434B464E203B2020202020202020202032373432,
  0x59544E455754205245424D554E2044454C43524943202020202020206F4E2023202020202020303330302032333030203B46435F434B464E203B2020202020202020202033373432,
  0x454E4F2054494749442044455A49534548544E45524150202020202020206F4E2023203932303020313330302038323030203B46435F434B464E203B2020202020202020202034373432,
  0x4F57542054494749442044455A49534548544E45524150202020202020206F4E2023203932303020323330302038323030203B46435F434B464E203B2020202020202020202035373432,
  0x45455248542054494749442044455A49534548544E45524150202020202020206F4E2023203932303020333330302038323030203B46435F434B464E203B2020202020202020202036373432,
  0x52554F462054494749442044455A49534548544E45524150202020202020206F4E2023203932303020343330302038323030203B46435F434B464E203B2020202020202020202037373432,
  0x455649462054494749442044455A49534548544E45524150202020202020206F4E2023203932303020353330302038323030203B46435F434B464E203B2020202020202020202038373432,
  0x5849532054494749442044455A49534548544E45524150202020202020206F4E2023203932303020363330302038323030203B46435F434B464E203B2020202020202020202039373432,
  0x4E455645532054494749442044455A49534548544E45524150202020202020206F4E2023203932303020373330302038323030203B46435F434B464E203B2020202020202020202041373432,
  0x54484749452054494749442044455A49534548544E45524150202020202020206F4E2023203932303020383330302038323030203B46435F434B464E203B2020202020202020202042373432,
  0x454E494E2054494749442044455A49534548544E45524150202020202020206F4E2023203932303020393330302038323030203B46435F434B464E203B2020202020202020202043373432,
  0x4E4554205245424D554E2044455A49534548544E455241502020206F4E232039323030203033303020313330302038323030203B46435F434B464E203B2020202020202020202044373432,
  0x4E4556454C45205245424D554E2044455A49534548544E455241502020206F4E232039323030203133303020313330302038323030203B46435F434B464E203B2020202020202020202045373432,
  0x45564C455754205245424D554E2044455A49534548544E455241502020206F4E232039323030203233303020313330302038323030203B46435F434B464E203B2020202020202020202046373432,
  0x4E45455452494854205245424D554E2044455A49534548544E455241502020206F4E232039323030203333303020313330302038323030203B46435F434B464E203B2020202020202020202030383432,
  0x4E45455452554F46205245424D554E2044455A49534548544E455241502020206F4E232039323030203433303020313330302038323030203B46435F434B464E203B2020202020202020202031383432,
  0x4E454554464946205245424D554E2044455A49534548544E455241502020206F4E232039323030203533303020313330302038323030203B46435F434B464E203B2020202020202020202032383432,
  0x4E454554584953205245424D554E2044455A49534548544E455241502020206F4E232039323030203633303020313330302038323030203B46435F434B464E203B2020202020202020202033383432,
  0x4E4545544E45564553205245424D554E2044455A49534548544E455241502020206F4E232039323030203733303020313330302038323030203B46435F434B464E203B2020202020202020202034383432,
  0x4E45455448474945205245424D554E2044455A49534548544E455241502020206F4E232039323030203833303020313330302038323030203B46435F434B464E203B2020202020202020202035383432,
  0x4E454554454E494E205245424D554E2044455A49534548544E455241502020206F4E232039323030203933303020313330302038323030203B46435F434B464E203B2020202020202020202036383432,
  0x59544E455754205245424D554E2044455A49534548544E455241502020206F4E232039323030203033303020323330302038323030203B46435F434B464E203B2020202020202020202037383432,
  0x504F5453204C4C554620454E4F205449474944202020202020206F4E2023202020202020453230302031333030203B46435F434B464E203B2020202020202020202038383432,
  0x504F5453204C4C5546204F5754205449474944202020202020206F4E2023202020202020453230302032333030203B46435F434B464E203B2020202020202020202039383432,
  0x504F5453204C4C5546204545524854205449474944202020202020206F4E2023202020202020453230302033333030203B46435F434B464E203B2020202020202020202041383432,
  0x504F5453204C4C55462052554F46205449474944202020202020206F4E2023202020202020453230302034333030203B46435F434B464E203B2020202020202020202042383432,
  0x504F5453204C4C55462045564946205449474944202020202020206F4E2023202020202020453230302035333030203B46435F434B464E203B2020202020202020202043383432,
  0x504F5453204C4C554620584953205449474944202020202020206F4E2023202020202020453230302036333030203B46435F434B464E203B2020202020202020202044383432,
  0x504F5453204C4C5546204E45564553205449474944202020202020206F4E2023202020202020453230302037333030203B46435F434B464E203B2020202020202020202045383432,
  0x504F5453204C4C5546205448474945205449474944202020202020206F4E2023202020202020453230302038333030203B46435F434B464E203B2020202020202020202046383432,
  0x504F5453204C4C554620454E494E205449474944202020202020206F4E2023202020202020453230302039333030203B46435F434B464E203B2020202020202020202030393432,
  0x504F5453204C4C5546204E4554205245424D554E202020202020206F4E2023204532303020303330302031333030203B46435F434B464E203B2020202020202020202031393432,
  0x504F5453204C4C5546204E4556454C45205245424D554E202020202020206F4E2023204532303020313330302031333030203B46435F434B464E203B2020202020202020202032393432,
  0x504F5453204C4C55462045564C455754205245424D554E202020202020206F4E2023204532303020323330302031333030203B46435F434B464E203B2020202020202020202033393432,
  0x504F5453204C4C5546204E45455452494854205245424D554E202020202020206F4E2023204532303020333330302031333030203B46435F434B464E203B2020202020202020202034393432,
  0x504F5453204C4C5546204E45455452554F46205245424D554E202020202020206F4E2023204532303020343330302031333030203B46435F434B464E203B2020202020202020202035393432,
  0x504F5453204C4C5546204E454554464946205245424D554E202020202020206F4E2023204532303020353330302031333030203B46435F434B464E203B2020202020202020202036393432,
  0x504F5453204C4C5546204E454554584953205245424D554E202020202020206F4E2023204532303020363330302031333030203B46435F434B464E203B2020202020202020202037393432,
  0x504F5453204C4C5546204E4545544E45564553205245424D554E202020202020206F4E2023204532303020373330302031333030203B46435F434B464E203B2020202020202020202038393432,
  0x504F5453204C4C5546204E45455448474945205245424D554E202020202020206F4E2023204532303020383330302031333030203B46435F434B464E203B2020202020202020202039393432,
  0x504F5453204C4C5546204E454554454E494E205245424D554E202020202020206F4E2023204532303020393330302031333030203B46435F434B464E203B2020202020202020202041393432,
  0x504F5453204C4C55462059544E455754205245424D554E202020202020206F4E2023204532303020303330302032333030203B46435F434B464E203B2020202020202020202042393432,
  0x412052455454454C204C4C414D53204E4954414C2044455A49534548544E45524150202020202020206F532023203932303020313630302038323030203B46435F434B464E203B2020202020202020202043393432,
  0x422052455454454C204C4C414D53204E4954414C2044455A49534548544E45524150202020202020206F532023203932303020323630302038323030203B46435F434B464E203B2020202020202020202044393432,
  0x432052455454454C204C4C414D53204E4954414C2044455A49534548544E45524150202020202020206F532023203932303020333630302038323030203B46435F434B464E203B2020202020202020202045393432,
  0x442052455454454C204C4C414D53204E4954414C2044455A49534548544E45524150202020202020206F532023203932303020343630302038323030203B46435F434B464E203B2020202020202020202046393432,
  0x452052455454454C204C4C414D53204E4954414C2044455A49534548544E45524150202020202020206F532023203932303020353630302038323030203B46435F434B464E203B2020202020202020202030413432,
  0x462052455454454C204C4C414D53204E4954414C2044455A49534548544E45524150202020202020206F532023203932303020363630302038323030203B46435F434B464E203B2020202020202020202031413432,
  0x472052455454454C204C4C414D53204E4954414C2044455A49534548544E45524150202020202020206F532023203932303020373630302038323030203B46435F434B464E203B2020202020202020202032413432,
  0x482052455454454C204C4C414D53204E4954414C2044455A49534548544E45524150202020202020206F532023203932303020383630302038323030203B46435F434B464E203B2020202020202020202033413432,
  0x492052455454454C204C4C414D53204E4954414C2044455A49534548544E45524150202020202020206F532023203932303020393630302038323030203B46435F434B464E203B2020202020202020202034413432,
  0x4A2052455454454C204C4C414D53204E4954414C2044455A49534548544E45524150202020202020206F532023203932303020413630302038323030203B46435F434B464E203B2020202020202020202035413432,
  0x4B2052455454454C204C4C414D53204E4954414C2044455A49534548544E45524150202020202020206F532023203932303020423630302038323030203B46435F434B464E203B2020202020202020202036413432,
  0x4C2052455454454C204C4C414D53204E4954414C2044455A49534548544E45524150202020202020206F532023203932303020433630302038323030203B46435F434B464E203B2020202020202020202037413432,
  0x4D2052455454454C204C4C414D53204E4954414C2044455A49534548544E45524150202020202020206F532023203932303020443630302038323030203B46435F434B464E203B2020202020202020202038413432,
  0x4E2052455454454C204C4C414D53204E4954414C2044455A49534548544E45524150202020202020206F532023203932303020453630302038323030203B46435F434B464E203B2020202020202020202039413432,
  0x4F2052455454454C204C4C414D53204E4954414C2044455A49534548544E45524150202020202020206F532023203932303020463630302038323030203B46435F434B464E203B2020202020202020202041413432,
  0x502052455454454C204C4C414D53204E4954414C2044455A49534548544E45524150202020202020206F532023203932303020303730302038323030203B46435F434B464E203B2020202020202020202042413432,
  0x512052455454454C204C4C414D53204E4954414C2044455A49534548544E45524150202020202020206F532023203932303020313730302038323030203B46435F434B464E203B2020202020202020202043413432,
  0x522052455454454C204C4C414D53204E4954414C2044455A49534548544E45524150202020202020206F532023203932303020323730302038323030203B46435F434B464E203B2020202020202020202044413432,
  0x532052455454454C204C4C414D53204E4954414C2044455A49534548544E45524150202020202020206F532023203932303020333730302038323030203B46435F434B464E203B2020202020202020202045413432,
  0x542052455454454C204C4C414D53204E4954414C2044455A49534548544E45524150202020202020206F532023203932303020343730302038323030203B46435F434B464E203B2020202020202020202046413432,
  0x552052455454454C204C4C414D53204E4954414C2044455A49534548544E45524150202020202020206F532023203932303020353730302038323030203B46435F434B464E203B2020202020202020202030423432,
  0x562052455454454C204C4C414D53204E4954414C2044455A49534548544E45524150202020202020206F532023203932303020363730302038323030203B46435F434B464E203B2020202020202020202031423432,
  0x572052455454454C204C4C414D53204E4954414C2044455A49534548544E45524150202020202020206F532023203932303020373730302038323030203B46435F434B464E203B2020202020202020202032423432,
  0x582052455454454C204C4C414D53204E4954414C2044455A49534548544E45524150202020202020206F532023203932303020383730302038323030203B46435F434B464E203B2020202020202020202033423432,
  0x592052455454454C204C4C414D53204E4954414C2044455A49534548544E45524150202020202020206F532023203932303020393730302038323030203B46435F434B464E203B2020202020202020202034423432,
  0x5A2052455454454C204C4C414D53204E4954414C2044455A49534548544E45524150202020202020206F532023203932303020413730302038323030203B46435F434B464E203B2020202020202020202035423432,
  0x412052455454454C204C415449504143204E4954414C2044454C43524943202020202020206F532023202020202020202020202031363030203B46435F434B464E203B2020202020202020202036423432,
  0x422052455454454C204C415449504143204E4954414C2044454C43524943202020202020206F532023202020202020202020202032363030203B46435F434B464E203B2020202020202020202037423432,
  0x432052455454454C204C415449504143204E4954414C2044454C43524943202020202020206F532023202020202020202020202033363030203B46435F434B464E203B2020202020202020202038423432,
  0x442052455454454C204C415449504143204E4954414C2044454C43524943202020202020206F532023202020202020202020202034363030203B46435F434B464E203B2020202020202020202039423432,
  0x452052455454454C204C415449504143204E4954414C2044454C43524943202020202020206F532023202020202020202020202035363030203B46435F434B464E203B2020202020202020202041423432,
  0x462052455454454C204C415449504143204E4954414C2044454C43524943202020202020206F532023202020202020202020202036363030203B46435F434B464E203B2020202020202020202042423432,
  0x472052455454454C204C415449504143204E4954414C2044454C43524943202020202020206F532023202020202020202020202037363030203B46435F434B464E203B2020202020202020202043423432,
  0x482052455454454C204C415449504143204E4954414C2044454C43524943202020202020206F532023202020202020202020202038363030203B46435F434B464E203B2020202020202020202044423432,
  0x492052455454454C204C415449504143204E4954414C2044454C43524943202020202020206F532023202020202020202020202039363030203B46435F434B464E203B2020202020202020202045423432,
  0x4A2052455454454C204C415449504143204E4954414C2044454C43524943202020202020206F532023202020202020202020202041363030203B46435F434B464E203B2020202020202020202046423432,
  0x4B2052455454454C204C415449504143204E4954414C2044454C43524943202020202020206F532023202020202020202020202042363030203B46435F434B464E203B2020202020202020202030433432,
  0x4C2052455454454C204C415449504143204E4954414C2044454C43524943202020202020206F532023202020202020202020202043363030203B46435F434B464E203B2020202020202020202031433432,
  0x4D2052455454454C204C415449504143204E4954414C2044454C43524943202020202020206F532023202020202020202020202044363030203B46435F434B464E203B2020202020202020202032433432,
  0x4E2052455454454C204C415449504143204E4954414C2044454C43524943202020202020206F532023202020202020202020202045363030203B46435F434B464E203B2020202020202020202033433432,
  0x4F2052455454454C204C415449504143204E4954414C2044454C43524943202020202020206F532023202020202020202020202046363030203B46435F434B464E203B2020202020202020202034433432,
  0x502052455454454C204C415449504143204E4954414C2044454C43524943202020202020206F532023202020202020202020202030373030203B46435F434B464E203B2020202020202020202035433432,
  0x512052455454454C204C415449504143204E4954414C2044454C43524943202020202020206F532023202020202020202020202031373030203B46435F434B464E203B2020202020202020202036433432,
  0x522052455454454C204C415449504143204E4954414C2044454C43524943202020202020206F532023202020202020202020202032373030203B46435F434B464E203B2020202020202020202037433432,
  0x532052455454454C204C415449504143204E4954414C2044454C43524943202020202020206F532023202020202020202020202033373030203B46435F434B464E203B2020202020202020202038433432,
  0x542052455454454C204C415449504143204E4954414C2044454C43524943202020202020206F532023202020202020202020202034373030203B46435F434B464E203B2020202020202020202039433432,
  0x552052455454454C204C415449504143204E4954414C2044454C43524943202020202020206F532023202020202020202020202035373030203B46435F434B464E203B2020202020202020202041433432,
  0x562052455454454C204C415449504143204E4954414C2044454C43524943202020202020206F532023202020202020202020202036373030203B46435F434B464E203B2020202020202020202042433432,
  0x572052455454454C204C415449504143204E4954414C2044454C43524943202020202020206F532023202020202020202020202037373030203B46435F434B464E203B2020202020202020202043433432,
  0x582052455454454C204C415449504143204E4954414C2044454C43524943202020202020206F532023202020202020202020202038373030203B46435F434B464E203B2020202020202020202044433432,
  0x592052455454454C204C415449504143204E4954414C2044454C43524943202020202020206F532023202020202020202020202039373030203B46435F434B464E203B2020202020202020202045433432,
  0x5A2052455454454C204C415449504143204E4954414C2044454C43524943202020202020206F532023202020202020202020202041373030203B46435F434B464E203B2020202020202020202046433432,
  0x412052455454454C204C4C414D53204E4954414C2044454C43524943202020202020206F532023202020202020202020202031363030203B46435F434B464E203B2020202020202020202030443432,
  0x422052455454454C204C4C414D53204E4954414C2044454C43524943202020202020206F532023202020202020202020202032363030203B46435F434B464E203B2020202020202020202031443432,
  0x432052455454454C204C4C414D53204E4954414C2044454C43524943202020202020206F532023202020202020202020202033363030203B46435F434B464E203B2020202020202020202032443432,
  0x442052455454454C204C4C414D53204E4954414C2044454C43524943202020202020206F532023202020202020202020202034363030203B46435F434B464E203B2020202020202020202033443432,
  0x452052455454454C204C4C414D53204E4954414C2044454C43524943202020202020206F532023202020202020202020202035363030203B46435F434B464E203B2020202020202020202034443432,
  0x462052455454454C204C4C414D53204E4954414C2044454C43524943202020202020206F532023202020202020202020202036363030203B46435F434B464E203B2020202020202020202035443432,
  0x472052455454454C204C4C414D53204E4954414C2044454C43524943202020202020206F532023202020202020202020202037363030203B46435F434B464E203B2020202020202020202036443432,
  0x482052455454454C204C4C414D53204E4954414C2044454C43524943202020202020206F532023202020202020202020202038363030203B46435F434B464E203B2020202020202020202037443432,
  0x492052455454454C204C4C414D53204E4954414C2044454C43524943202020202020206F532023202020202020202020202039363030203B46435F434B464E203B2020202020202020202038443432]

def qcText17 : List Nat := [
  0x4A2052455454454C204C4C414D53204E4954414C2044454C43524943202020202020206F532023202020202020202020202041363030203B46435F434B464E203B2020202020202020202039443432,
  0x4B2052455454454C204C4C414D53204E4954414C2044454C43524943202020202020206F532023202020202020202020202042363030203B46435F434B464E203B2020202020202020202041443432,
  0x4C2052455454454C204C4C414D53204E4954414C2044454C43524943202020202020206F532023202020202020202020202043363030203B46435F434B464E203B2020202020202020202042443432,
  0x4D2052455454454C204C4C414D53204E4954414C2044454C43524943202020202020206F532023202020202020202020202044363030203B46435F434B464E203B2020202020202020202043443432,
  0x4E2052455454454C204C4C414D53204E4954414C2044454C43524943202020202020206F532023202020202020202020202045363030203B46435F434B464E203B2020202020202020202044443432,
  0x4F2052455454454C204C4C414D53204E4954414C2044454C43524943202020202020206F532023202020202020202020202046363030203B46435F434B464E203B2020202020202020202045443432,
  0x502052455454454C204C4C414D53204E4954414C2044454C43524943202020202020206F532023202020202020202020202030373030203B46435F434B464E203B2020202020202020202046443432,
  0x512052455454454C204C4C414D53204E4954414C2044454C43524943202020202020206F532023202020202020202020202031373030203B46435F434B464E203B2020202020202020202030453432,
  0x522052455454454C204C4C414D53204E4954414C2044454C43524943202020202020206F532023202020202020202020202032373030203B46435F434B464E203B2020202020202020202031453432,
  0x532052455454454C204C4C414D53204E4954414C2044454C43524943202020202020206F532023202020202020202020202033373030203B46435F434B464E203B2020202020202020202032453432,
  0x542052455454454C204C4C414D53204E4954414C2044454C43524943202020202020206F532023202020202020202020202034373030203B46435F434B464E203B2020202020202020202033453432,
  0x552052455454454C204C4C414D53204E4954414C2044454C43524943202020202020206F532023202020202020202020202035373030203B46435F434B464E203B2020202020202020202034453432,
  0x562052455454454C204C4C414D53204E4954414C2044454C43524943202020202020206F532023202020202020202020202036373030203B46435F434B464E203B2020202020202020202035453432,
  0x572052455454454C204C4C414D53204E4954414C2044454C43524943202020202020206F532023202020202020202020202037373030203B46435F434B464E203B2020202020202020202036453432,
  0x582052455454454C204C4C414D53204E4954414C2044454C43524943202020202020206F532023202020202020202020202038373030203B46435F434B464E203B2020202020202020202037453432,
  0x592052455454454C204C4C414D53204E4954414C2044454C43524943202020202020206F532023202020202020202020202039373030203B46435F434B464E203B2020202020202020202038453432,
  0x5A2052455454454C204C4C414D53204E4954414C2044454C43524943202020202020206F532023202020202020202020202041373030203B46435F434B464E203B2020202020202020202039453432,
  0x4F52455A2054494749442044454C43524943202020202020206F4E2023202020202020202020202030333030203B46435F434B464E203B2020202020202020202041453432,
  0x524F54415245504F204C41524745544E4920454C505552444155512020206D53232042323232204232323220423232322042323232203B46435F434B464E203B2020202020202020202043304132,
  0x4C41555145204E4F4C4F4320454C42554F44202020202020206D532023204433303020413330302041333030203B46435F434B464E203B2020202020202020202034374132,
  0x534E47495320534C415551452045564954554345534E4F43204F5754202020202020206D532023202020202020443330302044333030203B46435F434B464E203B2020202020202020202035374132,
  0x534E47495320534C415551452045564954554345534E4F43204545524854202020202020206D532023204433303020443330302044333030203B46435F434B464E203B2020202020202020202036374132,
  0x474E494B524F46202020202020206D532023202020202020383333302044444132203B46435F434B464E203B2020202020202020202043444132,
  0x555A412052455454454C204C41544950414320434954494C4F47414C4720202020202020264C2023202020202020202020202030334332203B46435F434B464E203B2020202020202020202030304332,
  0x594B55422052455454454C204C41544950414320434954494C4F47414C4720202020202020264C2023202020202020202020202031334332203B46435F434B464E203B2020202020202020202031304332,
  0x454445562052455454454C204C41544950414320434954494C4F47414C4720202020202020264C2023202020202020202020202032334332203B46435F434B464E203B2020202020202020202032304332,
  0x494C4F47414C472052455454454C204C41544950414320434954494C4F47414C4720202020202020264C2023202020202020202020202033334332203B46435F434B464E203B2020202020202020202033304332,
  0x4F52424F442052455454454C204C41544950414320434954494C4F47414C4720202020202020264C2023202020202020202020202034334332203B46435F434B464E203B2020202020202020202034304332,
  0x55545345592052455454454C204C41544950414320434954494C4F47414C4720202020202020264C2023202020202020202020202035334332203B46435F434B464E203B2020202020202020202035304332,
  0x4554455649485A2052455454454C204C41544950414320434954494C4F47414C4720202020202020264C2023202020202020202020202036334332203B46435F434B464E203B2020202020202020202036304332,
  0x4F4C455A442052455454454C204C41544950414320434954494C4F47414C4720202020202020264C2023202020202020202020202037334332203B46435F434B464E203B2020202020202020202037304332,
  0x414A4C4D455A2052455454454C204C41544950414320434954494C4F47414C4720202020202020264C2023202020202020202020202038334332203B46435F434B464E203B2020202020202020202038304332,
  0x45485A492052455454454C204C41544950414320434954494C4F47414C4720202020202020264C2023202020202020202020202039334332203B46435F434B464E203B2020202020202020202039304332,
  0x45485A49204C414954494E492052455454454C204C41544950414320434954494C4F47414C4720202020202020264C2023202020202020202020202041334332203B46435F434B464E203B2020202020202020202041304332,
  0x492052455454454C204C41544950414320434954494C4F47414C4720202020202020264C2023202020202020202020202042334332203B46435F434B464E203B2020202020202020202042304332,
  0x495652454A442052455454454C204C41544950414320434954494C4F47414C4720202020202020264C2023202020202020202020202043334332203B46435F434B464E203B2020202020202020202043304332,
  0x4F4B414B2052455454454C204C41544950414320434954494C4F47414C4720202020202020264C2023202020202020202020202044334332203B46435F434B464E203B2020202020202020202044304332,
  0x454A4944554A4C2052455454454C204C41544950414320434954494C4F47414C4720202020202020264C2023202020202020202020202045334332203B46435F434B464E203B2020202020202020202045304332,
  0x4554494C53594D2052455454454C204C41544950414320434954494C4F47414C4720202020202020264C2023202020202020202020202046334332203B46435F434B464E203B2020202020202020202046304332,
  0x494853414E2052455454454C204C41544950414320434954494C4F47414C4720202020202020264C2023202020202020202020202030344332203B46435F434B464E203B2020202020202020202030314332,
  0x554E4F2052455454454C204C41544950414320434954494C4F47414C4720202020202020264C2023202020202020202020202031344332203B46435F434B464E203B2020202020202020202031314332,
  0x494A4F4B4F502052455454454C204C41544950414320434954494C4F47414C4720202020202020264C2023202020202020202020202032344332203B46435F434B464E203B2020202020202020202032314332,
  0x49535449522052455454454C204C41544950414320434954494C4F47414C4720202020202020264C2023202020202020202020202033344332203B46435F434B464E203B2020202020202020202033314332,
  0x4F564F4C532052455454454C204C41544950414320434954494C4F47414C4720202020202020264C2023202020202020202020202034344332203B46435F434B464E203B2020202020202020202034314332,
  0x4F44495256542052455454454C204C41544950414320434954494C4F47414C4720202020202020264C2023202020202020202020202035344332203B46435F434B464E203B2020202020202020202035314332,
  0x554B552052455454454C204C41544950414320434954494C4F47414C4720202020202020264C2023202020202020202020202036344332203B46435F434B464E203B2020202020202020202036314332,
  0x55544952462052455454454C204C41544950414320434954494C4F47414C4720202020202020264C2023202020202020202020202037344332203B46435F434B464E203B2020202020202020202037314332,
  0x555245482052455454454C204C41544950414320434954494C4F47414C4720202020202020264C2023202020202020202020202038344332203B46435F434B464E203B2020202020202020202038314332,
  0x55544F2052455454454C204C41544950414320434954494C4F47414C4720202020202020264C2023202020202020202020202039344332203B46435F434B464E203B2020202020202020202039314332,
  0x45502052455454454C204C41544950414320434954494C4F47414C4720202020202020264C2023202020202020202020202041344332203B46435F434B464E203B2020202020202020202041314332,
  0x415448532052455454454C204C41544950414320434954494C4F47414C4720202020202020264C2023202020202020202020202042344332203B46435F434B464E203B2020202020202020202042314332,
  0x4953542052455454454C204C41544950414320434954494C4F47414C4720202020202020264C2023202020202020202020202043344332203B46435F434B464E203B2020202020202020202043314332,
  0x4956495248432052455454454C204C41544950414320434954494C4F47414C4720202020202020264C2023202020202020202020202044344332203B46435F434B464E203B2020202020202020202044314332,
  0x4148532052455454454C204C41544950414320434954494C4F47414C4720202020202020264C2023202020202020202020202045344332203B46435F434B464E203B2020202020202020202045314332,
  0x555245592052455454454C204C41544950414320434954494C4F47414C4720202020202020264C2023202020202020202020202046344332203B46435F434B464E203B2020202020202020202046314332,
  0x495245592052455454454C204C41544950414320434954494C4F47414C4720202020202020264C2023202020202020202020202030354332203B46435F434B464E203B2020202020202020202030324332,
  0x495441592052455454454C204C41544950414320434954494C4F47414C4720202020202020264C2023202020202020202020202031354332203B46435F434B464E203B2020202020202020202031324332,
  0x414820595245444950532052455454454C204C41544950414320434954494C4F47414C4720202020202020264C2023202020202020202020202032354332203B46435F434B464E203B2020202020202020202032324332,
  0x55592052455454454C204C41544950414320434954494C4F47414C4720202020202020264C2023202020202020202020202033354332203B46435F434B464E203B2020202020202020202033324332,
  0x535559204C4C414D532052455454454C204C41544950414320434954494C4F47414C4720202020202020264C2023202020202020202020202034354332203B46435F434B464E203B2020202020202020202034324332,
  0x4C494154204854495720535559204C4C414D532052455454454C204C41544950414320434954494C4F47414C4720202020202020264C2023202020202020202020202035354332203B46435F434B464E203B2020202020202020202035324332,
  0x4F592052455454454C204C41544950414320434954494C4F47414C4720202020202020264C2023202020202020202020202036354332203B46435F434B464E203B2020202020202020202036324332,
  0x535559204C4C414D532044455441544F492052455454454C204C41544950414320434954494C4F47414C4720202020202020264C2023202020202020202020202037354332203B46435F434B464E203B2020202020202020202037324332,
  0x535559204749422052455454454C204C41544950414320434954494C4F47414C4720202020202020264C2023202020202020202020202038354332203B46435F434B464E203B2020202020202020202038324332,
  0x535559204749422044455441544F492052455454454C204C41544950414320434954494C4F47414C4720202020202020264C2023202020202020202020202039354332203B46435F434B464E203B2020202020202020202039324332,
  0x415449462052455454454C204C41544950414320434954494C4F47414C4720202020202020264C2023202020202020202020202041354332203B46435F434B464E203B2020202020202020202041324332,
  0x41535449485A492052455454454C204C41544950414320434954494C4F47414C4720202020202020264C2023202020202020202020202042354332203B46435F434B464E203B2020202020202020202042324332,
  0x434950415448532052455454454C204C41544950414320434954494C4F47414C4720202020202020264C2023202020202020202020202043354332203B46435F434B464E203B2020202020202020202043324332,
  0x41204954534154554B4F52542052455454454C204C41544950414320434954494C4F47414C4720202020202020264C2023202020202020202020202044354332203B46435F434B464E203B2020202020202020202044324332,
  0x4554494C53594D204554414E4954414C2052455454454C204C41544950414320434954494C4F47414C4720202020202020264C2023202020202020202020202045354332203B46435F434B464E203B2020202020202020202045324332,
  0x52414220454C42554F442048544957204C2052455454454C204C415449504143204E4954414C20202020202020264C2023202020202020202020202031364332203B46435F434B464E203B2020202020202020202030364332,
  0x45444C495420454C4444494D2048544957204C2052455454454C204C415449504143204E4954414C20202020202020264C2023202020202020202020202042363230203B46435F434B464E203B2020202020202020202032364332,
  0x454B4F525453204854495720502052455454454C204C415449504143204E4954414C20202020202020264C2023202020202020202020202044374431203B46435F434B464E203B2020202020202020202033364332,
  0x4C494154204854495720522052455454454C204C415449504143204E4954414C20202020202020264C2023202020202020202020202044373230203B46435F434B464E203B2020202020202020202034364332,
  0x5245444E4543534544204854495720482052455454454C204C415449504143204E4954414C20202020202020264C2023202020202020202020202038364332203B46435F434B464E203B2020202020202020202037364332,
  0x5245444E45435345442048544957204B2052455454454C204C415449504143204E4954414C20202020202020264C2023202020202020202020202041364332203B46435F434B464E203B2020202020202020202039364332,
  0x5245444E45435345442048544957205A2052455454454C204C415449504143204E4954414C20202020202020264C2023202020202020202020202043364332203B46435F434B464E203B2020202020202020202042364332,
  0x4148504C412052455454454C204C415449504143204E4954414C20202020202020264C2023202020202020202020202031353230203B46435F434B464E203B2020202020202020202044364332,
  0x4B4F4F482048544957204D2052455454454C204C415449504143204E4954414C20202020202020264C2023202020202020202020202031373230203B46435F434B464E203B2020202020202020202045364332,
  0x412044454E5255542052455454454C204C415449504143204E4954414C20202020202020264C2023202020202020202020202030353230203B46435F434B464E203B2020202020202020202046364332,
  0x4148504C412044454E5255542052455454454C204C415449504143204E4954414C20202020202020264C2023202020202020202020202032353230203B46435F434B464E203B2020202020202020202030374332,
  0x4B4F4F48204854495720572052455454454C204C415449504143204E4954414C20202020202020264C2023202020202020202020202033374332203B46435F434B464E203B2020202020202020202032374332,
  0x4820464C41482052455454454C204C415449504143204E4954414C20202020202020264C2023202020202020202020202036374332203B46435F434B464E203B2020202020202020202035374332,
  0x4A2052455454454C204C4C414D5320545049524353425553204E4954414C202020202020206D4C2023202020202020202020202041363030203B46435F434B464E203B2020202020202020202043374332,
  0x56204C4154495041432052455454454C205245494649444F4D202020202020206D4C2023202020202020202020202036373030203B46435F434B464E203B2020202020202020202044374332,
  0x4C494154204853415753204854495720532052455454454C204C415449504143204E4954414C20202020202020264C2023202020202020202020202046333230203B46435F434B464E203B2020202020202020202045374332,
  0x4C4941542048534157532048544957205A2052455454454C204C415449504143204E4954414C20202020202020264C2023202020202020202020202030343230203B46435F434B464E203B2020202020202020202046374332,
  0x41464C412052455454454C204C41544950414320434954504F4320202020202020264C2023202020202020202020202031384332203B46435F434B464E203B2020202020202020202030384332,
  0x414449562052455454454C204C41544950414320434954504F4320202020202020264C2023202020202020202020202033384332203B46435F434B464E203B2020202020202020202032384332,
  0x414D4D41472052455454454C204C41544950414320434954504F4320202020202020264C2023202020202020202020202035384332203B46435F434B464E203B2020202020202020202034384332,
  0x41444C41442052455454454C204C41544950414320434954504F4320202020202020264C2023202020202020202020202037384332203B46435F434B464E203B2020202020202020202036384332,
  0x4549452052455454454C204C41544950414320434954504F4320202020202020264C2023202020202020202020202039384332203B46435F434B464E203B2020202020202020202038384332,
  0x554F532052455454454C204C41544950414320434954504F4320202020202020264C2023202020202020202020202042384332203B46435F434B464E203B2020202020202020202041384332,
  0x4154415A2052455454454C204C41544950414320434954504F4320202020202020264C2023202020202020202020202044384332203B46435F434B464E203B2020202020202020202043384332,
  0x455441482052455454454C204C41544950414320434954504F4320202020202020264C2023202020202020202020202046384332203B46435F434B464E203B2020202020202020202045384332,
  0x4548544548542052455454454C204C41544950414320434954504F4320202020202020264C2023202020202020202020202031394332203B46435F434B464E203B2020202020202020202030394332,
  0x41445541492052455454454C204C41544950414320434954504F4320202020202020264C2023202020202020202020202033394332203B46435F434B464E203B2020202020202020202032394332,
  0x4150414B2052455454454C204C41544950414320434954504F4320202020202020264C2023202020202020202020202035394332203B46435F434B464E203B2020202020202020202034394332,
  0x414C55414C2052455454454C204C41544950414320434954504F4320202020202020264C2023202020202020202020202037394332203B46435F434B464E203B2020202020202020202036394332,
  0x494D2052455454454C204C41544950414320434954504F4320202020202020264C2023202020202020202020202039394332203B46435F434B464E203B2020202020202020202038394332,
  0x494E2052455454454C204C41544950414320434954504F4320202020202020264C2023202020202020202020202042394332203B46435F434B464E203B2020202020202020202041394332,
  0x49534B2052455454454C204C41544950414320434954504F4320202020202020264C2023202020202020202020202044394332203B46435F434B464E203B2020202020202020202043394332,
  0x4F2052455454454C204C41544950414320434954504F4320202020202020264C2023202020202020202020202046394332203B46435F434B464E203B2020202020202020202045394332,
  0x49502052455454454C204C41544950414320434954504F4320202020202020264C2023202020202020202020202031414332203B46435F434B464E203B2020202020202020202030414332,
  0x4F522052455454454C204C41544950414320434954504F4320202020202020264C2023202020202020202020202033414332203B46435F434B464E203B2020202020202020202032414332,
  0x414D49532052455454454C204C41544950414320434954504F4320202020202020264C2023202020202020202020202035414332203B46435F434B464E203B2020202020202020202034414332,
  0x5541542052455454454C204C41544950414320434954504F4320202020202020264C2023202020202020202020202037414332203B46435F434B464E203B2020202020202020202036414332,
  0x41552052455454454C204C41544950414320434954504F4320202020202020264C2023202020202020202020202039414332203B46435F434B464E203B2020202020202020202038414332,
  0x49462052455454454C204C41544950414320434954504F4320202020202020264C2023202020202020202020202042414332203B46435F434B464E203B2020202020202020202041414332,
  0x49484B2052455454454C204C41544950414320434954504F4320202020202020264C2023202020202020202020202044414332203B46435F434B464E203B2020202020202020202043414332,
  0x4953502052455454454C204C41544950414320434954504F4320202020202020264C2023202020202020202020202046414332203B46435F434B464E203B2020202020202020202045414332,
  0x554F4F2052455454454C204C41544950414320434954504F4320202020202020264C2023202020202020202020202031424332203B46435F434B464E203B2020202020202020202030424332,
  0x46454C4120502D5443454C4149442052455454454C204C41544950414320434954504F4320202020202020264C2023202020202020202020202033424332203B46435F434B464E203B2020202020202020202032424332,
  0x4E494120434954504F4320444C4F2052455454454C204C41544950414320434954504F4320202020202020264C2023202020202020202020202035424332203B46435F434B464E203B2020202020202020202034424332,
  0x4549452043494D4D4152474F54505952432052455454454C204C41544950414320434954504F4320202020202020264C2023202020202020202020202037424332203B46435F434B464E203B2020202020202020202036424332,
  0x4150414B20502D5443454C4149442052455454454C204C41544950414320434954504F4320202020202020264C2023202020202020202020202039424332203B46435F434B464E203B2020202020202020202038424332,
  0x494E20502D5443454C4149442052455454454C204C41544950414320434954504F4320202020202020264C2023202020202020202020202042424332203B46435F434B464E203B2020202020202020202041424332,
  0x494E2043494D4D4152474F54505952432052455454454C204C41544950414320434954504F4320202020202020264C2023202020202020202020202044424332203B46435F434B464E203B2020202020202020202043424332,
  0x554F4F20434954504F4320444C4F2052455454454C204C41544950414320434954504F4320202020202020264C2023202020202020202020202046424332203B46435F434B464E203B2020202020202020202045424332,
  0x49504D41532052455454454C204C41544950414320434954504F4320202020202020264C2023202020202020202020202031434332203B46435F434B464E203B2020202020202020202030434332,
  0x4945485320444553534F52432052455454454C204C41544950414320434954504F4320202020202020264C2023202020202020202020202033434332203B46435F434B464E203B2020202020202020202032434332,
  0x4945485320434954504F4320444C4F2052455454454C204C41544950414320434954504F4320202020202020264C2023202020202020202020202035434332203B46435F434B464E203B2020202020202020202034434332,
  0x48534520434954504F4320444C4F2052455454454C204C41544950414320434954504F4320202020202020264C2023202020202020202020202037434332203B46435F434B464E203B2020202020202020202036434332,
  0x4945484B2043494D494D484B412052455454454C204C41544950414320434954504F4320202020202020264C2023202020202020202020202039434332203B46435F434B464E203B2020202020202020202038434332,
  0x49524F4820502D5443454C4149442052455454454C204C41544950414320434954504F4320202020202020264C2023202020202020202020202042434332203B46435F434B464E203B2020202020202020202041434332,
  0x49524F4820434954504F4320444C4F2052455454454C204C41544950414320434954504F4320202020202020264C2023202020202020202020202044434332203B46435F434B464E203B2020202020202020202043434332,
  0x414820434954504F4320444C4F2052455454454C204C41544950414320434954504F4320202020202020264C2023202020202020202020202046434332203B46435F434B464E203B2020202020202020202045434332,
  0x4148204445504148532D4C2052455454454C204C41544950414320434954504F4320202020202020264C2023202020202020202020202031444332203B46435F434B464E203B2020202020202020202030444332,
  0x49454820434954504F4320444C4F2052455454454C204C41544950414320434954504F4320202020202020264C2023202020202020202020202033444332203B46435F434B464E203B2020202020202020202032444332,
  0x54414820434954504F4320444C4F2052455454454C204C41544950414320434954504F4320202020202020264C2023202020202020202020202035444332203B46435F434B464E203B2020202020202020202034444332,
  0x4149474E414720434954504F4320444C4F2052455454454C204C41544950414320434954504F4320202020202020264C2023202020202020202020202037444332203B46435F434B464E203B2020202020202020202036444332,
  0x414A4420434954504F4320444C4F2052455454454C204C41544950414320434954504F4320202020202020264C2023202020202020202020202039444332203B46435F434B464E203B2020202020202020202038444332,
  0x414D49485320434954504F4320444C4F2052455454454C204C41544950414320434954504F4320202020202020264C2023202020202020202020202042444332203B46435F434B464E203B2020202020202020202041444332,
  0x414D494853204E414942554E20444C4F2052455454454C204C41544950414320434954504F4320202020202020264C2023202020202020202020202044444332203B46435F434B464E203B2020202020202020202043444332,
  0x49474E204E414942554E20444C4F2052455454454C204C41544950414320434954504F4320202020202020264C2023202020202020202020202046444332203B46435F434B464E203B2020202020202020202045444332,
  0x49594E204E414942554E20444C4F2052455454454C204C41544950414320434954504F4320202020202020264C2023202020202020202020202031454332203B46435F434B464E203B2020202020202020202030454332,
  0x554157204E414942554E20444C4F2052455454454C204C41544950414320434954504F4320202020202020264C2023202020202020202020202033454332203B46435F434B464E203B2020202020202020202032454332,
  0x494548532043494D4D4152474F54505952432052455454454C204C41544950414320434954504F4320202020202020264C2023202020202020202020202043454332203B46435F434B464E203B2020202020202020202042454332,
  0x4149474E41472043494D4D4152474F54505952432052455454454C204C41544950414320434954504F4320202020202020264C2023202020202020202020202045454332203B46435F434B464E203B2020202020202020202044454332,
  0x4945484B204349524941484F422052455454454C204C41544950414320434954504F4320202020202020264C2023202020202020202020202033464332203B46435F434B464E203B2020202020202020202032464332,
  0x4B52414D204E4F4954415A494C414942414C2052455454454C205245494649444F4D204847414E49464954202020202020206D4C2023202020202020202020202031364432203B46435F434B464E203B2020202020202020202046364432,
  0x524548544F4D204C414349444152204B4A43202020202020206F532023202020202020202020202044434236203B46435F434B464E203B2020202020202020202046394532,
  0x454C545255542044454946494C504D49532D43204C414349444152204B4A43202020202020206F532023202020202020202020202046394639203B46435F434B464E203B2020202020202020202033464532,
  0x454E4F204C414349444152204958474E414B202020202020206F532023202020202020202020202030304534203B46435F434B464E203B2020202020202020202030304632,
  0x454E494C204C414349444152204958474E414B202020202020206F532023202020202020202020202038324534203B46435F434B464E203B2020202020202020202031304632,
  0x544F44204C414349444152204958474E414B202020202020206F532023202020202020202020202036334534203B46435F434B464E203B2020202020202020202032304632,
  0x4853414C53204C414349444152204958474E414B202020202020206F532023202020202020202020202046334534203B46435F434B464E203B2020202020202020202033304632,
  0x444E4F434553204C414349444152204958474E414B202020202020206F532023202020202020202020202039354534203B46435F434B464E203B2020202020202020202034304632,
  0x4B4F4F48204C414349444152204958474E414B202020202020206F532023202020202020202020202035384534203B46435F434B464E203B2020202020202020202035304632,
  0x4F5754204C414349444152204958474E414B202020202020206F532023202020202020202020202043384534203B46435F434B464E203B2020202020202020202036304632,
  0x44494C204C414349444152204958474E414B202020202020206F532023202020202020202020202030414534203B46435F434B464E203B2020202020202020202037304632,
  0x4E414D204C414349444152204958474E414B202020202020206F532023202020202020202020202041424534203B46435F434B464E203B2020202020202020202038304632,
  0x5347454C204C414349444152204958474E414B202020202020206F532023202020202020202020202046333135203B46435F434B464E203B2020202020202020202039304632,
  0x5245544E45204C414349444152204958474E414B202020202020206F532023202020202020202020202035363135203B46435F434B464E203B2020202020202020202041304632,
  0x5448474945204C414349444152204958474E414B202020202020206F532023202020202020202020202042363135203B46435F434B464E203B2020202020202020202042304632,
  0x584F42204E574F44204C414349444152204958474E414B202020202020206F532023202020202020202020202032383135203B46435F434B464E203B2020202020202020202043304632,
  0x5245564F43204C414349444152204958474E414B202020202020206F532023202020202020202020202036393135203B46435F434B464E203B2020202020202020202044304632,
  0x454349204C414349444152204958474E414B202020202020206F532023202020202020202020202042413135203B46435F434B464E203B2020202020202020202045304632,
  0x454C424154204C414349444152204958474E414B202020202020206F532023202020202020202020202030453135203B46435F434B464E203B2020202020202020202046304632,
  0x584F42204E45504F204C414349444152204958474E414B202020202020206F532023202020202020202020202035463135203B46435F434B464E203B2020202020202020202030314632,
  0x4546494E4B204C414349444152204958474E414B202020202020206F532023202020202020202020202030303235203B46435F434B464E203B2020202020202020202031314632,
  0x5245574F50204C414349444152204958474E414B202020202020206F532023202020202020202020202042393235203B46435F434B464E203B2020202020202020202032314632,
  0x50415257204C414349444152204958474E414B202020202020206F532023202020202020202020202039463235203B46435F434B464E203B2020202020202020202033314632,
  0x4E4F4F5053204C414349444152204958474E414B202020202020206F532023202020202020202020202035313335203B46435F434B464E203B2020202020202020202034314632,
  0x584F42204E45504F205448474952204C414349444152204958474E414B202020202020206F532023202020202020202020202041313335203B46435F434B464E203B2020202020202020202035314632,
  0x455255534F4C434E4520474E49444948204C414349444152204958474E414B202020202020206F532023202020202020202020202038333335203B46435F434B464E203B2020202020202020202036314632,
  0x4E4554204C414349444152204958474E414B202020202020206F532023202020202020202020202031343335203B46435F434B464E203B2020202020202020202037314632,
  0x4E4F4954414E49564944204C414349444152204958474E414B202020202020206F532023202020202020202020202043353335203B46435F434B464E203B2020202020202020202038314632,
  0x4C414553204C414349444152204958474E414B202020202020206F532023202020202020202020202039363335203B46435F434B464E203B2020202020202020202039314632,
  0x4646494C43204C414349444152204958474E414B202020202020206F532023202020202020202020202032383335203B46435F434B464E203B2020202020202020202041314632,
  0x45544156495250204C414349444152204958474E414B202020202020206F532023202020202020202020202036423335203B46435F434B464E203B2020202020202020202042314632,
  0x4E49414741204C414349444152204958474E414B202020202020206F532023202020202020202020202038433335203B46435F434B464E203B2020202020202020202043314632,
  0x4854554F4D204C414349444152204958474E414B202020202020206F532023202020202020202020202033453335203B46435F434B464E203B2020202020202020202044314632,
  0x455255534F4C434E45204C414349444152204958474E414B202020202020206F532023202020202020202020202037443635203B46435F434B464E203B2020202020202020202045314632,
  0x4854524145204C414349444152204958474E414B202020202020206F532023202020202020202020202046313735203B46435F434B464E203B2020202020202020202046314632,
  0x52414C4F484353204C414349444152204958474E414B202020202020206F532023202020202020202020202042453835203B46435F434B464E203B2020202020202020202030324632,
  0x4F47204C414349444152204958474E414B202020202020206F532023202020202020202020202032303935203B46435F434B464E203B2020202020202020202031324632,
  0x594C574F4C53204F47204C414349444152204958474E414B202020202020206F532023202020202020202020202041303935203B46435F434B464E203B2020202020202020202032324632,
  0x474E494E455645204C414349444152204958474E414B202020202020206F532023202020202020202020202035313935203B46435F434B464E203B2020202020202020202033324632,
  0x474942204C414349444152204958474E414B202020202020206F532023202020202020202020202037323935203B46435F434B464E203B2020202020202020202034324632,
  0x4E414D4F57204C414349444152204958474E414B202020202020206F532023202020202020202020202033373935203B46435F434B464E203B2020202020202020202035324632,
  0x444C494843204C414349444152204958474E414B202020202020206F532023202020202020202020202030354235203B46435F434B464E203B2020202020202020202036324632,
  0x464F4F52204C414349444152204958474E414B202020202020206F532023202020202020202020202030384235203B46435F434B464E203B2020202020202020202037324632,
  0x48434E49204C414349444152204958474E414B202020202020206F532023202020202020202020202038464235203B46435F434B464E203B2020202020202020202038324632,
  0x4C4C414D53204C414349444152204958474E414B202020202020206F532023202020202020202020202046304335203B46435F434B464E203B2020202020202020202039324632,
  0x454D414C204C414349444152204958474E414B202020202020206F532023202020202020202020202032324335203B46435F434B464E203B2020202020202020202041324632,
  0x455350524F43204C414349444152204958474E414B202020202020206F532023202020202020202020202038334335203B46435F434B464E203B2020202020202020202042324632,
  0x54554F525053204C414349444152204958474E414B202020202020206F532023202020202020202020202045364335203B46435F434B464E203B2020202020202020202043324632,
  0x4E4941544E554F4D204C414349444152204958474E414B202020202020206F532023202020202020202020202031374335203B46435F434B464E203B2020202020202020202044324632,
  0x5245564952204C414349444152204958474E414B202020202020206F532023202020202020202020202042444435203B46435F434B464E203B2020202020202020202045324632,
  0x4B524F57204C414349444152204958474E414B202020202020206F532023202020202020202020202035454435203B46435F434B464E203B2020202020202020202046324632,
  0x464C4553454E4F204C414349444152204958474E414B202020202020206F532023202020202020202020202031464435203B46435F434B464E203B2020202020202020202030334632,
  0x4E4142525554204C414349444152204958474E414B202020202020206F532023202020202020202020202045464435203B46435F434B464E203B2020202020202020202031334632,
  0x595244204C414349444152204958474E414B202020202020206F532023202020202020202020202032374535203B46435F434B464E203B2020202020202020202032334632,
  0x4441455248542054524F4853204C414349444152204958474E414B202020202020206F532023202020202020202020202041374535203B46435F434B464E203B2020202020202020202033334632,
  0x4646494C4320444554544F44204C414349444152204958474E414B202020202020206F532023202020202020202020202046374535203B46435F434B464E203B2020202020202020202034334632,
  0x45444952545320474E4F4C204C414349444152204958474E414B202020202020206F532023202020202020202020202034464535203B46435F434B464E203B2020202020202020202035334632,
  0x53444E4148204F5754204C414349444152204958474E414B202020202020206F532023202020202020202020202045464535203B46435F434B464E203B2020202020202020202036334632,
  0x544F4F4853204C414349444152204958474E414B202020202020206F532023202020202020202020202042304635203B46435F434B464E203B2020202020202020202037334632,
  0x574F42204C414349444152204958474E414B202020202020206F532023202020202020202020202033314635203B46435F434B464E203B2020202020202020202038334632,
  0x54554F4E53204C414349444152204958474E414B202020202020206F532023202020202020202020202030354635203B46435F434B464E203B2020202020202020202039334632,
  0x454C5453495242204C414349444152204958474E414B202020202020206F532023202020202020202020202031364635203B46435F434B464E203B2020202020202020202041334632,
  0x50455453204C414349444152204958474E414B202020202020206F532023202020202020202020202033374635203B46435F434B464E203B2020202020202020202042334632,
  0x5452414548204C414349444152204958474E414B202020202020206F532023202020202020202020202033434635203B46435F434B464E203B2020202020202020202043334632,
  0x445245424C4148204C414349444152204958474E414B202020202020206F532023202020202020202020202038303236203B46435F434B464E203B2020202020202020202044334632,
  0x524F4F44204C414349444152204958474E414B202020202020206F532023202020202020202020202036333236203B46435F434B464E203B2020202020202020202045334632,
  0x444E4148204C414349444152204958474E414B202020202020206F532023202020202020202020202042343236203B46435F434B464E203B2020202020202020202046334632,
  0x48434E415242204C414349444152204958474E414B202020202020206F532023202020202020202020202046323536203B46435F434B464E203B2020202020202020202030344632,
  0x504152204C414349444152204958474E414B202020202020206F532023202020202020202020202034333536203B46435F434B464E203B2020202020202020202031344632,
  0x545049524353204C414349444152204958474E414B202020202020206F532023202020202020202020202037383536203B46435F434B464E203B2020202020202020202032344632,
  0x524550504944204C414349444152204958474E414B202020202020206F532023202020202020202020202037393536203B46435F434B464E203B2020202020202020202033344632,
  0x455841204C414349444152204958474E414B202020202020206F532023202020202020202020202034413536203B46435F434B464E203B2020202020202020202034344632,
  0x455241555153204C414349444152204958474E414B202020202020206F532023202020202020202020202039423536203B46435F434B464E203B2020202020202020202035344632,
  0x544F4E204C414349444152204958474E414B202020202020206F532023202020202020202020202030453536203B46435F434B464E203B2020202020202020202036344632,
  0x4E5553204C414349444152204958474E414B202020202020206F532023202020202020202020202035453536203B46435F434B464E203B2020202020202020202037344632,
  0x594153204C414349444152204958474E414B202020202020206F532023202020202020202020202030463636203B46435F434B464E203B2020202020202020202038344632,
  0x4E4F4F4D204C414349444152204958474E414B202020202020206F532023202020202020202020202038303736203B46435F434B464E203B2020202020202020202039344632,
  0x45455254204C414349444152204958474E414B202020202020206F532023202020202020202020202038323736203B46435F434B464E203B2020202020202020202041344632,
  0x4B43414C204C414349444152204958474E414B202020202020206F532023202020202020202020202030324236203B46435F434B464E203B2020202020202020202042344632,
  0x504F5453204C414349444152204958474E414B202020202020206F532023202020202020202020202032364236203B46435F434B464E203B2020202020202020202043344632,
  0x4854414544204C414349444152204958474E414B202020202020206F532023202020202020202020202039374236203B46435F434B464E203B2020202020202020202044344632,
  0x4E4F50414557204C414349444152204958474E414B202020202020206F532023202020202020202020202033424236203B46435F434B464E203B2020202020202020202045344632,
  0x544F4E204F44204C414349444152204958474E414B202020202020206F532023202020202020202020202042434236203B46435F434B464E203B2020202020202020202046344632,
  0x455241504D4F43204C414349444152204958474E414B202020202020206F532023202020202020202020202034444236203B46435F434B464E203B2020202020202020202030354632,
  0x525546204C414349444152204958474E414B202020202020206F532023202020202020202020202042444236203B46435F434B464E203B2020202020202020202031354632,
  0x4E414C43204C414349444152204958474E414B202020202020206F532023202020202020202020202046304336203B46435F434B464E203B2020202020202020202032354632,
  0x4D41455453204C414349444152204958474E414B202020202020206F532023202020202020202020202034314336203B46435F434B464E203B2020202020202020202033354632,
  0x5245544157204C414349444152204958474E414B202020202020206F532023202020202020202020202034334336203B46435F434B464E203B2020202020202020202034354632,
  0x45524946204C414349444152204958474E414B202020202020206F532023202020202020202020202042363037203B46435F434B464E203B2020202020202020202035354632,
  0x57414C43204C414349444152204958474E414B202020202020206F532023202020202020202020202041323237203B46435F434B464E203B2020202020202020202036354632,
  0x524548544146204C414349444152204958474E414B202020202020206F532023202020202020202020202036333237203B46435F434B464E203B2020202020202020202037354632,
  0x5820454C42554F44204C414349444152204958474E414B202020202020206F532023202020202020202020202042333237203B46435F434B464E203B2020202020202020202038354632,
  0x4B4E555254204545525420464C4148204C414349444152204958474E414B202020202020206F532023202020202020202020202046333237203B46435F434B464E203B2020202020202020202039354632,
  0x4543494C53204C414349444152204958474E414B202020202020206F532023202020202020202020202037343237203B46435F434B464E203B2020202020202020202041354632,
  0x474E4146204C414349444152204958474E414B202020202020206F532023202020202020202020202039353237203B46435F434B464E203B2020202020202020202042354632,
  0x574F43204C414349444152204958474E414B202020202020206F532023202020202020202020202042353237203B46435F434B464E203B2020202020202020202043354632,
  0x474F44204C414349444152204958474E414B202020202020206F532023202020202020202020202043413237203B46435F434B464E203B2020202020202020202044354632,
  0x444E554F464F5250204C414349444152204958474E414B202020202020206F532023202020202020202020202034383337203B46435F434B464E203B2020202020202020202045354632,
  0x4544414A204C414349444152204958474E414B202020202020206F532023202020202020202020202039383337203B46435F434B464E203B2020202020202020202046354632,
  0x4E4F4C454D204C414349444152204958474E414B202020202020206F532023202020202020202020202043443437203B46435F434B464E203B2020202020202020202030364632,
  0x454C4954204C414349444152204958474E414B202020202020206F532023202020202020202020202036453437203B46435F434B464E203B2020202020202020202031364632,
  0x5445455753204C414349444152204958474E414B202020202020206F532023202020202020202020202038313537203B46435F434B464E203B2020202020202020202032364632,
  0x4546494C204C414349444152204958474E414B202020202020206F532023202020202020202020202046313537203B46435F434B464E203B2020202020202020202033364632,
  0x455355204C414349444152204958474E414B202020202020206F532023202020202020202020202038323537203B46435F434B464E203B2020202020202020202034364632,
  0x444C454946204C414349444152204958474E414B202020202020206F532023202020202020202020202030333537203B46435F434B464E203B2020202020202020202035364632,
  0x48544F4C4320464F20544C4F42204C414349444152204958474E414B202020202020206F532023202020202020202020202042383537203B46435F434B464E203B2020202020202020202036364632,
  0x5353454E4B434953204C414349444152204958474E414B202020202020206F532023202020202020202020202032393537203B46435F434B464E203B2020202020202020202037364632,
  0x544E455420444554544F44204C414349444152204958474E414B202020202020206F532023202020202020202020202036373637203B46435F434B464E203B2020202020202020202038364632,
  0x4554494857204C414349444152204958474E414B202020202020206F532023202020202020202020202044373637203B46435F434B464E203B2020202020202020202039364632,
  0x4E494B53204C414349444152204958474E414B202020202020206F532023202020202020202020202045413637203B46435F434B464E203B2020202020202020202041364632]

def qcText18 : List Nat := [
  0x48534944204C414349444152204958474E414B202020202020206F532023202020202020202020202046423637203B46435F434B464E203B2020202020202020202042364632,
  0x455945204C414349444152204958474E414B202020202020206F532023202020202020202020202045453637203B46435F434B464E203B2020202020202020202043364632,
  0x5241455053204C414349444152204958474E414B202020202020206F532023202020202020202020202042443737203B46435F434B464E203B2020202020202020202044364632,
  0x574F525241204C414349444152204958474E414B202020202020206F532023202020202020202020202032453737203B46435F434B464E203B2020202020202020202045364632,
  0x454E4F5453204C414349444152204958474E414B202020202020206F532023202020202020202020202033463737203B46435F434B464E203B2020202020202020202046364632,
  0x544952495053204C414349444152204958474E414B202020202020206F532023202020202020202020202041333937203B46435F434B464E203B2020202020202020202030374632,
  0x4B43415254204C414349444152204958474E414B202020202020206F532023202020202020202020202038423937203B46435F434B464E203B2020202020202020202031374632,
  0x4E49415247204C414349444152204958474E414B202020202020206F532023202020202020202020202045423937203B46435F434B464E203B2020202020202020202032374632,
  0x45564143204C414349444152204958474E414B202020202020206F532023202020202020202020202034374137203B46435F434B464E203B2020202020202020202033374632,
  0x444E415453204C414349444152204958474E414B202020202020206F532023202020202020202020202042434137203B46435F434B464E203B2020202020202020202034374632,
  0x4F4F424D4142204C414349444152204958474E414B202020202020206F532023202020202020202020202039464137203B46435F434B464E203B2020202020202020202035374632,
  0x45434952204C414349444152204958474E414B202020202020206F532023202020202020202020202033374337203B46435F434B464E203B2020202020202020202036374632,
  0x4B4C4953204C414349444152204958474E414B202020202020206F532023202020202020202020202038464337203B46435F434B464E203B2020202020202020202037374632,
  0x52414A204C414349444152204958474E414B202020202020206F532023202020202020202020202036334637203B46435F434B464E203B2020202020202020202038374632,
  0x54454E204C414349444152204958474E414B202020202020206F532023202020202020202020202031354637203B46435F434B464E203B2020202020202020202039374632,
  0x5045454853204C414349444152204958474E414B202020202020206F532023202020202020202020202041384637203B46435F434B464E203B2020202020202020202041374632,
  0x52454854414546204C414349444152204958474E414B202020202020206F532023202020202020202020202044424637203B46435F434B464E203B2020202020202020202042374632,
  0x444C4F204C414349444152204958474E414B202020202020206F532023202020202020202020202031303038203B46435F434B464E203B2020202020202020202043374632,
  0x444E41204C414349444152204958474E414B202020202020206F532023202020202020202020202043303038203B46435F434B464E203B2020202020202020202044374632,
  0x574F4C50204C414349444152204958474E414B202020202020206F532023202020202020202020202032313038203B46435F434B464E203B2020202020202020202045374632,
  0x524145204C414349444152204958474E414B202020202020206F532023202020202020202020202033333038203B46435F434B464E203B2020202020202020202046374632,
  0x4853555242204C414349444152204958474E414B202020202020206F532023202020202020202020202046373038203B46435F434B464E203B2020202020202020202030384632,
  0x5441454D204C414349444152204958474E414B202020202020206F532023202020202020202020202039383038203B46435F434B464E203B2020202020202020202031384632,
  0x52455453494E494D204C414349444152204958474E414B202020202020206F532023202020202020202020202033453138203B46435F434B464E203B2020202020202020202032384632,
  0x464C4553204C414349444152204958474E414B202020202020206F532023202020202020202020202041453138203B46435F434B464E203B2020202020202020202033384632,
  0x455649525241204C414349444152204958474E414B202020202020206F532023202020202020202020202033463138203B46435F434B464E203B2020202020202020202034384632,
  0x524154524F4D204C414349444152204958474E414B202020202020206F532023202020202020202020202043463138203B46435F434B464E203B2020202020202020202035384632,
  0x4555474E4F54204C414349444152204958474E414B202020202020206F532023202020202020202020202043303238203B46435F434B464E203B2020202020202020202036384632,
  0x45534F50504F204C414349444152204958474E414B202020202020206F532023202020202020202020202042313238203B46435F434B464E203B2020202020202020202037384632,
  0x54414F42204C414349444152204958474E414B202020202020206F532023202020202020202020202046313238203B46435F434B464E203B2020202020202020202038384632,
  0x474E4950504F5453204C414349444152204958474E414B202020202020206F532023202020202020202020202045363238203B46435F434B464E203B2020202020202020202039384632,
  0x524F4C4F43204C414349444152204958474E414B202020202020206F532023202020202020202020202032373238203B46435F434B464E203B2020202020202020202041384632,
  0x5353415247204C414349444152204958474E414B202020202020206F532023202020202020202020202038373238203B46435F434B464E203B2020202020202020202042384632,
  0x5245474954204C414349444152204958474E414B202020202020206F532023202020202020202020202044343638203B46435F434B464E203B2020202020202020202043384632,
  0x544345534E49204C414349444152204958474E414B202020202020206F532023202020202020202020202042363638203B46435F434B464E203B2020202020202020202044384632,
  0x444F4F4C42204C414349444152204958474E414B202020202020206F532023202020202020202020202030343838203B46435F434B464E203B2020202020202020202045384632,
  0x455255534F4C434E45204B4C4157204C414349444152204958474E414B202020202020206F532023202020202020202020202043343838203B46435F434B464E203B2020202020202020202046384632,
  0x534548544F4C43204C414349444152204958474E414B202020202020206F532023202020202020202020202033363838203B46435F434B464E203B2020202020202020202030394632,
  0x54534557204C414349444152204958474E414B202020202020206F532023202020202020202020202045373938203B46435F434B464E203B2020202020202020202031394632,
  0x454553204C414349444152204958474E414B202020202020206F532023202020202020202020202042383938203B46435F434B464E203B2020202020202020202032394632,
  0x4E524F48204C414349444152204958474E414B202020202020206F532023202020202020202020202032443938203B46435F434B464E203B2020202020202020202033394632,
  0x484345455053204C414349444152204958474E414B202020202020206F532023202020202020202020202030304138203B46435F434B464E203B2020202020202020202034394632,
  0x59454C4C4156204C414349444152204958474E414B202020202020206F532023202020202020202020202037334338203B46435F434B464E203B2020202020202020202035394632,
  0x4E414542204C414349444152204958474E414B202020202020206F532023202020202020202020202036344338203B46435F434B464E203B2020202020202020202036394632,
  0x474950204C414349444152204958474E414B202020202020206F532023202020202020202020202035354338203B46435F434B464E203B2020202020202020202037394632,
  0x524547444142204C414349444152204958474E414B202020202020206F532023202020202020202020202038374338203B46435F434B464E203B2020202020202020202038394632,
  0x4C4C454853204C414349444152204958474E414B202020202020206F532023202020202020202020202044394338203B46435F434B464E203B2020202020202020202039394632,
  0x444552204C414349444152204958474E414B202020202020206F532023202020202020202020202034364438203B46435F434B464E203B2020202020202020202041394632,
  0x4E5552204C414349444152204958474E414B202020202020206F532023202020202020202020202030374438203B46435F434B464E203B2020202020202020202042394632,
  0x544F4F46204C414349444152204958474E414B202020202020206F532023202020202020202020202033424438203B46435F434B464E203B2020202020202020202043394632,
  0x59444F42204C414349444152204958474E414B202020202020206F532023202020202020202020202042414538203B46435F434B464E203B2020202020202020202044394632,
  0x54524143204C414349444152204958474E414B202020202020206F532023202020202020202020202041434538203B46435F434B464E203B2020202020202020202045394632,
  0x524554544942204C414349444152204958474E414B202020202020206F532023202020202020202020202042394638203B46435F434B464E203B2020202020202020202046394632,
  0x474E494E524F4D204C414349444152204958474E414B202020202020206F532023202020202020202020202030424638203B46435F434B464E203B2020202020202020202030414632,
  0x4B4C4157204C414349444152204958474E414B202020202020206F532023202020202020202020202035424638203B46435F434B464E203B2020202020202020202031414632,
  0x59544943204C414349444152204958474E414B202020202020206F532023202020202020202020202031393039203B46435F434B464E203B2020202020202020202032414632,
  0x454E4957204C414349444152204958474E414B202020202020206F532023202020202020202020202039343139203B46435F434B464E203B2020202020202020202033414632,
  0x48534955474E4954534944204C414349444152204958474E414B202020202020206F532023202020202020202020202036433139203B46435F434B464E203B2020202020202020202034414632,
  0x4547414C4C4956204C414349444152204958474E414B202020202020206F532023202020202020202020202043433139203B46435F434B464E203B2020202020202020202035414632,
  0x444C4F47204C414349444152204958474E414B202020202020206F532023202020202020202020202031443139203B46435F434B464E203B2020202020202020202036414632,
  0x474E4F4C204C414349444152204958474E414B202020202020206F532023202020202020202020202037373539203B46435F434B464E203B2020202020202020202037414632,
  0x45544147204C414349444152204958474E414B202020202020206F532023202020202020202020202030383539203B46435F434B464E203B2020202020202020202038414632,
  0x444E554F4D204C414349444152204958474E414B202020202020206F532023202020202020202020202043313639203B46435F434B464E203B2020202020202020202039414632,
  0x4556414C53204C414349444152204958474E414B202020202020206F532023202020202020202020202036423639203B46435F434B464E203B2020202020202020202041414632,
  0x445249422044454C4941542054524F4853204C414349444152204958474E414B202020202020206F532023202020202020202020202039423639203B46435F434B464E203B2020202020202020202042414632,
  0x4E494152204C414349444152204958474E414B202020202020206F532023202020202020202020202038453639203B46435F434B464E203B2020202020202020202043414632,
  0x45554C42204C414349444152204958474E414B202020202020206F532023202020202020202020202031353739203B46435F434B464E203B2020202020202020202044414632,
  0x474E4F5257204C414349444152204958474E414B202020202020206F532023202020202020202020202045353739203B46435F434B464E203B2020202020202020202045414632,
  0x45434146204C414349444152204958474E414B202020202020206F532023202020202020202020202032363739203B46435F434B464E203B2020202020202020202046414632,
  0x5245485441454C204C414349444152204958474E414B202020202020206F532023202020202020202020202039363739203B46435F434B464E203B2020202020202020202030424632,
  0x5245485441454C2044454E4E4154204C414349444152204958474E414B202020202020206F532023202020202020202020202042433739203B46435F434B464E203B2020202020202020202031424632,
  0x4B45454C204C414349444152204958474E414B202020202020206F532023202020202020202020202044453739203B46435F434B464E203B2020202020202020202032424632,
  0x444E554F53204C414349444152204958474E414B202020202020206F532023202020202020202020202033463739203B46435F434B464E203B2020202020202020202033424632,
  0x4641454C204C414349444152204958474E414B202020202020206F532023202020202020202020202031303839203B46435F434B464E203B2020202020202020202034424632,
  0x444E4957204C414349444152204958474E414B202020202020206F532023202020202020202020202038413839203B46435F434B464E203B2020202020202020202035424632,
  0x594C46204C414349444152204958474E414B202020202020206F532023202020202020202020202042443839203B46435F434B464E203B2020202020202020202036424632,
  0x544145204C414349444152204958474E414B202020202020206F532023202020202020202020202046443839203B46435F434B464E203B2020202020202020202037424632,
  0x44414548204C414349444152204958474E414B202020202020206F532023202020202020202020202036393939203B46435F434B464E203B2020202020202020202038424632,
  0x544E415247415246204C414349444152204958474E414B202020202020206F532023202020202020202020202039393939203B46435F434B464E203B2020202020202020202039424632,
  0x4553524F48204C414349444152204958474E414B202020202020206F532023202020202020202020202043413939203B46435F434B464E203B2020202020202020202041424632,
  0x454E4F42204C414349444152204958474E414B202020202020206F532023202020202020202020202038414139203B46435F434B464E203B2020202020202020202042424632,
  0x4C4C4154204C414349444152204958474E414B202020202020206F532023202020202020202020202038444139203B46435F434B464E203B2020202020202020202043424632,
  0x52494148204C414349444152204958474E414B202020202020206F532023202020202020202020202046444139203B46435F434B464E203B2020202020202020202044424632,
  0x5448474946204C414349444152204958474E414B202020202020206F532023202020202020202020202035324239203B46435F434B464E203B2020202020202020202045424632,
  0x454E4957204C41494349464952434153204C414349444152204958474E414B202020202020206F532023202020202020202020202046324239203B46435F434B464E203B2020202020202020202046424632,
  0x4E4F52444C554143204C414349444152204958474E414B202020202020206F532023202020202020202020202032334239203B46435F434B464E203B2020202020202020202030434632,
  0x54534F4847204C414349444152204958474E414B202020202020206F532023202020202020202020202043334239203B46435F434B464E203B2020202020202020202031434632,
  0x48534946204C414349444152204958474E414B202020202020206F532023202020202020202020202041354239203B46435F434B464E203B2020202020202020202032434632,
  0x44524942204C414349444152204958474E414B202020202020206F532023202020202020202020202035454339203B46435F434B464E203B2020202020202020202033434632,
  0x544C4153204C414349444152204958474E414B202020202020206F532023202020202020202020202035374539203B46435F434B464E203B2020202020202020202034434632,
  0x52454544204C414349444152204958474E414B202020202020206F532023202020202020202020202046374539203B46435F434B464E203B2020202020202020202035434632,
  0x5441454857204C414349444152204958474E414B202020202020206F532023202020202020202020202035414539203B46435F434B464E203B2020202020202020202036434632,
  0x504D4548204C414349444152204958474E414B202020202020206F532023202020202020202020202042424539203B46435F434B464E203B2020202020202020202037434632,
  0x574F4C4C4559204C414349444152204958474E414B202020202020206F532023202020202020202020202033434539203B46435F434B464E203B2020202020202020202038434632,
  0x54454C4C494D204C414349444152204958474E414B202020202020206F532023202020202020202020202044434539203B46435F434B464E203B2020202020202020202039434632,
  0x4B43414C42204C414349444152204958474E414B202020202020206F532023202020202020202020202031444539203B46435F434B464E203B2020202020202020202041434632,
  0x59524544494F52424D45204C414349444152204958474E414B202020202020206F532023202020202020202020202039464539203B46435F434B464E203B2020202020202020202042434632,
  0x474F5246204C414349444152204958474E414B202020202020206F532023202020202020202020202044464539203B46435F434B464E203B2020202020202020202043434632,
  0x444F50495254204C414349444152204958474E414B202020202020206F532023202020202020202020202045304639203B46435F434B464E203B2020202020202020202044434632,
  0x4D555244204C414349444152204958474E414B202020202020206F532023202020202020202020202033314639203B46435F434B464E203B2020202020202020202045434632,
  0x544152204C414349444152204958474E414B202020202020206F532023202020202020202020202030324639203B46435F434B464E203B2020202020202020202046434632,
  0x45534F4E204C414349444152204958474E414B202020202020206F532023202020202020202020202042334639203B46435F434B464E203B2020202020202020202030444632,
  0x4E455645204C414349444152204958474E414B202020202020206F532023202020202020202020202041344639203B46435F434B464E203B2020202020202020202031444632,
  0x48544F4F54204C414349444152204958474E414B202020202020206F532023202020202020202020202032354639203B46435F434B464E203B2020202020202020202032444632,
  0x4E4F47415244204C414349444152204958474E414B202020202020206F532023202020202020202020202044384639203B46435F434B464E203B2020202020202020202033444632,
  0x454C54525554204C414349444152204958474E414B202020202020206F532023202020202020202020202043394639203B46435F434B464E203B2020202020202020202034444632,
  0x4554554C46204C414349444152204958474E414B202020202020206F532023202020202020202020202030414639203B46435F434B464E203B2020202020202020202035444632,
  0x454341505320434948504152474F45444920202020202020735A2023202020202020202020202030323030203B46435F434B464E203B2020202020202020202030303033,
  0x4B52414D204C4154534F502044454C43524943202020202020206F532023202020202020202020202032313033203B46435F434B464E203B2020202020202020202036333033,
  0x4E4554204C4152454D554E20554F485A474E4148202020202020206C4E2023202020202020202020202031343335203B46435F434B464E203B2020202020202020202038333033,
  0x59544E455754204C4152454D554E20554F485A474E4148202020202020206C4E2023202020202020202020202034343335203B46435F434B464E203B2020202020202020202039333033,
  0x595452494854204C4152454D554E20554F485A474E4148202020202020206C4E2023202020202020202020202035343335203B46435F434B464E203B2020202020202020202041333033,
  0x4B52414D20444E554F5320444543494F5620414E4147415249482D414E414B4154414B202020202020206B532023202020202020393930332030323030203B46435F434B464E203B2020202020202020202042393033,
  0x4B52414D20444E554F5320444543494F562D494D455320414E4147415249482D414E414B4154414B202020202020206B532023202020202020413930332030323030203B46435F434B464E203B2020202020202020202043393033,
  0x49524F59204850415247494420414E414741524948202020202020206F4C2023202020202020413830332038383033203B46435F434B464E203B2020202020202020202046393033,
  0x4F544F4B204850415247494420414E414B4154414B202020202020206F4C2023202020202020384330332033423033203B46435F434B464E203B2020202020202020202046463033,
  0x4B4F4559494B2052455454454C204C55474E4148202020202020206F4C2023202020202020202020202030303131203B46435F434B464E203B2020202020202020202031333133,
  0x4B4F4559494B474E4153532052455454454C204C55474E4148202020202020206F4C2023202020202020202020202031303131203B46435F434B464E203B2020202020202020202032333133,
  0x534F49532D4B4F4559494B2052455454454C204C55474E4148202020202020206F4C2023202020202020202020202041413131203B46435F434B464E203B2020202020202020202033333133,
  0x4E5545494E2052455454454C204C55474E4148202020202020206F4C2023202020202020202020202032303131203B46435F434B464E203B2020202020202020202034333133,
  0x43554549432D4E5545494E2052455454454C204C55474E4148202020202020206F4C2023202020202020202020202043413131203B46435F434B464E203B2020202020202020202035333133,
  0x48554549482D4E5545494E2052455454454C204C55474E4148202020202020206F4C2023202020202020202020202044413131203B46435F434B464E203B2020202020202020202036333133,
  0x5455454B49542052455454454C204C55474E4148202020202020206F4C2023202020202020202020202033303131203B46435F434B464E203B2020202020202020202037333133,
  0x5455454B4954474E4153532052455454454C204C55474E4148202020202020206F4C2023202020202020202020202034303131203B46435F434B464E203B2020202020202020202038333133,
  0x4C554549522052455454454C204C55474E4148202020202020206F4C2023202020202020202020202035303131203B46435F434B464E203B2020202020202020202039333133,
  0x4B4F4559494B2D4C554549522052455454454C204C55474E4148202020202020206F4C2023202020202020202020202030423131203B46435F434B464E203B2020202020202020202041333133,
  0x4D5545494D2D4C554549522052455454454C204C55474E4148202020202020206F4C2023202020202020202020202031423131203B46435F434B464E203B2020202020202020202042333133,
  0x50554549502D4C554549522052455454454C204C55474E4148202020202020206F4C2023202020202020202020202032423131203B46435F434B464E203B2020202020202020202043333133,
  0x534F49532D4C554549522052455454454C204C55474E4148202020202020206F4C2023202020202020202020202033423131203B46435F434B464E203B2020202020202020202044333133,
  0x485455454948542D4C554549522052455454454C204C55474E4148202020202020206F4C2023202020202020202020202034423131203B46435F434B464E203B2020202020202020202045333133,
  0x485055454948502D4C554549522052455454454C204C55474E4148202020202020206F4C2023202020202020202020202035423131203B46435F434B464E203B2020202020202020202046333133,
  0x48554549482D4C554549522052455454454C204C55474E4148202020202020206F4C2023202020202020202020202041313131203B46435F434B464E203B2020202020202020202030343133,
  0x4D5545494D2052455454454C204C55474E4148202020202020206F4C2023202020202020202020202036303131203B46435F434B464E203B2020202020202020202031343133,
  0x50554549502052455454454C204C55474E4148202020202020206F4C2023202020202020202020202037303131203B46435F434B464E203B2020202020202020202032343133,
  0x5055454950474E4153532052455454454C204C55474E4148202020202020206F4C2023202020202020202020202038303131203B46435F434B464E203B2020202020202020202033343133,
  0x534F49532D50554549502052455454454C204C55474E4148202020202020206F4C2023202020202020202020202031323131203B46435F434B464E203B2020202020202020202034343133,
  0x534F49532052455454454C204C55474E4148202020202020206F4C2023202020202020202020202039303131203B46435F434B464E203B2020202020202020202035343133,
  0x534F4953474E4153532052455454454C204C55474E4148202020202020206F4C2023202020202020202020202041303131203B46435F434B464E203B2020202020202020202036343133,
  0x474E5545492052455454454C204C55474E4148202020202020206F4C2023202020202020202020202042303131203B46435F434B464E203B2020202020202020202037343133,
  0x43554549432052455454454C204C55474E4148202020202020206F4C2023202020202020202020202043303131203B46435F434B464E203B2020202020202020202038343133,
  0x4355454943474E4153532052455454454C204C55474E4148202020202020206F4C2023202020202020202020202044303131203B46435F434B464E203B2020202020202020202039343133,
  0x484355454948432052455454454C204C55474E4148202020202020206F4C2023202020202020202020202045303131203B46435F434B464E203B2020202020202020202041343133,
  0x484B554549484B2052455454454C204C55474E4148202020202020206F4C2023202020202020202020202046303131203B46435F434B464E203B2020202020202020202042343133,
  0x485455454948542052455454454C204C55474E4148202020202020206F4C2023202020202020202020202030313131203B46435F434B464E203B2020202020202020202043343133,
  0x485055454948502052455454454C204C55474E4148202020202020206F4C2023202020202020202020202031313131203B46435F434B464E203B2020202020202020202044343133,
  0x48554549482052455454454C204C55474E4148202020202020206F4C2023202020202020202020202032313131203B46435F434B464E203B2020202020202020202045343133,
  0x412052455454454C204C55474E4148202020202020206F4C2023202020202020202020202031363131203B46435F434B464E203B2020202020202020202046343133,
  0x45412052455454454C204C55474E4148202020202020206F4C2023202020202020202020202032363131203B46435F434B464E203B2020202020202020202030353133,
  0x41592052455454454C204C55474E4148202020202020206F4C2023202020202020202020202033363131203B46435F434B464E203B2020202020202020202031353133,
  0x4541592052455454454C204C55474E4148202020202020206F4C2023202020202020202020202034363131203B46435F434B464E203B2020202020202020202032353133,
  0x4F452052455454454C204C55474E4148202020202020206F4C2023202020202020202020202035363131203B46435F434B464E203B2020202020202020202033353133,
  0x452052455454454C204C55474E4148202020202020206F4C2023202020202020202020202036363131203B46435F434B464E203B2020202020202020202034353133,
  0x4F45592052455454454C204C55474E4148202020202020206F4C2023202020202020202020202037363131203B46435F434B464E203B2020202020202020202035353133,
  0x45592052455454454C204C55474E4148202020202020206F4C2023202020202020202020202038363131203B46435F434B464E203B2020202020202020202036353133,
  0x4F2052455454454C204C55474E4148202020202020206F4C2023202020202020202020202039363131203B46435F434B464E203B2020202020202020202037353133,
  0x41572052455454454C204C55474E4148202020202020206F4C2023202020202020202020202041363131203B46435F434B464E203B2020202020202020202038353133,
  0x4541572052455454454C204C55474E4148202020202020206F4C2023202020202020202020202042363131203B46435F434B464E203B2020202020202020202039353133,
  0x454F2052455454454C204C55474E4148202020202020206F4C2023202020202020202020202043363131203B46435F434B464E203B2020202020202020202041353133,
  0x4F592052455454454C204C55474E4148202020202020206F4C2023202020202020202020202044363131203B46435F434B464E203B2020202020202020202042353133,
  0x552052455454454C204C55474E4148202020202020206F4C2023202020202020202020202045363131203B46435F434B464E203B2020202020202020202043353133,
  0x4F45572052455454454C204C55474E4148202020202020206F4C2023202020202020202020202046363131203B46435F434B464E203B2020202020202020202044353133,
  0x45572052455454454C204C55474E4148202020202020206F4C2023202020202020202020202030373131203B46435F434B464E203B2020202020202020202045353133,
  0x49572052455454454C204C55474E4148202020202020206F4C2023202020202020202020202031373131203B46435F434B464E203B2020202020202020202046353133,
  0x55592052455454454C204C55474E4148202020202020206F4C2023202020202020202020202032373131203B46435F434B464E203B2020202020202020202030363133,
  0x55452052455454454C204C55474E4148202020202020206F4C2023202020202020202020202033373131203B46435F434B464E203B2020202020202020202031363133,
  0x49592052455454454C204C55474E4148202020202020206F4C2023202020202020202020202034373131203B46435F434B464E203B2020202020202020202032363133,
  0x492052455454454C204C55474E4148202020202020206F4C2023202020202020202020202035373131203B46435F434B464E203B2020202020202020202033363133,
  0x52454C4C4946204C55474E4148202020202020206F4C2023202020202020202020202020202020203B46435F434B464E203B2020202020202020202034363133,
  0x4E5545494E474E4153532052455454454C204C55474E4148202020202020206F4C2023202020202020202020202034313131203B46435F434B464E203B2020202020202020202035363133,
  0x5455454B49542D4E5545494E2052455454454C204C55474E4148202020202020206F4C2023202020202020202020202035313131203B46435F434B464E203B2020202020202020202036363133,
  0x534F49532D4E5545494E2052455454454C204C55474E4148202020202020206F4C2023202020202020202020202037433131203B46435F434B464E203B2020202020202020202037363133,
  0x534F49534E41502D4E5545494E2052455454454C204C55474E4148202020202020206F4C2023202020202020202020202038433131203B46435F434B464E203B2020202020202020202038363133,
  0x534F49532D4B4F4559494B2D4C554549522052455454454C204C55474E4148202020202020206F4C2023202020202020202020202043433131203B46435F434B464E203B2020202020202020202039363133,
  0x5455454B49542D4C554549522052455454454C204C55474E4148202020202020206F4C2023202020202020202020202045433131203B46435F434B464E203B2020202020202020202041363133,
  0x534F49532D50554549502D4C554549522052455454454C204C55474E4148202020202020206F4C2023202020202020202020202033443131203B46435F434B464E203B2020202020202020202042363133,
  0x534F49534E41502D4C554549522052455454454C204C55474E4148202020202020206F4C2023202020202020202020202037443131203B46435F434B464E203B2020202020202020202043363133,
  0x48554549484E49524F45592D4C554549522052455454454C204C55474E4148202020202020206F4C2023202020202020202020202039443131203B46435F434B464E203B2020202020202020202044363133,
  0x50554549502D4D5545494D2052455454454C204C55474E4148202020202020206F4C2023202020202020202020202043313131203B46435F434B464E203B2020202020202020202045363133,
  0x534F49532D4D5545494D2052455454454C204C55474E4148202020202020206F4C2023202020202020202020202044443131203B46435F434B464E203B2020202020202020202046363133,
  0x534F49534E41502D4D5545494D2052455454454C204C55474E4148202020202020206F4C2023202020202020202020202046443131203B46435F434B464E203B2020202020202020202030373133,
  0x4D5545494D4E554F455950414B2052455454454C204C55474E4148202020202020206F4C2023202020202020202020202044313131203B46435F434B464E203B2020202020202020202031373133,
  0x4B4F4559494B2D50554549502052455454454C204C55474E4148202020202020206F4C2023202020202020202020202045313131203B46435F434B464E203B2020202020202020202032373133,
  0x5455454B49542D50554549502052455454454C204C55474E4148202020202020206F4C2023202020202020202020202030323131203B46435F434B464E203B2020202020202020202033373133,
  0x4B4F4559494B2D534F49532D50554549502052455454454C204C55474E4148202020202020206F4C2023202020202020202020202032323131203B46435F434B464E203B2020202020202020202034373133,
  0x5455454B49542D534F49532D50554549502052455454454C204C55474E4148202020202020206F4C2023202020202020202020202033323131203B46435F434B464E203B2020202020202020202035373133,
  0x43554549432D50554549502052455454454C204C55474E4148202020202020206F4C2023202020202020202020202037323131203B46435F434B464E203B2020202020202020202036373133,
  0x485455454948542D50554549502052455454454C204C55474E4148202020202020206F4C2023202020202020202020202039323131203B46435F434B464E203B2020202020202020202037373133,
  0x50554549504E554F455950414B2052455454454C204C55474E4148202020202020206F4C2023202020202020202020202042323131203B46435F434B464E203B2020202020202020202038373133,
  0x5055454950474E4153534E554F455950414B2052455454454C204C55474E4148202020202020206F4C2023202020202020202020202043323131203B46435F434B464E203B2020202020202020202039373133,
  0x4B4F4559494B2D534F49532052455454454C204C55474E4148202020202020206F4C2023202020202020202020202044323131203B46435F434B464E203B2020202020202020202041373133,
  0x4E5545494E2D534F49532052455454454C204C55474E4148202020202020206F4C2023202020202020202020202045323131203B46435F434B464E203B2020202020202020202042373133,
  0x5455454B49542D534F49532052455454454C204C55474E4148202020202020206F4C2023202020202020202020202046323131203B46435F434B464E203B2020202020202020202043373133,
  0x50554549502D534F49532052455454454C204C55474E4148202020202020206F4C2023202020202020202020202032333131203B46435F434B464E203B2020202020202020202044373133,
  0x43554549432D534F49532052455454454C204C55474E4148202020202020206F4C2023202020202020202020202036333131203B46435F434B464E203B2020202020202020202045373133,
  0x534F49534E41502052455454454C204C55474E4148202020202020206F4C2023202020202020202020202030343131203B46435F434B464E203B2020202020202020202046373133,
  0x474E554549474E4153532052455454454C204C55474E4148202020202020206F4C2023202020202020202020202037343131203B46435F434B464E203B2020202020202020202030383133,
  0x474E5545495345592052455454454C204C55474E4148202020202020206F4C2023202020202020202020202043343131203B46435F434B464E203B2020202020202020202031383133,
  0x534F49532D474E5545495345592052455454454C204C55474E4148202020202020206F4C2023202020202020202020202031463131203B46435F434B464E203B2020202020202020202032383133,
  0x534F49534E41502D474E5545495345592052455454454C204C55474E4148202020202020206F4C2023202020202020202020202032463131203B46435F434B464E203B2020202020202020202033383133,
  0x485055454948504E554F455950414B2052455454454C204C55474E4148202020202020206F4C2023202020202020202020202037353131203B46435F434B464E203B2020202020202020202034383133,
  0x4855454948474E4153532052455454454C204C55474E4148202020202020206F4C2023202020202020202020202038353131203B46435F434B464E203B2020202020202020202035383133,
  0x48554549484E49524F45592052455454454C204C55474E4148202020202020206F4C2023202020202020202020202039353131203B46435F434B464E203B2020202020202020202036383133,
  0x41592D4F592052455454454C204C55474E4148202020202020206F4C2023202020202020202020202034383131203B46435F434B464E203B2020202020202020202037383133,
  0x4541592D4F592052455454454C204C55474E4148202020202020206F4C2023202020202020202020202035383131203B46435F434B464E203B2020202020202020202038383133,
  0x492D4F592052455454454C204C55474E4148202020202020206F4C2023202020202020202020202038383131203B46435F434B464E203B2020202020202020202039383133,
  0x4F45592D55592052455454454C204C55474E4148202020202020206F4C2023202020202020202020202031393131203B46435F434B464E203B2020202020202020202041383133,
  0x45592D55592052455454454C204C55474E4148202020202020206F4C2023202020202020202020202032393131203B46435F434B464E203B2020202020202020202042383133,
  0x492D55592052455454454C204C55474E4148202020202020206F4C2023202020202020202020202034393131203B46435F434B464E203B2020202020202020202043383133,
  0x41454152412052455454454C204C55474E4148202020202020206F4C2023202020202020202020202045393131203B46435F434B464E203B2020202020202020202044383133,
  0x4541454152412052455454454C204C55474E4148202020202020206F4C2023202020202020202020202031413131203B46435F434B464E203B2020202020202020202045383133,
  0x4B52414D20454E4F204E4F495441544F4E4E4120434948504152474F454449202020202020206F4E2023202020202020202020202030304534203B46435F434B464E203B2020202020202020202032393133,
  0x4B52414D204F5754204E4F495441544F4E4E4120434948504152474F454449202020202020206F4E2023202020202020202020202043384534203B46435F434B464E203B2020202020202020202033393133,
  0x4B52414D204545524854204E4F495441544F4E4E4120434948504152474F454449202020202020206F4E2023202020202020202020202039304534203B46435F434B464E203B2020202020202020202034393133,
  0x4B52414D2052554F46204E4F495441544F4E4E4120434948504152474F454449202020202020206F4E2023202020202020202020202042443635203B46435F434B464E203B2020202020202020202035393133,
  0x4B52414D20504F54204E4F495441544F4E4E4120434948504152474F454449202020202020206F532023202020202020202020202041304534203B46435F434B464E203B2020202020202020202036393133,
  0x4B52414D20454C4444494D204E4F495441544F4E4E4120434948504152474F454449202020202020206F532023202020202020202020202044324534203B46435F434B464E203B2020202020202020202037393133,
  0x4B52414D204D4F54544F42204E4F495441544F4E4E4120434948504152474F454449202020202020206F532023202020202020202020202042304534203B46435F434B464E203B2020202020202020202038393133,
  0x4B52414D205453524946204E4F495441544F4E4E4120434948504152474F454449202020202020206F532023202020202020202020202032333537203B46435F434B464E203B2020202020202020202039393133,
  0x4B52414D20444E4F434553204E4F495441544F4E4E4120434948504152474F454449202020202020206F532023202020202020202020202039354534203B46435F434B464E203B2020202020202020202041393133,
  0x4B52414D204452494854204E4F495441544F4E4E4120434948504152474F454449202020202020206F532023202020202020202020202039314534203B46435F434B464E203B2020202020202020202042393133,
  0x4B52414D20485452554F46204E4F495441544F4E4E4120434948504152474F454449202020202020206F532023202020202020202020202031304534203B46435F434B464E203B2020202020202020202043393133,
  0x4B52414D204E4556414548204E4F495441544F4E4E4120434948504152474F454449202020202020206F532023202020202020202020202039323935203B46435F434B464E203B2020202020202020202044393133,
  0x4B52414D204854524145204E4F495441544F4E4E4120434948504152474F454449202020202020206F532023202020202020202020202030333735203B46435F434B464E203B2020202020202020202045393133,
  0x4B52414D204E414D204E4F495441544F4E4E4120434948504152474F454449202020202020206F532023202020202020202020202041424534203B46435F434B464E203B2020202020202020202046393133,
  0x4B4F4559494B204C55474E41482044455A49534548544E45524150202020202020206F532023203932303020303031312038323030203B46435F434B464E203B2020202020202020202030303233,
  0x4E5545494E204C55474E41482044455A49534548544E45524150202020202020206F532023203932303020323031312038323030203B46435F434B464E203B2020202020202020202031303233,
  0x5455454B4954204C55474E41482044455A49534548544E45524150202020202020206F532023203932303020333031312038323030203B46435F434B464E203B2020202020202020202032303233,
  0x4C55454952204C55474E41482044455A49534548544E45524150202020202020206F532023203932303020353031312038323030203B46435F434B464E203B2020202020202020202033303233,
  0x4D5545494D204C55474E41482044455A49534548544E45524150202020202020206F532023203932303020363031312038323030203B46435F434B464E203B2020202020202020202034303233,
  0x5055454950204C55474E41482044455A49534548544E45524150202020202020206F532023203932303020373031312038323030203B46435F434B464E203B2020202020202020202035303233,
  0x534F4953204C55474E41482044455A49534548544E45524150202020202020206F532023203932303020393031312038323030203B46435F434B464E203B2020202020202020202036303233,
  0x474E554549204C55474E41482044455A49534548544E45524150202020202020206F532023203932303020423031312038323030203B46435F434B464E203B2020202020202020202037303233,
  0x4355454943204C55474E41482044455A49534548544E45524150202020202020206F532023203932303020433031312038323030203B46435F434B464E203B2020202020202020202038303233,
  0x48435545494843204C55474E41482044455A49534548544E45524150202020202020206F532023203932303020453031312038323030203B46435F434B464E203B2020202020202020202039303233,
  0x484B554549484B204C55474E41482044455A49534548544E45524150202020202020206F532023203932303020463031312038323030203B46435F434B464E203B2020202020202020202041303233,
  0x48545545494854204C55474E41482044455A49534548544E45524150202020202020206F532023203932303020303131312038323030203B46435F434B464E203B2020202020202020202042303233,
  0x48505545494850204C55474E41482044455A49534548544E45524150202020202020206F532023203932303020313131312038323030203B46435F434B464E203B2020202020202020202043303233,
  0x4855454948204C55474E41482044455A49534548544E45524150202020202020206F532023203932303020323131312038323030203B46435F434B464E203B2020202020202020202044303233,
  0x41204B4F4559494B204C55474E41482044455A49534548544E45524150202020202020206F532023203932303020303043412038323030203B46435F434B464E203B2020202020202020202045303233,
  0x41204E5545494E204C55474E41482044455A49534548544E45524150202020202020206F532023203932303020383930422038323030203B46435F434B464E203B2020202020202020202046303233,
  0x41205455454B4954204C55474E41482044455A49534548544E45524150202020202020206F532023203932303020344532422038323030203B46435F434B464E203B2020202020202020202030313233,
  0x41204C55454952204C55474E41482044455A49534548544E45524150202020202020206F532023203932303020433737422038323030203B46435F434B464E203B2020202020202020202031313233,
  0x41204D5545494D204C55474E41482044455A49534548544E45524150202020202020206F532023203932303020384339422038323030203B46435F434B464E203B2020202020202020202032313233,
  0x41205055454950204C55474E41482044455A49534548544E45524150202020202020206F532023203932303020343143422038323030203B46435F434B464E203B2020202020202020202033313233,
  0x4120534F4953204C55474E41482044455A49534548544E45524150202020202020206F532023203932303020434130432038323030203B46435F434B464E203B2020202020202020202034313233,
  0x4120474E554549204C55474E41482044455A49534548544E45524150202020202020206F532023203932303020343435432038323030203B46435F434B464E203B2020202020202020202035313233,
  0x41204355454943204C55474E41482044455A49534548544E45524150202020202020206F532023203932303020303937432038323030203B46435F434B464E203B2020202020202020202036313233,
  0x412048435545494843204C55474E41482044455A49534548544E45524150202020202020206F532023203932303020383243432038323030203B46435F434B464E203B2020202020202020202037313233,
  0x4120484B554549484B204C55474E41482044455A49534548544E45524150202020202020206F532023203932303020343745432038323030203B46435F434B464E203B2020202020202020202038313233,
  0x412048545545494854204C55474E41482044455A49534548544E45524150202020202020206F532023203932303020304330442038323030203B46435F434B464E203B2020202020202020202039313233]

def qcText19 : List Nat := [
  0x412048505545494850204C55474E41482044455A49534548544E45524150202020202020206F532023203932303020433033442038323030203B46435F434B464E203B2020202020202020202041313233,
  0x41204855454948204C55474E41482044455A49534548544E45524150202020202020206F532023203932303020383535442038323030203B46435F434B464E203B2020202020202020202042313233,
  0x55204355454943204C55474E41482044455A49534548544E45524150202020202020206F532023203932303020434638432038323030203B46435F434B464E203B2020202020202020202043313233,
  0x4E4F454A4F20524554434152414843204E4145524F4B2044455A49534548544E455241502020206F53232039323030203430384320343236432038323030203B46435F434B464E203B2020202020202020202044313233,
  0x5548204F20524554434152414843204E4145524F4B2044455A49534548544E455241502020206F53232039323030203443364420343236432038323030203B46435F434B464E203B2020202020202020202045313233,
  0x454E4F2048504152474F4544492044455A49534548544E45524150202020202020206F4E2023203932303020303045342038323030203B46435F434B464E203B2020202020202020202030323233,
  0x4F57542048504152474F4544492044455A49534548544E45524150202020202020206F4E2023203932303020433845342038323030203B46435F434B464E203B2020202020202020202031323233,
  0x45455248542048504152474F4544492044455A49534548544E45524150202020202020206F4E2023203932303020393045342038323030203B46435F434B464E203B2020202020202020202032323233,
  0x52554F462048504152474F4544492044455A49534548544E45524150202020202020206F4E2023203932303020424436352038323030203B46435F434B464E203B2020202020202020202033323233,
  0x455649462048504152474F4544492044455A49534548544E45524150202020202020206F4E2023203932303020343945342038323030203B46435F434B464E203B2020202020202020202034323233,
  0x5849532048504152474F4544492044455A49534548544E45524150202020202020206F4E2023203932303020443631352038323030203B46435F434B464E203B2020202020202020202035323233,
  0x4E455645532048504152474F4544492044455A49534548544E45524150202020202020206F4E2023203932303020333045342038323030203B46435F434B464E203B2020202020202020202036323233,
  0x54484749452048504152474F4544492044455A49534548544E45524150202020202020206F4E2023203932303020423631352038323030203B46435F434B464E203B2020202020202020202037323233,
  0x454E494E2048504152474F4544492044455A49534548544E45524150202020202020206F4E2023203932303020443545342038323030203B46435F434B464E203B2020202020202020202038323233,
  0x4E45542048504152474F4544492044455A49534548544E45524150202020202020206F4E2023203932303020313433352038323030203B46435F434B464E203B2020202020202020202039323233,
  0x4E4F4F4D2048504152474F4544492044455A49534548544E45524150202020202020206F532023203932303020383037362038323030203B46435F434B464E203B2020202020202020202041323233,
  0x455249462048504152474F4544492044455A49534548544E45524150202020202020206F532023203932303020423630372038323030203B46435F434B464E203B2020202020202020202042323233,
  0x52455441572048504152474F4544492044455A49534548544E45524150202020202020206F532023203932303020343343362038323030203B46435F434B464E203B2020202020202020202043323233,
  0x444F4F572048504152474F4544492044455A49534548544E45524150202020202020206F532023203932303020383237362038323030203B46435F434B464E203B2020202020202020202044323233,
  0x4C4154454D2048504152474F4544492044455A49534548544E45524150202020202020206F532023203932303020314431392038323030203B46435F434B464E203B2020202020202020202045323233,
  0x48545241452048504152474F4544492044455A49534548544E45524150202020202020206F532023203932303020463137352038323030203B46435F434B464E203B2020202020202020202046323233,
  0x4E55532048504152474F4544492044455A49534548544E45524150202020202020206F532023203932303020354535362038323030203B46435F434B464E203B2020202020202020202030333233,
  0x4B434F54532048504152474F4544492044455A49534548544E45524150202020202020206F532023203932303020413238362038323030203B46435F434B464E203B2020202020202020202031333233,
  0x455641482048504152474F4544492044455A49534548544E45524150202020202020206F532023203932303020393037362038323030203B46435F434B464E203B2020202020202020202032333233,
  0x59544549434F532048504152474F4544492044455A49534548544E45524150202020202020206F532023203932303020453339372038323030203B46435F434B464E203B2020202020202020202033333233,
  0x454D414E2048504152474F4544492044455A49534548544E45524150202020202020206F532023203932303020443034352038323030203B46435F434B464E203B2020202020202020202034333233,
  0x4C4149434550532048504152474F4544492044455A49534548544E45524150202020202020206F532023203932303020393732372038323030203B46435F434B464E203B2020202020202020202035333233,
  0x4C4149434E414E49462048504152474F4544492044455A49534548544E45524150202020202020206F532023203932303020314143382038323030203B46435F434B464E203B2020202020202020202036333233,
  0x4E4F4954414C55544152474E4F432048504152474F4544492044455A49534548544E45524150202020202020206F532023203932303020443539372038323030203B46435F434B464E203B2020202020202020202037333233,
  0x524F42414C2048504152474F4544492044455A49534548544E45524150202020202020206F532023203932303020344232352038323030203B46435F434B464E203B2020202020202020202038333233,
  0x544E455345525045522048504152474F4544492044455A49534548544E45524150202020202020206F532023203932303020334545342038323030203B46435F434B464E203B2020202020202020202039333233,
  0x4C4C41432048504152474F4544492044455A49534548544E45524150202020202020206F532023203932303020433734352038323030203B46435F434B464E203B2020202020202020202041333233,
  0x59445554532048504152474F4544492044455A49534548544E45524150202020202020206F532023203932303020363642352038323030203B46435F434B464E203B2020202020202020202042333233,
  0x4553495652455055532048504152474F4544492044455A49534548544E45524150202020202020206F532023203932303020334536372038323030203B46435F434B464E203B2020202020202020202043333233,
  0x45534952505245544E452048504152474F4544492044455A49534548544E45524150202020202020206F532023203932303020313046342038323030203B46435F434B464E203B2020202020202020202044333233,
  0x454352554F5345522048504152474F4544492044455A49534548544E45524150202020202020206F532023203932303020374343382038323030203B46435F434B464E203B2020202020202020202045333233,
  0x45434E41494C4C412048504152474F4544492044455A49534548544E45524150202020202020206F532023203932303020343533352038323030203B46435F434B464E203B2020202020202020202046333233,
  0x4C415649545345462048504152474F4544492044455A49534548544E45524150202020202020206F532023203932303020443639372038323030203B46435F434B464E203B2020202020202020202030343233,
  0x545345522048504152474F4544492044455A49534548544E45524150202020202020206F532023203932303020313146342038323030203B46435F434B464E203B2020202020202020202031343233,
  0x464C45532048504152474F4544492044455A49534548544E45524150202020202020206F532023203932303020414531382038323030203B46435F434B464E203B2020202020202020202032343233,
  0x48434145522048504152474F4544492044455A49534548544E45524150202020202020206F532023203932303020334631382038323030203B46435F434B464E203B2020202020202020202033343233,
  0x4E4F4954534555512048504152474F4544492044454C43524943202020202020206F532023202020202020202020202046343535203B46435F434B464E203B2020202020202020202034343233,
  0x4E45545241475245444E494B2048504152474F4544492044454C43524943202020202020206F532023202020202020202020202043374535203B46435F434B464E203B2020202020202020202035343233,
  0x4C4F4F4843532048504152474F4544492044454C43524943202020202020206F532023202020202020202020202037383536203B46435F434B464E203B2020202020202020202036343233,
  0x4F544F4B2048504152474F4544492044454C43524943202020202020206F532023202020202020202020202046384237203B46435F434B464E203B2020202020202020202037343233,
  0x4E474953205049485352454E54524150202020202020206F532023203536303020343730302030373030203B46435F434B464E203B2020202020202020202030353233,
  0x454E4F2059544E455754205245424D554E2044454C43524943202020202020206F4E2023202020202020313330302032333030203B46435F434B464E203B2020202020202020202031353233,
  0x4F57542059544E455754205245424D554E2044454C43524943202020202020206F4E2023202020202020323330302032333030203B46435F434B464E203B2020202020202020202032353233,
  0x45455248542059544E455754205245424D554E2044454C43524943202020202020206F4E2023202020202020333330302032333030203B46435F434B464E203B2020202020202020202033353233,
  0x52554F462059544E455754205245424D554E2044454C43524943202020202020206F4E2023202020202020343330302032333030203B46435F434B464E203B2020202020202020202034353233,
  0x455649462059544E455754205245424D554E2044454C43524943202020202020206F4E2023202020202020353330302032333030203B46435F434B464E203B2020202020202020202035353233,
  0x5849532059544E455754205245424D554E2044454C43524943202020202020206F4E2023202020202020363330302032333030203B46435F434B464E203B2020202020202020202036353233,
  0x4E455645532059544E455754205245424D554E2044454C43524943202020202020206F4E2023202020202020373330302032333030203B46435F434B464E203B2020202020202020202037353233,
  0x54484749452059544E455754205245424D554E2044454C43524943202020202020206F4E2023202020202020383330302032333030203B46435F434B464E203B2020202020202020202038353233,
  0x454E494E2059544E455754205245424D554E2044454C43524943202020202020206F4E2023202020202020393330302032333030203B46435F434B464E203B2020202020202020202039353233,
  0x595452494854205245424D554E2044454C43524943202020202020206F4E2023202020202020303330302033333030203B46435F434B464E203B2020202020202020202041353233,
  0x454E4F20595452494854205245424D554E2044454C43524943202020202020206F4E2023202020202020313330302033333030203B46435F434B464E203B2020202020202020202042353233,
  0x4F575420595452494854205245424D554E2044454C43524943202020202020206F4E2023202020202020323330302033333030203B46435F434B464E203B2020202020202020202043353233,
  0x454552485420595452494854205245424D554E2044454C43524943202020202020206F4E2023202020202020333330302033333030203B46435F434B464E203B2020202020202020202044353233,
  0x52554F4620595452494854205245424D554E2044454C43524943202020202020206F4E2023202020202020343330302033333030203B46435F434B464E203B2020202020202020202045353233,
  0x4556494620595452494854205245424D554E2044454C43524943202020202020206F4E2023202020202020353330302033333030203B46435F434B464E203B2020202020202020202046353233,
  0x4B4F4559494B204C55474E41482044454C43524943202020202020206F532023202020202020202020202030303131203B46435F434B464E203B2020202020202020202030363233,
  0x4E5545494E204C55474E41482044454C43524943202020202020206F532023202020202020202020202032303131203B46435F434B464E203B2020202020202020202031363233,
  0x5455454B4954204C55474E41482044454C43524943202020202020206F532023202020202020202020202033303131203B46435F434B464E203B2020202020202020202032363233,
  0x4C55454952204C55474E41482044454C43524943202020202020206F532023202020202020202020202035303131203B46435F434B464E203B2020202020202020202033363233,
  0x4D5545494D204C55474E41482044454C43524943202020202020206F532023202020202020202020202036303131203B46435F434B464E203B2020202020202020202034363233,
  0x5055454950204C55474E41482044454C43524943202020202020206F532023202020202020202020202037303131203B46435F434B464E203B2020202020202020202035363233,
  0x534F4953204C55474E41482044454C43524943202020202020206F532023202020202020202020202039303131203B46435F434B464E203B2020202020202020202036363233,
  0x474E554549204C55474E41482044454C43524943202020202020206F532023202020202020202020202042303131203B46435F434B464E203B2020202020202020202037363233,
  0x4355454943204C55474E41482044454C43524943202020202020206F532023202020202020202020202043303131203B46435F434B464E203B2020202020202020202038363233,
  0x48435545494843204C55474E41482044454C43524943202020202020206F532023202020202020202020202045303131203B46435F434B464E203B2020202020202020202039363233,
  0x484B554549484B204C55474E41482044454C43524943202020202020206F532023202020202020202020202046303131203B46435F434B464E203B2020202020202020202041363233,
  0x48545545494854204C55474E41482044454C43524943202020202020206F532023202020202020202020202030313131203B46435F434B464E203B2020202020202020202042363233,
  0x48505545494850204C55474E41482044454C43524943202020202020206F532023202020202020202020202031313131203B46435F434B464E203B2020202020202020202043363233,
  0x4855454948204C55474E41482044454C43524943202020202020206F532023202020202020202020202032313131203B46435F434B464E203B2020202020202020202044363233,
  0x41204B4F4559494B204C55474E41482044454C43524943202020202020206F532023202020202020202020202030304341203B46435F434B464E203B2020202020202020202045363233,
  0x41204E5545494E204C55474E41482044454C43524943202020202020206F532023202020202020202020202038393042203B46435F434B464E203B2020202020202020202046363233,
  0x41205455454B4954204C55474E41482044454C43524943202020202020206F532023202020202020202020202034453242203B46435F434B464E203B2020202020202020202030373233,
  0x41204C55454952204C55474E41482044454C43524943202020202020206F532023202020202020202020202043373742203B46435F434B464E203B2020202020202020202031373233,
  0x41204D5545494D204C55474E41482044454C43524943202020202020206F532023202020202020202020202038433942203B46435F434B464E203B2020202020202020202032373233,
  0x41205055454950204C55474E41482044454C43524943202020202020206F532023202020202020202020202034314342203B46435F434B464E203B2020202020202020202033373233,
  0x4120534F4953204C55474E41482044454C43524943202020202020206F532023202020202020202020202043413043203B46435F434B464E203B2020202020202020202034373233,
  0x4120474E554549204C55474E41482044454C43524943202020202020206F532023202020202020202020202034343543203B46435F434B464E203B2020202020202020202035373233,
  0x41204355454943204C55474E41482044454C43524943202020202020206F532023202020202020202020202030393743203B46435F434B464E203B2020202020202020202036373233,
  0x412048435545494843204C55474E41482044454C43524943202020202020206F532023202020202020202020202038324343203B46435F434B464E203B2020202020202020202037373233,
  0x4120484B554549484B204C55474E41482044454C43524943202020202020206F532023202020202020202020202034374543203B46435F434B464E203B2020202020202020202038373233,
  0x412048545545494854204C55474E41482044454C43524943202020202020206F532023202020202020202020202030433044203B46435F434B464E203B2020202020202020202039373233,
  0x412048505545494850204C55474E41482044454C43524943202020202020206F532023202020202020202020202043303344203B46435F434B464E203B2020202020202020202041373233,
  0x41204855454948204C55474E41482044454C43524943202020202020206F532023202020202020202020202038353544203B46435F434B464E203B2020202020202020202042373233,
  0x4F4B4D41484320524554434152414843204E4145524F4B2044454C43524943202020202020206F532023202020202020304543412038334343203B46435F434B464E203B2020202020202020202043373233,
  0x495545554A20524554434152414843204E4145524F4B2044454C43524943202020202020206F532023202020202020383537432043463843203B46435F434B464E203B2020202020202020202044373233,
  0x5520474E554549204C55474E41482044454C43524943202020202020206F532023202020202020202020202030423643203B46435F434B464E203B2020202020202020202045373233,
  0x454E4F2048504152474F4544492044454C43524943202020202020206F4E2023202020202020202020202030304534203B46435F434B464E203B2020202020202020202030383233,
  0x4F57542048504152474F4544492044454C43524943202020202020206F4E2023202020202020202020202043384534203B46435F434B464E203B2020202020202020202031383233,
  0x45455248542048504152474F4544492044454C43524943202020202020206F4E2023202020202020202020202039304534203B46435F434B464E203B2020202020202020202032383233,
  0x52554F462048504152474F4544492044454C43524943202020202020206F4E2023202020202020202020202042443635203B46435F434B464E203B2020202020202020202033383233,
  0x455649462048504152474F4544492044454C43524943202020202020206F4E2023202020202020202020202034394534203B46435F434B464E203B2020202020202020202034383233,
  0x5849532048504152474F4544492044454C43524943202020202020206F4E2023202020202020202020202044363135203B46435F434B464E203B2020202020202020202035383233,
  0x4E455645532048504152474F4544492044454C43524943202020202020206F4E2023202020202020202020202033304534203B46435F434B464E203B2020202020202020202036383233,
  0x54484749452048504152474F4544492044454C43524943202020202020206F4E2023202020202020202020202042363135203B46435F434B464E203B2020202020202020202037383233,
  0x454E494E2048504152474F4544492044454C43524943202020202020206F4E2023202020202020202020202044354534203B46435F434B464E203B2020202020202020202038383233,
  0x4E45542048504152474F4544492044454C43524943202020202020206F4E2023202020202020202020202031343335203B46435F434B464E203B2020202020202020202039383233,
  0x4E4F4F4D2048504152474F4544492044454C43524943202020202020206F532023202020202020202020202038303736203B46435F434B464E203B2020202020202020202041383233,
  0x455249462048504152474F4544492044454C43524943202020202020206F532023202020202020202020202042363037203B46435F434B464E203B2020202020202020202042383233,
  0x52455441572048504152474F4544492044454C43524943202020202020206F532023202020202020202020202034334336203B46435F434B464E203B2020202020202020202043383233,
  0x444F4F572048504152474F4544492044454C43524943202020202020206F532023202020202020202020202038323736203B46435F434B464E203B2020202020202020202044383233,
  0x4C4154454D2048504152474F4544492044454C43524943202020202020206F532023202020202020202020202031443139203B46435F434B464E203B2020202020202020202045383233,
  0x48545241452048504152474F4544492044454C43524943202020202020206F532023202020202020202020202046313735203B46435F434B464E203B2020202020202020202046383233,
  0x4E55532048504152474F4544492044454C43524943202020202020206F532023202020202020202020202035453536203B46435F434B464E203B2020202020202020202030393233,
  0x4B434F54532048504152474F4544492044454C43524943202020202020206F532023202020202020202020202041323836203B46435F434B464E203B2020202020202020202031393233,
  0x455641482048504152474F4544492044454C43524943202020202020206F532023202020202020202020202039303736203B46435F434B464E203B2020202020202020202032393233,
  0x59544549434F532048504152474F4544492044454C43524943202020202020206F532023202020202020202020202045333937203B46435F434B464E203B2020202020202020202033393233,
  0x454D414E2048504152474F4544492044454C43524943202020202020206F532023202020202020202020202044303435203B46435F434B464E203B2020202020202020202034393233,
  0x4C4149434550532048504152474F4544492044454C43524943202020202020206F532023202020202020202020202039373237203B46435F434B464E203B2020202020202020202035393233,
  0x4C4149434E414E49462048504152474F4544492044454C43524943202020202020206F532023202020202020202020202031414338203B46435F434B464E203B2020202020202020202036393233,
  0x4E4F4954414C55544152474E4F432048504152474F4544492044454C43524943202020202020206F532023202020202020202020202044353937203B46435F434B464E203B2020202020202020202037393233,
  0x524F42414C2048504152474F4544492044454C43524943202020202020206F532023202020202020202020202034423235203B46435F434B464E203B2020202020202020202038393233,
  0x5445524345532048504152474F4544492044454C43524943202020202020206F532023202020202020202020202038443937203B46435F434B464E203B2020202020202020202039393233,
  0x454C414D2048504152474F4544492044454C43524943202020202020206F532023202020202020202020202037333537203B46435F434B464E203B2020202020202020202041393233,
  0x454C414D45462048504152474F4544492044454C43524943202020202020206F532023202020202020202020202033373935203B46435F434B464E203B2020202020202020202042393233,
  0x454C4241544955532048504152474F4544492044454C43524943202020202020206F532023202020202020202020202039363039203B46435F434B464E203B2020202020202020202043393233,
  0x544E454C4C454358452048504152474F4544492044454C43524943202020202020206F532023202020202020202020202041323135203B46435F434B464E203B2020202020202020202044393233,
  0x544E4952502048504152474F4544492044454C43524943202020202020206F532023202020202020202020202030373335203B46435F434B464E203B2020202020202020202045393233,
  0x4E4F49544E455454412048504152474F4544492044454C43524943202020202020206F532023202020202020202020202038454336203B46435F434B464E203B2020202020202020202046393233,
  0x4D4554492048504152474F4544492044454C43524943202020202020206F532023202020202020202020202035303839203B46435F434B464E203B2020202020202020202030413233,
  0x545345522048504152474F4544492044454C43524943202020202020206F532023202020202020202020202031314634203B46435F434B464E203B2020202020202020202031413233,
  0x59504F432048504152474F4544492044454C43524943202020202020206F532023202020202020202020202039393135203B46435F434B464E203B2020202020202020202032413233,
  0x54434552524F432048504152474F4544492044454C43524943202020202020206F532023202020202020202020202033364236203B46435F434B464E203B2020202020202020202033413233,
  0x484749482048504152474F4544492044454C43524943202020202020206F532023202020202020202020202041304534203B46435F434B464E203B2020202020202020202034413233,
  0x4552544E45432048504152474F4544492044454C43524943202020202020206F532023202020202020202020202044324534203B46435F434B464E203B2020202020202020202035413233,
  0x574F4C2048504152474F4544492044454C43524943202020202020206F532023202020202020202020202042304534203B46435F434B464E203B2020202020202020202036413233,
  0x5446454C2048504152474F4544492044454C43524943202020202020206F532023202020202020202020202036454435203B46435F434B464E203B2020202020202020202037413233,
  0x54484749522048504152474F4544492044454C43524943202020202020206F532023202020202020202020202033463335203B46435F434B464E203B2020202020202020202038413233,
  0x454E49434944454D2048504152474F4544492044454C43524943202020202020206F532023202020202020202020202042333335203B46435F434B464E203B2020202020202020202039413233,
  0x4E4F4947494C45522048504152474F4544492044454C43524943202020202020206F532023202020202020202020202037394235203B46435F434B464E203B2020202020202020202041413233,
  0x59445554532048504152474F4544492044454C43524943202020202020206F532023202020202020202020202036364235203B46435F434B464E203B2020202020202020202042413233,
  0x4553495652455055532048504152474F4544492044454C43524943202020202020206F532023202020202020202020202033453637203B46435F434B464E203B2020202020202020202043413233,
  0x45534952505245544E452048504152474F4544492044454C43524943202020202020206F532023202020202020202020202031304634203B46435F434B464E203B2020202020202020202044413233,
  0x454352554F5345522048504152474F4544492044454C43524943202020202020206F532023202020202020202020202037434338203B46435F434B464E203B2020202020202020202045413233,
  0x45434E41494C4C412048504152474F4544492044454C43524943202020202020206F532023202020202020202020202034353335203B46435F434B464E203B2020202020202020202046413233,
  0x544847494E2048504152474F4544492044454C43524943202020202020206F532023202020202020202020202043313935203B46435F434B464E203B2020202020202020202030423233,
  0x58495320595452494854205245424D554E2044454C43524943202020202020206F4E2023202020202020363330302033333030203B46435F434B464E203B2020202020202020202031423233,
  0x4E4556455320595452494854205245424D554E2044454C43524943202020202020206F4E2023202020202020373330302033333030203B46435F434B464E203B2020202020202020202032423233,
  0x544847494520595452494854205245424D554E2044454C43524943202020202020206F4E2023202020202020383330302033333030203B46435F434B464E203B2020202020202020202033423233,
  0x454E494E20595452494854205245424D554E2044454C43524943202020202020206F4E2023202020202020393330302033333030203B46435F434B464E203B2020202020202020202034423233,
  0x5954524F46205245424D554E2044454C43524943202020202020206F4E2023202020202020303330302034333030203B46435F434B464E203B2020202020202020202035423233,
  0x454E4F205954524F46205245424D554E2044454C43524943202020202020206F4E2023202020202020313330302034333030203B46435F434B464E203B2020202020202020202036423233,
  0x4F5754205954524F46205245424D554E2044454C43524943202020202020206F4E2023202020202020323330302034333030203B46435F434B464E203B2020202020202020202037423233,
  0x4545524854205954524F46205245424D554E2044454C43524943202020202020206F4E2023202020202020333330302034333030203B46435F434B464E203B2020202020202020202038423233,
  0x52554F46205954524F46205245424D554E2044454C43524943202020202020206F4E2023202020202020343330302034333030203B46435F434B464E203B2020202020202020202039423233,
  0x45564946205954524F46205245424D554E2044454C43524943202020202020206F4E2023202020202020353330302034333030203B46435F434B464E203B2020202020202020202041423233,
  0x584953205954524F46205245424D554E2044454C43524943202020202020206F4E2023202020202020363330302034333030203B46435F434B464E203B2020202020202020202042423233,
  0x4E45564553205954524F46205245424D554E2044454C43524943202020202020206F4E2023202020202020373330302034333030203B46435F434B464E203B2020202020202020202043423233,
  0x5448474945205954524F46205245424D554E2044454C43524943202020202020206F4E2023202020202020383330302034333030203B46435F434B464E203B2020202020202020202044423233,
  0x454E494E205954524F46205245424D554E2044454C43524943202020202020206F4E2023202020202020393330302034333030203B46435F434B464E203B2020202020202020202045423233,
  0x5954464946205245424D554E2044454C43524943202020202020206F4E2023202020202020303330302035333030203B46435F434B464E203B2020202020202020202046423233,
  0x595241554E414A20524F46204C4F424D5953204850415247454C455420434948504152474F454449202020202020206F532023202020202020383037362031333030203B46435F434B464E203B2020202020202020202030433233,
  0x595241555242454620524F46204C4F424D5953204850415247454C455420434948504152474F454449202020202020206F532023202020202020383037362032333030203B46435F434B464E203B2020202020202020202031433233,
  0x484352414D20524F46204C4F424D5953204850415247454C455420434948504152474F454449202020202020206F532023202020202020383037362033333030203B46435F434B464E203B2020202020202020202032433233,
  0x4C4952504120524F46204C4F424D5953204850415247454C455420434948504152474F454449202020202020206F532023202020202020383037362034333030203B46435F434B464E203B2020202020202020202033433233,
  0x59414D20524F46204C4F424D5953204850415247454C455420434948504152474F454449202020202020206F532023202020202020383037362035333030203B46435F434B464E203B2020202020202020202034433233,
  0x454E554A20524F46204C4F424D5953204850415247454C455420434948504152474F454449202020202020206F532023202020202020383037362036333030203B46435F434B464E203B2020202020202020202035433233,
  0x594C554A20524F46204C4F424D5953204850415247454C455420434948504152474F454449202020202020206F532023202020202020383037362037333030203B46435F434B464E203B2020202020202020202036433233,
  0x54535547554120524F46204C4F424D5953204850415247454C455420434948504152474F454449202020202020206F532023202020202020383037362038333030203B46435F434B464E203B2020202020202020202037433233,
  0x5245424D455450455320524F46204C4F424D5953204850415247454C455420434948504152474F454449202020202020206F532023202020202020383037362039333030203B46435F434B464E203B2020202020202020202038433233,
  0x5245424F54434F20524F46204C4F424D5953204850415247454C455420434948504152474F454449202020202020206F532023203830373620303330302031333030203B46435F434B464E203B2020202020202020202039433233,
  0x5245424D45564F4E20524F46204C4F424D5953204850415247454C455420434948504152474F454449202020202020206F532023203830373620313330302031333030203B46435F434B464E203B2020202020202020202041433233,
  0x5245424D4543454420524F46204C4F424D5953204850415247454C455420434948504152474F454449202020202020206F532023203830373620323330302031333030203B46435F434B464E203B2020202020202020202042433233,
  0x474820455241555153202020202020206F532023202020202020373630302038363030203B46435F434B464E203B2020202020202020202043433233,
  0x47524520455241555153202020202020206F532023203736303020323730302035363030203B46435F434B464E203B2020202020202020202044433233,
  0x564520455241555153202020202020206F532023202020202020363730302035363030203B46435F434B464E203B2020202020202020202045433233,
  0x4E474953205954494C494241494C20444554494D494C202020202020206F532023203436303020343730302043363030203B46435F434B464E203B2020202020202020202046433233,
  0x4120414E414B4154414B2044454C43524943202020202020206F532023202020202020202020202032413033203B46435F434B464E203B2020202020202020202030443233,
  0x4920414E414B4154414B2044454C43524943202020202020206F532023202020202020202020202034413033203B46435F434B464E203B2020202020202020202031443233,
  0x5520414E414B4154414B2044454C43524943202020202020206F532023202020202020202020202036413033203B46435F434B464E203B2020202020202020202032443233,
  0x4520414E414B4154414B2044454C43524943202020202020206F532023202020202020202020202038413033203B46435F434B464E203B2020202020202020202033443233,
  0x4F20414E414B4154414B2044454C43524943202020202020206F532023202020202020202020202041413033203B46435F434B464E203B2020202020202020202034443233,
  0x414B20414E414B4154414B2044454C43524943202020202020206F532023202020202020202020202042413033203B46435F434B464E203B2020202020202020202035443233,
  0x494B20414E414B4154414B2044454C43524943202020202020206F532023202020202020202020202044413033203B46435F434B464E203B2020202020202020202036443233,
  0x554B20414E414B4154414B2044454C43524943202020202020206F532023202020202020202020202046413033203B46435F434B464E203B2020202020202020202037443233,
  0x454B20414E414B4154414B2044454C43524943202020202020206F532023202020202020202020202031423033203B46435F434B464E203B2020202020202020202038443233,
  0x4F4B20414E414B4154414B2044454C43524943202020202020206F532023202020202020202020202033423033203B46435F434B464E203B2020202020202020202039443233,
  0x415320414E414B4154414B2044454C43524943202020202020206F532023202020202020202020202035423033203B46435F434B464E203B2020202020202020202041443233,
  0x495320414E414B4154414B2044454C43524943202020202020206F532023202020202020202020202037423033203B46435F434B464E203B2020202020202020202042443233,
  0x555320414E414B4154414B2044454C43524943202020202020206F532023202020202020202020202039423033203B46435F434B464E203B2020202020202020202043443233,
  0x455320414E414B4154414B2044454C43524943202020202020206F532023202020202020202020202042423033203B46435F434B464E203B2020202020202020202044443233,
  0x4F5320414E414B4154414B2044454C43524943202020202020206F532023202020202020202020202044423033203B46435F434B464E203B2020202020202020202045443233,
  0x415420414E414B4154414B2044454C43524943202020202020206F532023202020202020202020202046423033203B46435F434B464E203B2020202020202020202046443233,
  0x495420414E414B4154414B2044454C43524943202020202020206F532023202020202020202020202031433033203B46435F434B464E203B2020202020202020202030453233,
  0x555420414E414B4154414B2044454C43524943202020202020206F532023202020202020202020202034433033203B46435F434B464E203B2020202020202020202031453233,
  0x455420414E414B4154414B2044454C43524943202020202020206F532023202020202020202020202036433033203B46435F434B464E203B2020202020202020202032453233,
  0x4F5420414E414B4154414B2044454C43524943202020202020206F532023202020202020202020202038433033203B46435F434B464E203B2020202020202020202033453233,
  0x414E20414E414B4154414B2044454C43524943202020202020206F532023202020202020202020202041433033203B46435F434B464E203B2020202020202020202034453233,
  0x494E20414E414B4154414B2044454C43524943202020202020206F532023202020202020202020202042433033203B46435F434B464E203B2020202020202020202035453233,
  0x554E20414E414B4154414B2044454C43524943202020202020206F532023202020202020202020202043433033203B46435F434B464E203B2020202020202020202036453233,
  0x454E20414E414B4154414B2044454C43524943202020202020206F532023202020202020202020202044433033203B46435F434B464E203B2020202020202020202037453233,
  0x4F4E20414E414B4154414B2044454C43524943202020202020206F532023202020202020202020202045433033203B46435F434B464E203B2020202020202020202038453233,
  0x414820414E414B4154414B2044454C43524943202020202020206F532023202020202020202020202046433033203B46435F434B464E203B2020202020202020202039453233,
  0x494820414E414B4154414B2044454C43524943202020202020206F532023202020202020202020202032443033203B46435F434B464E203B2020202020202020202041453233,
  0x554820414E414B4154414B2044454C43524943202020202020206F532023202020202020202020202035443033203B46435F434B464E203B2020202020202020202042453233,
  0x454820414E414B4154414B2044454C43524943202020202020206F532023202020202020202020202038443033203B46435F434B464E203B2020202020202020202043453233,
  0x4F4820414E414B4154414B2044454C43524943202020202020206F532023202020202020202020202042443033203B46435F434B464E203B2020202020202020202044453233,
  0x414D20414E414B4154414B2044454C43524943202020202020206F532023202020202020202020202045443033203B46435F434B464E203B2020202020202020202045453233,
  0x494D20414E414B4154414B2044454C43524943202020202020206F532023202020202020202020202046443033203B46435F434B464E203B2020202020202020202046453233,
  0x554D20414E414B4154414B2044454C43524943202020202020206F532023202020202020202020202030453033203B46435F434B464E203B2020202020202020202030463233,
  0x454D20414E414B4154414B2044454C43524943202020202020206F532023202020202020202020202031453033203B46435F434B464E203B2020202020202020202031463233,
  0x4F4D20414E414B4154414B2044454C43524943202020202020206F532023202020202020202020202032453033203B46435F434B464E203B2020202020202020202032463233,
  0x415920414E414B4154414B2044454C43524943202020202020206F532023202020202020202020202034453033203B46435F434B464E203B2020202020202020202033463233,
  0x555920414E414B4154414B2044454C43524943202020202020206F532023202020202020202020202036453033203B46435F434B464E203B2020202020202020202034463233,
  0x4F5920414E414B4154414B2044454C43524943202020202020206F532023202020202020202020202038453033203B46435F434B464E203B2020202020202020202035463233,
  0x415220414E414B4154414B2044454C43524943202020202020206F532023202020202020202020202039453033203B46435F434B464E203B2020202020202020202036463233,
  0x495220414E414B4154414B2044454C43524943202020202020206F532023202020202020202020202041453033203B46435F434B464E203B2020202020202020202037463233,
  0x555220414E414B4154414B2044454C43524943202020202020206F532023202020202020202020202042453033203B46435F434B464E203B2020202020202020202038463233,
  0x455220414E414B4154414B2044454C43524943202020202020206F532023202020202020202020202043453033203B46435F434B464E203B2020202020202020202039463233,
  0x4F5220414E414B4154414B2044454C43524943202020202020206F532023202020202020202020202044453033203B46435F434B464E203B2020202020202020202041463233,
  0x415720414E414B4154414B2044454C43524943202020202020206F532023202020202020202020202046453033203B46435F434B464E203B2020202020202020202042463233,
  0x495720414E414B4154414B2044454C43524943202020202020206F532023202020202020202020202030463033203B46435F434B464E203B2020202020202020202043463233,
  0x455720414E414B4154414B2044454C43524943202020202020206F532023202020202020202020202031463033203B46435F434B464E203B2020202020202020202044463233,
  0x4F5720414E414B4154414B2044454C43524943202020202020206F532023202020202020202020202032463033203B46435F434B464E203B2020202020202020202045463233,
  0x415749455220454D414E2041524520455241555153202020202020206F532023202020202020433834352034454534203B46435F434B464E203B2020202020202020202046463233,
  0x4F5441415041204552415551532020206F53232038433033204346303320314430332032413033203B46435F434B464E203B2020202020202020202030303333,
  0x415548555241204552415551532020206F53232031413033203544303320424530332032413033203B46435F434B464E203B2020202020202020202031303333,
  0x4145504E41204552415551532020206F53232032413033204144303320334630332032413033203B46435F434B464E203B2020202020202020202032303333,
  0x5552414120455241555153202020202020206F532023204245303320434630332032413033203B46435F434B464E203B2020202020202020202033303333,
  0x55474E494E49204552415551532020206F53232030423033203346303320424330332034413033203B46435F434B464E203B2020202020202020202034303333,
  0x49544E4920455241555153202020202020206F532023203143303320334630332034413033203B46435F434B464E203B2020202020202020202035303333,
  0x4E4F5520455241555153202020202020206F532023203346303320394130332036413033203B46435F434B464E203B2020202020202020202036303333,
  0x4F4455554B55534520455241555153206F532320394330332043463033204641303320394230332038413033203B46435F434B464E203B2020202020202020202037303333,
  0x41414B4545204552415551532020206F53232043463033204241303320434630332038413033203B46435F434B464E203B2020202020202020202038303333,
  0x55534E4F20455241555153202020202020206F532023203942303320334630332041413033203B46435F434B464E203B2020202020202020202039303333,
  0x554D4F4F20455241555153202020202020206F532023203045303320434630332041413033203B46435F434B464E203B2020202020202020202041303333,
  0x495249414B20455241555153202020202020206F532023204145303320344130332042413033203B46435F434B464E203B2020202020202020202042303333,
  0x4F54544152414B204552415551532020206F53232038433033203343303320394530332042413033203B46435F434B464E203B2020202020202020202043303333,
  0x4949524F52414B204552415551532020206F53232043463033204145303320444530332042413033203B46435F434B464E203B2020202020202020202044303333,
  0x4E4F52414720455241555153202020202020206F532023203346303320444530332043413033203B46435F434B464E203B2020202020202020202045303333,
  0x414D4E414720455241555153202020202020206F532023204544303320334630332043413033203B46435F434B464E203B2020202020202020202046303333,
  0x4147494720455241555153202020202020206F532023202020202020434130332045413033203B46435F434B464E203B2020202020202020202030313333,
  0x49494E494720455241555153202020202020206F532023204346303320424330332045413033203B46435F434B464E203B2020202020202020202031313333,
  0x49495255594B204552415551532020206F53232043463033204145303320354530332044413033203B46435F434B464E203B2020202020202020202032313333,
  0x41414455524947204552415551532020206F53232043463033203043303320424530332045413033203B46435F434B464E203B2020202020202020202033313333,
  0x4F52494B20455241555153202020202020206F532023202020202020444530332044413033203B46435F434B464E203B2020202020202020202034313333,
  0x554D415255474F52494B20455241555153206F532320304530332039453033203042303320444530332044413033203B46435F434B464E203B2020202020202020202035313333,
  0x55524F5445454D4F52494B20455241555153206F5323204245303320384330332043463033203145303320444530332044413033203B46435F434B464E203B2020202020202020202036313333,
  0x4F545441574F52494B20455241555153206F532320384330332033433033204645303320444530332044413033203B46435F434B464E203B2020202020202020202037313333,
  0x554D4152554720455241555153202020202020206F532023203045303320394530332030423033203B46435F434B464E203B2020202020202020202038313333,
  0x4E4F54554D4152554720455241555153206F532320334630332038433033203045303320394530332030423033203B46435F434B464E203B2020202020202020202039313333,
  0x4F5249455A5552554B20455241555153206F532320444530332034413033204342303320424530332046413033203B46435F434B464E203B2020202020202020202041313333,
  0x454E4F4F52554B204552415551532020206F53232044433033204346303320444530332046413033203B46435F434B464E203B2020202020202020202042313333,
  0x555345454B20455241555153202020202020206F532023203942303320434630332031423033203B46435F434B464E203B2020202020202020202043313333,
  0x414E55524F4B20455241555153202020202020206F532023204143303320424530332033423033203B46435F434B464E203B2020202020202020202044313333]

def qcText20 : List Nat := [
  0x4F504F4F4B20455241555153202020202020206F532023204444303320434630332033423033203B46435F434B464E203B2020202020202020202045313333,
  0x5552554B494153204552415551532020206F53232042453033204641303320344130332035423033203B46435F434B464E203B2020202020202020202046313333,
  0x554D4949544E415320455241555153206F532320304530332043463033203143303320334630332035423033203B46435F434B464E203B2020202020202020202030323333,
  0x55474E49524953204552415551532020206F53232030423033203346303320414530332037423033203B46435F434B464E203B2020202020202020202031323333,
  0x49544E455320455241555153202020202020206F532023203143303320334630332042423033203B46435F434B464E203B2020202020202020202032323333,
  0x4F544E455320455241555153202020202020206F532023203843303320334630332042423033203B46435F434B464E203B2020202020202020202033323333,
  0x555341414420455241555153202020202020206F532023203942303320434630332030433033203B46435F434B464E203B2020202020202020202034323333,
  0x4953454420455241555153202020202020206F532023202020202020374230332037433033203B46435F434B464E203B2020202020202020202035323333,
  0x55524F4420455241555153202020202020206F532023202020202020424530332039433033203B46435F434B464E203B2020202020202020202036323333,
  0x4E4F5420455241555153202020202020206F532023202020202020334630332038433033203B46435F434B464E203B2020202020202020202037323333,
  0x4F4E414E20455241555153202020202020206F532023202020202020454330332041433033203B46435F434B464E203B2020202020202020202038323333,
  0x4F54544F4E20455241555153202020202020206F532023203843303320334330332045433033203B46435F434B464E203B2020202020202020202039323333,
  0x555449414820455241555153202020202020206F532023203443303320344130332046433033203B46435F434B464E203B2020202020202020202041323333,
  0x4F544E455341415020455241555153206F532320384330332033463033204242303320434630332031443033203B46435F434B464E203B2020202020202020202042323333,
  0x555441415020455241555153202020202020206F532023203443303320434630332031443033203B46435F434B464E203B2020202020202020202043323333,
  0x55524552414142204552415551532020206F53232042453033204345303320434630332030443033203B46435F434B464E203B2020202020202020202044323333,
  0x55524F54555341495020455241555153206F532320424530332038433033203942303320324130332034443033203B46435F434B464E203B2020202020202020202045323333,
  0x5552554B495020455241555153202020202020206F532023204245303320464130332034443033203B46435F434B464E203B2020202020202020202046323333,
  0x4F4B495020455241555153202020202020206F532023202020202020334230332034443033203B46435F434B464E203B2020202020202020202030333333,
  0x5552494220455241555153202020202020206F532023202020202020424530332033443033203B46435F434B464E203B2020202020202020202031333333,
  0x4F4444415241554820455241555153206F532320394330332033433033203945303320314130332035443033203B46435F434B464E203B2020202020202020202032333333,
  0x4F5449495548204552415551532020206F53232038433033204346303320334130332035443033203B46435F434B464E203B2020202020202020202033333333,
  0x555245595353554220455241555153206F532320424530332037413033203742303320334330332036443033203B46435F434B464E203B2020202020202020202034333333,
  0x4E4152554820455241555153202020202020206F532023203346303320394530332035443033203B46435F434B464E203B2020202020202020202035333333,
  0x5552414154554B454820455241555153206F532320424530332043463033204642303320464130332038443033203B46435F434B464E203B2020202020202020202036333333,
  0x4F53455020455241555153202020202020206F532023202020202020444230332041443033203B46435F434B464E203B2020202020202020202037333333,
  0x4948494E455020455241555153202020202020206F532023203244303320424330332041443033203B46435F434B464E203B2020202020202020202038333333,
  0x55545552454820455241555153202020202020206F532023203443303320424530332038443033203B46435F434B464E203B2020202020202020202039333333,
  0x55534E455020455241555153202020202020206F532023203942303320334630332041443033203B46435F434B464E203B2020202020202020202041333333,
  0x495A45455020455241555153202020202020206F532023203842303320434630332041443033203B46435F434B464E203B2020202020202020202042333333,
  0x415445454220455241555153202020202020206F532023204642303320434630332039443033203B46435F434B464E203B2020202020202020202043333333,
  0x4F544E494F50204552415551532020206F53232038433033203346303320344130332044443033203B46435F434B464E203B2020202020202020202044333333,
  0x4F5455524F4220455241555153202020202020206F532023203843303320424530332043443033203B46435F434B464E203B2020202020202020202045333333,
  0x4E4F4820455241555153202020202020206F532023202020202020334630332042443033203B46435F434B464E203B2020202020202020202046333333,
  0x4F444E4F5020455241555153202020202020206F532023203943303320334630332044443033203B46435F434B464E203B2020202020202020202030343333,
  0x55524F4F4820455241555153202020202020206F532023204245303320434630332042443033203B46435F434B464E203B2020202020202020202031343333,
  0x4E4F4F4820455241555153202020202020206F532023203346303320434630332042443033203B46435F434B464E203B2020202020202020202032343333,
  0x4F52554B49414D204552415551532020206F53232044453033204641303320344130332045443033203B46435F434B464E203B2020202020202020202033343333,
  0x555249414D20455241555153202020202020206F532023204245303320344130332045443033203B46435F434B464E203B2020202020202020202034343333,
  0x414848414D20455241555153202020202020206F532023204643303320334330332045443033203B46435F434B464E203B2020202020202020202035343333,
  0x554B5552414D20455241555153202020202020206F532023204641303320424530332045443033203B46435F434B464E203B2020202020202020202036343333,
  0x4E4F59534E414D20455241555153206F532320334630332037453033203742303320334630332045443033203B46435F434B464E203B2020202020202020202037343333,
  0x4E4F52554B494D204552415551532020206F53232033463033204445303320464130332046443033203B46435F434B464E203B2020202020202020202038343333,
  0x4952494D20455241555153202020202020206F532023202020202020414530332046443033203B46435F434B464E203B2020202020202020202039343333,
  0x55524141424952494D20455241555153206F532320424530332043463033203044303320414530332046443033203B46435F434B464E203B2020202020202020202041343333,
  0x4147454D20455241555153202020202020206F532023202020202020434130332031453033203B46435F434B464E203B2020202020202020202042343333,
  0x4E4F544147454D204552415551532020206F53232033463033203843303320434130332031453033203B46435F434B464E203B2020202020202020202043343333,
  0x55524F5445454D204552415551532020206F53232042453033203843303320434630332031453033203B46435F434B464E203B2020202020202020202044343333,
  0x4F4441415920455241555153202020202020206F532023203943303320434630332034453033203B46435F434B464E203B2020202020202020202045343333,
  0x555241415920455241555153202020202020206F532023204245303320434630332034453033203B46435F434B464E203B2020202020202020202046343333,
  0x4E41555920455241555153202020202020206F532023203346303320324130332036453033203B46435F434B464E203B2020202020202020202030353333,
  0x55524F54544952204552415551532020206F53232042453033203843303320334330332041453033203B46435F434B464E203B2020202020202020202031353333,
  0x4152495220455241555153202020202020206F532023202020202020394530332041453033203B46435F434B464E203B2020202020202020202032353333,
  0x494950555220455241555153202020202020206F532023204346303320344430332042453033203B46435F434B464E203B2020202020202020202033353333,
  0x55525542555552204552415551532020206F53232042453033203644303320434630332042453033203B46435F434B464E203B2020202020202020202034353333,
  0x554D455220455241555153202020202020206F532023202020202020304530332043453033203B46435F434B464E203B2020202020202020202035353333,
  0x4E45474F544E455220455241555153206F532320334630332032423033203843303320334630332043453033203B46435F434B464E203B2020202020202020202036353333,
  0x4F5454415720455241555153202020202020206F532023203843303320334330332046453033203B46435F434B464E203B2020202020202020202037353333,
  0x4F52455A2052554F4820524F46204C4F424D5953204850415247454C455420434948504152474F454449202020202020206F532023202020202020394230372030333030203B46435F434B464E203B2020202020202020202038353333,
  0x454E4F2052554F4820524F46204C4F424D5953204850415247454C455420434948504152474F454449202020202020206F532023202020202020394230372031333030203B46435F434B464E203B2020202020202020202039353333,
  0x4F57542052554F4820524F46204C4F424D5953204850415247454C455420434948504152474F454449202020202020206F532023202020202020394230372032333030203B46435F434B464E203B2020202020202020202041353333,
  0x45455248542052554F4820524F46204C4F424D5953204850415247454C455420434948504152474F454449202020202020206F532023202020202020394230372033333030203B46435F434B464E203B2020202020202020202042353333,
  0x52554F462052554F4820524F46204C4F424D5953204850415247454C455420434948504152474F454449202020202020206F532023202020202020394230372034333030203B46435F434B464E203B2020202020202020202043353333,
  0x455649462052554F4820524F46204C4F424D5953204850415247454C455420434948504152474F454449202020202020206F532023202020202020394230372035333030203B46435F434B464E203B2020202020202020202044353333,
  0x5849532052554F4820524F46204C4F424D5953204850415247454C455420434948504152474F454449202020202020206F532023202020202020394230372036333030203B46435F434B464E203B2020202020202020202045353333,
  0x4E455645532052554F4820524F46204C4F424D5953204850415247454C455420434948504152474F454449202020202020206F532023202020202020394230372037333030203B46435F434B464E203B2020202020202020202046353333,
  0x54484749452052554F4820524F46204C4F424D5953204850415247454C455420434948504152474F454449202020202020206F532023202020202020394230372038333030203B46435F434B464E203B2020202020202020202030363333,
  0x454E494E2052554F4820524F46204C4F424D5953204850415247454C455420434948504152474F454449202020202020206F532023202020202020394230372039333030203B46435F434B464E203B2020202020202020202031363333,
  0x4E45542052554F4820524F46204C4F424D5953204850415247454C455420434948504152474F454449202020202020206F532023203942303720303330302031333030203B46435F434B464E203B2020202020202020202032363333,
  0x4E4556454C452052554F4820524F46204C4F424D5953204850415247454C455420434948504152474F454449202020202020206F532023203942303720313330302031333030203B46435F434B464E203B2020202020202020202033363333,
  0x45564C4557542052554F4820524F46204C4F424D5953204850415247454C455420434948504152474F454449202020202020206F532023203942303720323330302031333030203B46435F434B464E203B2020202020202020202034363333,
  0x4E454554524948542052554F4820524F46204C4F424D5953204850415247454C455420434948504152474F454449202020202020206F532023203942303720333330302031333030203B46435F434B464E203B2020202020202020202035363333,
  0x4E45455452554F462052554F4820524F46204C4F424D5953204850415247454C455420434948504152474F454449202020202020206F532023203942303720343330302031333030203B46435F434B464E203B2020202020202020202036363333,
  0x4E4545544649462052554F4820524F46204C4F424D5953204850415247454C455420434948504152474F454449202020202020206F532023203942303720353330302031333030203B46435F434B464E203B2020202020202020202037363333,
  0x4E4545545849532052554F4820524F46204C4F424D5953204850415247454C455420434948504152474F454449202020202020206F532023203942303720363330302031333030203B46435F434B464E203B2020202020202020202038363333,
  0x4E4545544E455645532052554F4820524F46204C4F424D5953204850415247454C455420434948504152474F454449202020202020206F532023203942303720373330302031333030203B46435F434B464E203B2020202020202020202039363333,
  0x4E454554484749452052554F4820524F46204C4F424D5953204850415247454C455420434948504152474F454449202020202020206F532023203942303720383330302031333030203B46435F434B464E203B2020202020202020202041363333,
  0x4E454554454E494E2052554F4820524F46204C4F424D5953204850415247454C455420434948504152474F454449202020202020206F532023203942303720393330302031333030203B46435F434B464E203B2020202020202020202042363333,
  0x59544E4557542052554F4820524F46204C4F424D5953204850415247454C455420434948504152474F454449202020202020206F532023203942303720303330302032333030203B46435F434B464E203B2020202020202020202043363333,
  0x454E4F2D59544E4557542052554F4820524F46204C4F424D5953204850415247454C455420434948504152474F454449202020202020206F532023203942303720313330302032333030203B46435F434B464E203B2020202020202020202044363333,
  0x4F57542D59544E4557542052554F4820524F46204C4F424D5953204850415247454C455420434948504152474F454449202020202020206F532023203942303720323330302032333030203B46435F434B464E203B2020202020202020202045363333,
  0x45455248542D59544E4557542052554F4820524F46204C4F424D5953204850415247454C455420434948504152474F454449202020202020206F532023203942303720333330302032333030203B46435F434B464E203B2020202020202020202046363333,
  0x52554F462D59544E4557542052554F4820524F46204C4F424D5953204850415247454C455420434948504152474F454449202020202020206F532023203942303720343330302032333030203B46435F434B464E203B2020202020202020202030373333,
  0x41504820455241555153202020202020206F532023203136303020303730302038363030203B46435F434B464E203B2020202020202020202031373333,
  0x414420455241555153202020202020206F532023202020202020313630302034363030203B46435F434B464E203B2020202020202020202032373333,
  0x554120455241555153202020202020206F532023202020202020353730302031363030203B46435F434B464E203B2020202020202020202033373333,
  0x52414220455241555153202020202020206F532023203237303020313630302032363030203B46435F434B464E203B2020202020202020202034373333,
  0x564F20455241555153202020202020206F532023202020202020363730302046363030203B46435F434B464E203B2020202020202020202035373333,
  0x435020455241555153202020202020206F532023202020202020333630302030373030203B46435F434B464E203B2020202020202020202036373333,
  0x4D4420455241555153202020202020206F532023202020202020443630302034363030203B46435F434B464E203B2020202020202020202037373333,
  0x44455241555153204D4420455241555153202020202020206F532023203233303020443630302034363030203B46435F434B464E203B2020202020202020202038373333,
  0x4445425543204D4420455241555153202020202020206F532023203333303020443630302034363030203B46435F434B464E203B2020202020202020202039373333,
  0x554920455241555153202020202020206F532023202020202020353730302039363030203B46435F434B464E203B2020202020202020202041373333,
  0x49455349454820454D414E2041524520455241555153202020202020206F532023202020202020303132362033374535203B46435F434B464E203B2020202020202020202042373333,
  0x4157554F595320454D414E2041524520455241555153202020202020206F532023202020202020433834352044323636203B46435F434B464E203B2020202020202020202043373333,
  0x554F595349415420454D414E2041524520455241555153202020202020206F532023202020202020333642362037323935203B46435F434B464E203B2020202020202020202044373333,
  0x495A49454D20454D414E2041524520455241555153202020202020206F532023202020202020424243362045303636203B46435F434B464E203B2020202020202020202045373333,
  0x4E4F495441524F50524F43204552415551532020206F53232045333937204131463420463046352041323836203B46435F434B464E203B2020202020202020202046373333,
  0x53504D4120415020455241555153202020202020206F532023202020202020313630302030373030203B46435F434B464E203B2020202020202020202030383333,
  0x414E20455241555153202020202020206F532023202020202020313630302045363030203B46435F434B464E203B2020202020202020202031383333,
  0x4120554D20455241555153202020202020206F532023202020202020313630302043423330203B46435F434B464E203B2020202020202020202032383333,
  0x414D20455241555153202020202020206F532023202020202020313630302044363030203B46435F434B464E203B2020202020202020202033383333,
  0x414B20455241555153202020202020206F532023202020202020313630302042363030203B46435F434B464E203B2020202020202020202034383333,
  0x424B20455241555153202020202020206F532023202020202020323630302042363030203B46435F434B464E203B2020202020202020202035383333,
  0x424D20455241555153202020202020206F532023202020202020323630302044363030203B46435F434B464E203B2020202020202020202036383333,
  0x424720455241555153202020202020206F532023202020202020323630302037363030203B46435F434B464E203B2020202020202020202037383333,
  0x4C414320455241555153202020202020206F532023204336303020313630302033363030203B46435F434B464E203B2020202020202020202038383333,
  0x4C41434B204552415551532020206F53232043363030203136303020333630302042363030203B46435F434B464E203B2020202020202020202039383333,
  0x465020455241555153202020202020206F532023202020202020363630302030373030203B46435F434B464E203B2020202020202020202041383333,
  0x464E20455241555153202020202020206F532023202020202020363630302045363030203B46435F434B464E203B2020202020202020202042383333,
  0x4620554D20455241555153202020202020206F532023202020202020363630302043423330203B46435F434B464E203B2020202020202020202043383333,
  0x4720554D20455241555153202020202020206F532023202020202020373630302043423330203B46435F434B464E203B2020202020202020202044383333,
  0x474D20455241555153202020202020206F532023202020202020373630302044363030203B46435F434B464E203B2020202020202020202045383333,
  0x474B20455241555153202020202020206F532023202020202020373630302042363030203B46435F434B464E203B2020202020202020202046383333,
  0x5A4820455241555153202020202020206F532023202020202020413730302038363030203B46435F434B464E203B2020202020202020202030393333,
  0x5A484B20455241555153202020202020206F532023204137303020383630302042363030203B46435F434B464E203B2020202020202020202031393333,
  0x5A484D20455241555153202020202020206F532023204137303020383630302044363030203B46435F434B464E203B2020202020202020202032393333,
  0x5A484720455241555153202020202020206F532023204137303020383630302037363030203B46435F434B464E203B2020202020202020202033393333,
  0x5A485420455241555153202020202020206F532023204137303020383630302034373030203B46435F434B464E203B2020202020202020202034393333,
  0x4C20554D20455241555153202020202020206F532023202020202020433630302043423330203B46435F434B464E203B2020202020202020202035393333,
  0x4C4D20455241555153202020202020206F532023202020202020433630302044363030203B46435F434B464E203B2020202020202020202036393333,
  0x4C4420455241555153202020202020206F532023202020202020433630302034363030203B46435F434B464E203B2020202020202020202037393333,
  0x4C4B20455241555153202020202020206F532023202020202020433630302042363030203B46435F434B464E203B2020202020202020202038393333,
  0x4D4620455241555153202020202020206F532023202020202020443630302036363030203B46435F434B464E203B2020202020202020202039393333,
  0x4D4E20455241555153202020202020206F532023202020202020443630302045363030203B46435F434B464E203B2020202020202020202041393333,
  0x4D20554D20455241555153202020202020206F532023202020202020443630302043423330203B46435F434B464E203B2020202020202020202042393333,
  0x4D4D20455241555153202020202020206F532023202020202020443630302044363030203B46435F434B464E203B2020202020202020202043393333,
  0x4D4320455241555153202020202020206F532023202020202020443630302033363030203B46435F434B464E203B2020202020202020202044393333,
  0x4D4B20455241555153202020202020206F532023202020202020443630302042363030203B46435F434B464E203B2020202020202020202045393333,
  0x44455241555153204D4D20455241555153202020202020206F532023203233303020443630302044363030203B46435F434B464E203B2020202020202020202046393333,
  0x44455241555153204D4320455241555153202020202020206F532023203233303020443630302033363030203B46435F434B464E203B2020202020202020202030413333,
  0x44455241555153204D20455241555153202020202020206F532023202020202020323330302044363030203B46435F434B464E203B2020202020202020202031413333,
  0x44455241555153204D4B20455241555153202020202020206F532023203233303020443630302042363030203B46435F434B464E203B2020202020202020202032413333,
  0x4445425543204D4D20455241555153202020202020206F532023203333303020443630302044363030203B46435F434B464E203B2020202020202020202033413333,
  0x4445425543204D4320455241555153202020202020206F532023203333303020443630302033363030203B46435F434B464E203B2020202020202020202034413333,
  0x4445425543204D20455241555153202020202020206F532023202020202020333330302044363030203B46435F434B464E203B2020202020202020202035413333,
  0x4445425543204D4B20455241555153202020202020206F532023203333303020443630302042363030203B46435F434B464E203B2020202020202020202036413333,
  0x53205245564F204D20455241555153202020202020206F532023203337303020353132322044363030203B46435F434B464E203B2020202020202020202037413333,
  0x444552415551532053205245564F204D204552415551532020206F53232032333030203337303020353132322044363030203B46435F434B464E203B2020202020202020202038413333,
  0x415020455241555153202020202020206F532023202020202020313630302030373030203B46435F434B464E203B2020202020202020202039413333,
  0x41504B20455241555153202020202020206F532023203136303020303730302042363030203B46435F434B464E203B2020202020202020202041413333,
  0x41504D20455241555153202020202020206F532023203136303020303730302044363030203B46435F434B464E203B2020202020202020202042413333,
  0x41504720455241555153202020202020206F532023203136303020303730302037363030203B46435F434B464E203B2020202020202020202043413333,
  0x44415220455241555153202020202020206F532023203436303020313630302032373030203B46435F434B464E203B2020202020202020202044413333,
  0x53205245564F2044415220455241555153206F532320333730302035313232203436303020313630302032373030203B46435F434B464E203B2020202020202020202045413333,
  0x444552415551532053205245564F2044415220455241555153206F5323203233303020333730302035313232203436303020313630302032373030203B46435F434B464E203B2020202020202020202046413333,
  0x535020455241555153202020202020206F532023202020202020333730302030373030203B46435F434B464E203B2020202020202020202030423333,
  0x534E20455241555153202020202020206F532023202020202020333730302045363030203B46435F434B464E203B2020202020202020202031423333,
  0x5320554D20455241555153202020202020206F532023202020202020333730302043423330203B46435F434B464E203B2020202020202020202032423333,
  0x534D20455241555153202020202020206F532023202020202020333730302044363030203B46435F434B464E203B2020202020202020202033423333,
  0x565020455241555153202020202020206F532023202020202020363730302030373030203B46435F434B464E203B2020202020202020202034423333,
  0x564E20455241555153202020202020206F532023202020202020363730302045363030203B46435F434B464E203B2020202020202020202035423333,
  0x5620554D20455241555153202020202020206F532023202020202020363730302043423330203B46435F434B464E203B2020202020202020202036423333,
  0x564D20455241555153202020202020206F532023202020202020363730302044363030203B46435F434B464E203B2020202020202020202037423333,
  0x564B20455241555153202020202020206F532023202020202020363730302042363030203B46435F434B464E203B2020202020202020202038423333,
  0x4147454D20564D20455241555153202020202020206F532023202020202020363730302044363030203B46435F434B464E203B2020202020202020202039423333,
  0x575020455241555153202020202020206F532023202020202020373730302030373030203B46435F434B464E203B2020202020202020202041423333,
  0x574E20455241555153202020202020206F532023202020202020373730302045363030203B46435F434B464E203B2020202020202020202042423333,
  0x5720554D20455241555153202020202020206F532023202020202020373730302043423330203B46435F434B464E203B2020202020202020202043423333,
  0x574D20455241555153202020202020206F532023202020202020373730302044363030203B46435F434B464E203B2020202020202020202044423333,
  0x574B20455241555153202020202020206F532023202020202020373730302042363030203B46435F434B464E203B2020202020202020202045423333,
  0x4147454D20574D20455241555153202020202020206F532023202020202020373730302044363030203B46435F434B464E203B2020202020202020202046423333,
  0x4D484F204B20455241555153202020202020206F532023202020202020394333302042363030203B46435F434B464E203B2020202020202020202030433333,
  0x4D484F204D20455241555153202020202020206F532023202020202020394333302044363030203B46435F434B464E203B2020202020202020202031433333,
  0x4D41204552415551532020206F53232045323030204436303020453230302031363030203B46435F434B464E203B2020202020202020202032433333,
  0x514220455241555153202020202020206F532023202020202020313730302032363030203B46435F434B464E203B2020202020202020202033433333,
  0x434320455241555153202020202020206F532023202020202020333630302033363030203B46435F434B464E203B2020202020202020202034433333,
  0x444320455241555153202020202020206F532023202020202020343630302033363030203B46435F434B464E203B2020202020202020202035433333,
  0x474B205245564F2043204552415551532020206F53232037363030204236303020353132322033363030203B46435F434B464E203B2020202020202020202036433333,
  0x4F4320455241555153202020202020206F532023204532303020463630302033363030203B46435F434B464E203B2020202020202020202037433333,
  0x424420455241555153202020202020206F532023202020202020323630302034363030203B46435F434B464E203B2020202020202020202038433333,
  0x594720455241555153202020202020206F532023202020202020393730302037363030203B46435F434B464E203B2020202020202020202039433333,
  0x414820455241555153202020202020206F532023202020202020313630302038363030203B46435F434B464E203B2020202020202020202041433333,
  0x504820455241555153202020202020206F532023202020202020303730302038363030203B46435F434B464E203B2020202020202020202042433333,
  0x4E4920455241555153202020202020206F532023202020202020453630302039363030203B46435F434B464E203B2020202020202020202043433333,
  0x4B4B20455241555153202020202020206F532023202020202020423630302042363030203B46435F434B464E203B2020202020202020202044433333,
  0x4C415449504143204D4B20455241555153202020202020206F532023202020202020443630302042363030203B46435F434B464E203B2020202020202020202045433333,
  0x544B20455241555153202020202020206F532023202020202020343730302042363030203B46435F434B464E203B2020202020202020202046433333,
  0x4D4C20455241555153202020202020206F532023202020202020443630302043363030203B46435F434B464E203B2020202020202020202030443333,
  0x4E4C20455241555153202020202020206F532023202020202020453630302043363030203B46435F434B464E203B2020202020202020202031443333,
  0x474F4C20455241555153202020202020206F532023203736303020463630302043363030203B46435F434B464E203B2020202020202020202032443333,
  0x584C20455241555153202020202020206F532023202020202020383730302043363030203B46435F434B464E203B2020202020202020202033443333,
  0x4C4C414D5320424D20455241555153202020202020206F532023202020202020323630302044363030203B46435F434B464E203B2020202020202020202034443333,
  0x4C494D20455241555153202020202020206F532023204336303020393630302044363030203B46435F434B464E203B2020202020202020202035443333,
  0x4C4F4D20455241555153202020202020206F532023204336303020463630302044363030203B46435F434B464E203B2020202020202020202036443333,
  0x485020455241555153202020202020206F532023202020202020383630302030373030203B46435F434B464E203B2020202020202020202037443333,
  0x4D50204552415551532020206F53232045323030204436303020453230302030373030203B46435F434B464E203B2020202020202020202038443333,
  0x4D505020455241555153202020202020206F532023204436303020303730302030373030203B46435F434B464E203B2020202020202020202039443333,
  0x525020455241555153202020202020206F532023202020202020323730302030373030203B46435F434B464E203B2020202020202020202041443333,
  0x525320455241555153202020202020206F532023202020202020323730302033373030203B46435F434B464E203B2020202020202020202042443333,
  0x565320455241555153202020202020206F532023202020202020363730302033373030203B46435F434B464E203B2020202020202020202043443333,
  0x425720455241555153202020202020206F532023202020202020323630302037373030203B46435F434B464E203B2020202020202020202044443333,
  0x4D205245564F205620455241555153202020202020206F532023204436303020353132322036373030203B46435F434B464E203B2020202020202020202045443333,
  0x4D205245564F204120455241555153202020202020206F532023204436303020353132322031363030203B46435F434B464E203B2020202020202020202046443333,
  0x454E4F2059414420524F46204C4F424D5953204850415247454C455420434948504152474F454449202020202020206F532023202020202020354535362031333030203B46435F434B464E203B2020202020202020202030453333,
  0x4F57542059414420524F46204C4F424D5953204850415247454C455420434948504152474F454449202020202020206F532023202020202020354535362032333030203B46435F434B464E203B2020202020202020202031453333,
  0x45455248542059414420524F46204C4F424D5953204850415247454C455420434948504152474F454449202020202020206F532023202020202020354535362033333030203B46435F434B464E203B2020202020202020202032453333,
  0x52554F462059414420524F46204C4F424D5953204850415247454C455420434948504152474F454449202020202020206F532023202020202020354535362034333030203B46435F434B464E203B2020202020202020202033453333,
  0x455649462059414420524F46204C4F424D5953204850415247454C455420434948504152474F454449202020202020206F532023202020202020354535362035333030203B46435F434B464E203B2020202020202020202034453333,
  0x5849532059414420524F46204C4F424D5953204850415247454C455420434948504152474F454449202020202020206F532023202020202020354535362036333030203B46435F434B464E203B2020202020202020202035453333,
  0x4E455645532059414420524F46204C4F424D5953204850415247454C455420434948504152474F454449202020202020206F532023202020202020354535362037333030203B46435F434B464E203B2020202020202020202036453333,
  0x54484749452059414420524F46204C4F424D5953204850415247454C455420434948504152474F454449202020202020206F532023202020202020354535362038333030203B46435F434B464E203B2020202020202020202037453333,
  0x454E494E2059414420524F46204C4F424D5953204850415247454C455420434948504152474F454449202020202020206F532023202020202020354535362039333030203B46435F434B464E203B2020202020202020202038453333,
  0x4E45542059414420524F46204C4F424D5953204850415247454C455420434948504152474F454449202020202020206F532023203545353620303330302031333030203B46435F434B464E203B2020202020202020202039453333,
  0x4E4556454C452059414420524F46204C4F424D5953204850415247454C455420434948504152474F454449202020202020206F532023203545353620313330302031333030203B46435F434B464E203B2020202020202020202041453333,
  0x45564C4557542059414420524F46204C4F424D5953204850415247454C455420434948504152474F454449202020202020206F532023203545353620323330302031333030203B46435F434B464E203B2020202020202020202042453333,
  0x4E454554524948542059414420524F46204C4F424D5953204850415247454C455420434948504152474F454449202020202020206F532023203545353620333330302031333030203B46435F434B464E203B2020202020202020202043453333,
  0x4E45455452554F462059414420524F46204C4F424D5953204850415247454C455420434948504152474F454449202020202020206F532023203545353620343330302031333030203B46435F434B464E203B2020202020202020202044453333,
  0x4E4545544649462059414420524F46204C4F424D5953204850415247454C455420434948504152474F454449202020202020206F532023203545353620353330302031333030203B46435F434B464E203B2020202020202020202045453333,
  0x4E4545545849532059414420524F46204C4F424D5953204850415247454C455420434948504152474F454449202020202020206F532023203545353620363330302031333030203B46435F434B464E203B2020202020202020202046453333,
  0x4E4545544E455645532059414420524F46204C4F424D5953204850415247454C455420434948504152474F454449202020202020206F532023203545353620373330302031333030203B46435F434B464E203B2020202020202020202030463333,
  0x4E454554484749452059414420524F46204C4F424D5953204850415247454C455420434948504152474F454449202020202020206F532023203545353620383330302031333030203B46435F434B464E203B2020202020202020202031463333,
  0x4E454554454E494E2059414420524F46204C4F424D5953204850415247454C455420434948504152474F454449202020202020206F532023203545353620393330302031333030203B46435F434B464E203B2020202020202020202032463333,
  0x59544E4557542059414420524F46204C4F424D5953204850415247454C455420434948504152474F454449202020202020206F532023203545353620303330302032333030203B46435F434B464E203B2020202020202020202033463333,
  0x454E4F2D59544E4557542059414420524F46204C4F424D5953204850415247454C455420434948504152474F454449202020202020206F532023203545353620313330302032333030203B46435F434B464E203B2020202020202020202034463333,
  0x4F57542D59544E4557542059414420524F46204C4F424D5953204850415247454C455420434948504152474F454449202020202020206F532023203545353620323330302032333030203B46435F434B464E203B2020202020202020202035463333,
  0x45455248542D59544E4557542059414420524F46204C4F424D5953204850415247454C455420434948504152474F454449202020202020206F532023203545353620333330302032333030203B46435F434B464E203B2020202020202020202036463333,
  0x52554F462D59544E4557542059414420524F46204C4F424D5953204850415247454C455420434948504152474F454449202020202020206F532023203545353620343330302032333030203B46435F434B464E203B2020202020202020202037463333,
  0x455649462D59544E4557542059414420524F46204C4F424D5953204850415247454C455420434948504152474F454449202020202020206F532023203545353620353330302032333030203B46435F434B464E203B2020202020202020202038463333,
  0x5849532D59544E4557542059414420524F46204C4F424D5953204850415247454C455420434948504152474F454449202020202020206F532023203545353620363330302032333030203B46435F434B464E203B2020202020202020202039463333,
  0x4E455645532D59544E4557542059414420524F46204C4F424D5953204850415247454C455420434948504152474F454449202020202020206F532023203545353620373330302032333030203B46435F434B464E203B2020202020202020202041463333,
  0x54484749452D59544E4557542059414420524F46204C4F424D5953204850415247454C455420434948504152474F454449202020202020206F532023203545353620383330302032333030203B46435F434B464E203B2020202020202020202042463333,
  0x454E494E2D59544E4557542059414420524F46204C4F424D5953204850415247454C455420434948504152474F454449202020202020206F532023203545353620393330302032333030203B46435F434B464E203B2020202020202020202043463333,
  0x5954524948542059414420524F46204C4F424D5953204850415247454C455420434948504152474F454449202020202020206F532023203545353620303330302033333030203B46435F434B464E203B2020202020202020202044463333,
  0x454E4F2D5954524948542059414420524F46204C4F424D5953204850415247454C455420434948504152474F454449202020202020206F532023203545353620313330302033333030203B46435F434B464E203B2020202020202020202045463333,
  0x4C414720455241555153202020202020206F532023204336303020313630302037363030203B46435F434B464E203B2020202020202020202046463333,
  0x41594C4D455A2052455454454C204C4154495041432043494C4C4952594320202020202020264C2023202020202020202020202031343641203B46435F434B464E203B2020202020202020202030343641,
  0x4F4C455A442052455454454C204C4154495041432043494C4C4952594320202020202020264C2023202020202020202020202033343641203B46435F434B464E203B2020202020202020202032343641,
  0x455A442044455352455645522052455454454C204C4154495041432043494C4C4952594320202020202020264C2023202020202020202020202035343641203B46435F434B464E203B2020202020202020202034343641,
  0x41544F492052455454454C204C4154495041432043494C4C4952594320202020202020264C2023202020202020202020202037343641203B46435F434B464E203B2020202020202020202036343641,
  0x5652454A442052455454454C204C4154495041432043494C4C4952594320202020202020264C2023202020202020202020202039343641203B46435F434B464E203B2020202020202020202038343641,
  0x4B552048504152474F4E4F4D2052455454454C204C4154495041432043494C4C4952594320202020202020264C2023202020202020202020202042343641203B46435F434B464E203B2020202020202020202041343641,
  0x4147454D4F2044414F52422052455454454C204C4154495041432043494C4C4952594320202020202020264C2023202020202020202020202044343641203B46435F434B464E203B2020202020202020202043343641,
  0x524559204C41525455454E2052455454454C204C4154495041432043494C4C4952594320202020202020264C2023202020202020202020202046343641203B46435F434B464E203B2020202020202020202045343641,
  0x524559204B434142204854495720555245592052455454454C204C4154495041432043494C4C4952594320202020202020264C2023202020202020202020202031353641203B46435F434B464E203B2020202020202020202030353641,
  0x544159204445494649544F492052455454454C204C4154495041432043494C4C4952594320202020202020264C2023202020202020202020202033353641203B46435F434B464E203B2020202020202020202032353641,
  0x55592044455352455645522052455454454C204C4154495041432043494C4C4952594320202020202020264C2023202020202020202020202035353641203B46435F434B464E203B2020202020202020202034353641,
  0x41204445494649544F492052455454454C204C4154495041432043494C4C4952594320202020202020264C2023202020202020202020202037353641203B46435F434B464E203B2020202020202020202036353641,
  0x53555920454C5454494C204445534F4C432052455454454C204C4154495041432043494C4C4952594320202020202020264C2023202020202020202020202039353641203B46435F434B464E203B2020202020202020202038353641,
  0x535559204445444E454C422052455454454C204C4154495041432043494C4C4952594320202020202020264C2023202020202020202020202042353641203B46435F434B464E203B2020202020202020202041353641,
  0x53555920454C5454494C204445534F4C43204445494649544F492052455454454C204C4154495041432043494C4C4952594320202020202020264C2023202020202020202020202044353641203B46435F434B464E203B2020202020202020202043353641,
  0x4E592052455454454C204C4154495041432043494C4C4952594320202020202020264C2023202020202020202020202046353641203B46435F434B464E203B2020202020202020202045353641,
  0x4553542044455352455645522052455454454C204C4154495041432043494C4C4952594320202020202020264C2023202020202020202020202031363641203B46435F434B464E203B2020202020202020202030363641,
  0x45442054464F532052455454454C204C4154495041432043494C4C4952594320202020202020264C2023202020202020202020202033363641203B46435F434B464E203B2020202020202020202032363641,
  0x4C452054464F532052455454454C204C4154495041432043494C4C4952594320202020202020264C2023202020202020202020202035363641203B46435F434B464E203B2020202020202020202034363641,
  0x4D452054464F532052455454454C204C4154495041432043494C4C4952594320202020202020264C2023202020202020202020202037363641203B46435F434B464E203B2020202020202020202036363641,
  0x4F2052414C55434F4E4F4D2052455454454C204C4154495041432043494C4C4952594320202020202020264C2023202020202020202020202039363641203B46435F434B464E203B2020202020202020202038363641,
  0x4F2052414C55434F4E49422052455454454C204C4154495041432043494C4C4952594320202020202020264C2023202020202020202020202042363641203B46435F434B464E203B2020202020202020202041363641,
  0x4F2052414C55434F4E4F4D20454C42554F442052455454454C204C4154495041432043494C4C4952594320202020202020264C2023202020202020202020202044363641203B46435F434B464E203B2020202020202020202043363641,
  0x4557442052455454454C204C4154495041432043494C4C4952594320202020202020264C2023202020202020202020202031383641203B46435F434B464E203B2020202020202020202030383641]

def qcText21 : List Nat := [
  0x45575A442052455454454C204C4154495041432043494C4C4952594320202020202020264C2023202020202020202020202033383641203B46435F434B464E203B2020202020202020202032383641,
  0x4557485A2052455454454C204C4154495041432043494C4C4952594320202020202020264C2023202020202020202020202035383641203B46435F434B464E203B2020202020202020202034383641,
  0x454843432052455454454C204C4154495041432043494C4C4952594320202020202020264C2023202020202020202020202037383641203B46435F434B464E203B2020202020202020202036383641,
  0x455A5A442052455454454C204C4154495041432043494C4C4952594320202020202020264C2023202020202020202020202039383641203B46435F434B464E203B2020202020202020202038383641,
  0x4B4F4F4820454C4444494D20485449572045542052455454454C204C4154495041432043494C4C4952594320202020202020264C2023202020202020202020202042383641203B46435F434B464E203B2020202020202020202041383641,
  0x4557542052455454454C204C4154495041432043494C4C4952594320202020202020264C2023202020202020202020202044383641203B46435F434B464E203B2020202020202020202043383641,
  0x455753542052455454454C204C4154495041432043494C4C4952594320202020202020264C2023202020202020202020202046383641203B46435F434B464E203B2020202020202020202045383641,
  0x455353542052455454454C204C4154495041432043494C4C4952594320202020202020264C2023202020202020202020202031393641203B46435F434B464E203B2020202020202020202030393641,
  0x454843542052455454454C204C4154495041432043494C4C4952594320202020202020264C2023202020202020202020202033393641203B46435F434B464E203B2020202020202020202032393641,
  0x4557482052455454454C204C4154495041432043494C4C4952594320202020202020264C2023202020202020202020202035393641203B46435F434B464E203B2020202020202020202034393641,
  0x455748532052455454454C204C4154495041432043494C4C4952594320202020202020264C2023202020202020202020202037393641203B46435F434B464E203B2020202020202020202036393641,
  0x4F20454C42554F442052455454454C204C4154495041432043494C4C4952594320202020202020264C2023202020202020202020202039393641203B46435F434B464E203B2020202020202020202038393641,
  0x4F20444553534F52432052455454454C204C4154495041432043494C4C4952594320202020202020264C2023202020202020202020202042393641203B46435F434B464E203B2020202020202020202041393641,
  0x4E47495320445241482043494C4C495259432052455454454C205245494649444F4D202020202020206D4C2023202020202020202020202041343430203B46435F434B464E203B2020202020202020202043393641,
  0x4E4749532054464F532043494C4C495259432052455454454C205245494649444F4D202020202020206D4C2023202020202020202020202043343430203B46435F434B464E203B2020202020202020202044393641,
  0x46454C41204C414349474F4C4F54505947452052455454454C204C415449504143204E4954414C20202020202020264C2023202020202020202020202033323741203B46435F434B464E203B2020202020202020202032323741,
  0x4E4941204C414349474F4C4F54505947452052455454454C204C415449504143204E4954414C20202020202020264C2023202020202020202020202035323741203B46435F434B464E203B2020202020202020202034323741,
  0x474E45482052455454454C204C415449504143204E4954414C20202020202020264C2023202020202020202020202037323741203B46435F434B464E203B2020202020202020202036323741,
  0x5A542052455454454C204C415449504143204E4954414C20202020202020264C2023202020202020202020202039323741203B46435F434B464E203B2020202020202020202038323741,
  0x4F4C4C49534552542052455454454C204C415449504143204E4954414C20202020202020264C2023202020202020202020202042323741203B46435F434B464E203B2020202020202020202041323741,
  0x4F4C4C4952544155432052455454454C204C415449504143204E4954414C20202020202020264C2023202020202020202020202044323741203B46435F434B464E203B2020202020202020202043323741,
  0x414D4D4F432048544957204F4C4C4952544155432052455454454C204C415449504143204E4954414C20202020202020264C2023202020202020202020202046323741203B46435F434B464E203B2020202020202020202045323741,
  0x41412052455454454C204C415449504143204E4954414C20202020202020264C2023202020202020202020202033333741203B46435F434B464E203B2020202020202020202032333741,
  0x4F412052455454454C204C415449504143204E4954414C20202020202020264C2023202020202020202020202035333741203B46435F434B464E203B2020202020202020202034333741,
  0x55412052455454454C204C415449504143204E4954414C20202020202020264C2023202020202020202020202037333741203B46435F434B464E203B2020202020202020202036333741,
  0x56412052455454454C204C415449504143204E4954414C20202020202020264C2023202020202020202020202039333741203B46435F434B464E203B2020202020202020202038333741,
  0x524142204C41544E4F5A49524F4820485449572056412052455454454C204C415449504143204E4954414C20202020202020264C2023202020202020202020202042333741203B46435F434B464E203B2020202020202020202041333741,
  0x59412052455454454C204C415449504143204E4954414C20202020202020264C2023202020202020202020202044333741203B46435F434B464E203B2020202020202020202043333741,
  0x544F44204854495720432044455352455645522052455454454C204C415449504143204E4954414C20202020202020264C2023202020202020202020202046333741203B46435F434B464E203B2020202020202020202045333741,
  0x454B4F5254532048544957204B2052455454454C204C415449504143204E4954414C20202020202020264C2023202020202020202020202031343741203B46435F434B464E203B2020202020202020202030343741,
  0x454B4F525453204C414E4F474149442048544957204B2052455454454C204C415449504143204E4954414C20202020202020264C2023202020202020202020202033343741203B46435F434B464E203B2020202020202020202032343741,
  0x454B4F525453204C414E4F4741494420444E4120454B4F5254532048544957204B2052455454454C204C415449504143204E4954414C20202020202020264C2023202020202020202020202035343741203B46435F434B464E203B2020202020202020202034343741,
  0x4C204E454B4F52422052455454454C204C415449504143204E4954414C20202020202020264C2023202020202020202020202037343741203B46435F434B464E203B2020202020202020202036343741,
  0x454B4F52545320484749482048544957204C2052455454454C204C415449504143204E4954414C20202020202020264C2023202020202020202020202039343741203B46435F434B464E203B2020202020202020202038343741,
  0x59414C5245564F20454B4F52545320474E4F4C2048544957204F2052455454454C204C415449504143204E4954414C20202020202020264C2023202020202020202020202042343741203B46435F434B464E203B2020202020202020202041343741,
  0x504F4F4C2048544957204F2052455454454C204C415449504143204E4954414C20202020202020264C2023202020202020202020202044343741203B46435F434B464E203B2020202020202020202043343741,
  0x4F4F2052455454454C204C415449504143204E4954414C20202020202020264C2023202020202020202020202046343741203B46435F434B464E203B2020202020202020202045343741,
  0x5245444E4543534544204847554F52485420454B4F525453204854495720502052455454454C204C415449504143204E4954414C20202020202020264C2023202020202020202020202031353741203B46435F434B464E203B2020202020202020202030353741,
  0x48534952554F4C46204854495720502052455454454C204C415449504143204E4954414C20202020202020264C2023202020202020202020202033353741203B46435F434B464E203B2020202020202020202032353741,
  0x4C494154204C45525249555153204854495720502052455454454C204C415449504143204E4954414C20202020202020264C2023202020202020202020202035353741203B46435F434B464E203B2020202020202020202034353741,
  0x5245444E4543534544204847554F52485420454B4F525453204854495720512052455454454C204C415449504143204E4954414C20202020202020264C2023202020202020202020202037353741203B46435F434B464E203B2020202020202020202036353741,
  0x454B4F525453204C414E4F47414944204854495720512052455454454C204C415449504143204E4954414C20202020202020264C2023202020202020202020202039353741203B46435F434B464E203B2020202020202020202038353741,
  0x41444E55544F5220522052455454454C204C415449504143204E4954414C20202020202020264C2023202020202020202020202042353741203B46435F434B464E203B2020202020202020202041353741,
  0x41444E55544F52204D55522052455454454C204C415449504143204E4954414C20202020202020264C2023202020202020202020202044353741203B46435F434B464E203B2020202020202020202043353741,
  0x454B4F525453204C414E4F47414944204854495720562052455454454C204C415449504143204E4954414C20202020202020264C2023202020202020202020202046353741203B46435F434B464E203B2020202020202020202045353741,
  0x59562052455454454C204C415449504143204E4954414C20202020202020264C2023202020202020202020202031363741203B46435F434B464E203B2020202020202020202030363741,
  0x5A20434948544F47495349562052455454454C204C415449504143204E4954414C20202020202020264C2023202020202020202020202033363741203B46435F434B464E203B2020202020202020202032363741,
  0x454B4F5254532048544957204E524F48542052455454454C204C415449504143204E4954414C20202020202020264C2023202020202020202020202035363741203B46435F434B464E203B2020202020202020202034363741,
  0x5245444E4543534544204847554F52485420454B4F5254532048544957204E524F48542052455454454C204C415449504143204E4954414C20202020202020264C2023202020202020202020202037363741203B46435F434B464E203B2020202020202020202036363741,
  0x444E45562052455454454C204C415449504143204E4954414C20202020202020264C2023202020202020202020202039363741203B46435F434B464E203B2020202020202020202038363741,
  0x54452052455454454C204C415449504143204E4954414C20202020202020264C2023202020202020202020202042363741203B46435F434B464E203B2020202020202020202041363741,
  0x53492052455454454C204C415449504143204E4954414C20202020202020264C2023202020202020202020202044363741203B46435F434B464E203B2020202020202020202043363741,
  0x4E4F432052455454454C204C415449504143204E4954414C20202020202020264C2023202020202020202020202046363741203B46435F434B464E203B2020202020202020202045363741,
  0x53552052455454454C205245494649444F4D202020202020206D4C2023202020202020202020202046363741203B46435F434B464E203B2020202020202020202030373741,
  0x442052414C55534E492052455454454C204C415449504143204E4954414C20202020202020264C2023202020202020202020202041373741203B46435F434B464E203B2020202020202020202039373741,
  0x462052414C55534E492052455454454C204C415449504143204E4954414C20202020202020264C2023202020202020202020202043373741203B46435F434B464E203B2020202020202020202042373741,
  0x472052414C55534E492052455454454C204C415449504143204E4954414C20202020202020264C2023202020202020202020202039374431203B46435F434B464E203B2020202020202020202044373741,
  0x472052414C55534E492044454E5255542052455454454C204C415449504143204E4954414C20202020202020264C2023202020202020202020202046373741203B46435F434B464E203B2020202020202020202045373741,
  0x4C2044454E5255542052455454454C204C415449504143204E4954414C20202020202020264C2023202020202020202020202031383741203B46435F434B464E203B2020202020202020202030383741,
  0x522052414C55534E492052455454454C204C415449504143204E4954414C20202020202020264C2023202020202020202020202033383741203B46435F434B464E203B2020202020202020202032383741,
  0x532052414C55534E492052455454454C204C415449504143204E4954414C20202020202020264C2023202020202020202020202035383741203B46435F434B464E203B2020202020202020202034383741,
  0x542052414C55534E492052455454454C204C415449504143204E4954414C20202020202020264C2023202020202020202020202037383741203B46435F434B464E203B2020202020202020202036383741,
  0x4F4C4C49544C41532052455454454C204C415449504143204E4954414C20202020202020264C2023202020202020202020202043383741203B46435F434B464E203B2020202020202020202042383741,
  0x482044454E5255542052455454454C204C415449504143204E4954414C20202020202020264C2023202020202020202020202035363230203B46435F434B464E203B2020202020202020202044383741,
  0x5245444E45435345442048544957204E2052455454454C204C415449504143204E4954414C20202020202020264C2023202020202020202020202031393741203B46435F434B464E203B2020202020202020202030393741,
  0x524142204854495720432052455454454C204C415449504143204E4954414C20202020202020264C2023202020202020202020202033393741203B46435F434B464E203B2020202020202020202032393741,
  0x48534952554F4C46204854495720422052455454454C204C415449504143204E4954414C20202020202020264C2023202020202020202020202037393741203B46435F434B464E203B2020202020202020202036393741,
  0x454B4F525453204854495720462052455454454C204C415449504143204E4954414C20202020202020264C2023202020202020202020202039393741203B46435F434B464E203B2020202020202020202038393741,
  0x4541204B5550414C4F562052455454454C204C415449504143204E4954414C20202020202020264C2023202020202020202020202042393741203B46435F434B464E203B2020202020202020202041393741,
  0x454F204B5550414C4F562052455454454C204C415449504143204E4954414C20202020202020264C2023202020202020202020202044393741203B46435F434B464E203B2020202020202020202043393741,
  0x4555204B5550414C4F562052455454454C204C415449504143204E4954414C20202020202020264C2023202020202020202020202046393741203B46435F434B464E203B2020202020202020202045393741,
  0x454B4F52545320455551494C424F204854495720472052455454454C204C415449504143204E4954414C20202020202020264C2023202020202020202020202031413741203B46435F434B464E203B2020202020202020202030413741,
  0x454B4F52545320455551494C424F2048544957204B2052455454454C204C415449504143204E4954414C20202020202020264C2023202020202020202020202033413741203B46435F434B464E203B2020202020202020202032413741,
  0x454B4F52545320455551494C424F2048544957204E2052455454454C204C415449504143204E4954414C20202020202020264C2023202020202020202020202035413741203B46435F434B464E203B2020202020202020202034413741,
  0x454B4F52545320455551494C424F204854495720522052455454454C204C415449504143204E4954414C20202020202020264C2023202020202020202020202037413741203B46435F434B464E203B2020202020202020202036413741,
  0x454B4F52545320455551494C424F204854495720532052455454454C204C415449504143204E4954414C20202020202020264C2023202020202020202020202039413741203B46435F434B464E203B2020202020202020202038413741,
  0x4B4F4F48204854495720482052455454454C204C415449504143204E4954414C20202020202020264C2023202020202020202020202036363230203B46435F434B464E203B2020202020202020202041413741,
  0x45204E45504F2044455352455645522052455454454C204C415449504143204E4954414C20202020202020264C2023202020202020202020202043353230203B46435F434B464E203B2020202020202020202042413741,
  0x47205450495243532052455454454C204C415449504143204E4954414C20202020202020264C2023202020202020202020202031363230203B46435F434B464E203B2020202020202020202043413741,
  0x544C45422048544957204C2052455454454C204C415449504143204E4954414C20202020202020264C2023202020202020202020202043363230203B46435F434B464E203B2020202020202020202044413741,
  0x49204C415449504143204C4C414D532052455454454C204C415449504143204E4954414C20202020202020264C2023202020202020202020202041363230203B46435F434B464E203B2020202020202020202045413741,
  0x4B2044454E5255542052455454454C204C415449504143204E4954414C20202020202020264C2023202020202020202020202045393230203B46435F434B464E203B2020202020202020202030423741,
  0x542044454E5255542052455454454C204C415449504143204E4954414C20202020202020264C2023202020202020202020202037383230203B46435F434B464E203B2020202020202020202031423741,
  0x4C4941542D444553534F52432048544957204A2052455454454C204C415449504143204E4954414C20202020202020264C2023202020202020202020202044393230203B46435F434B464E203B2020202020202020202032423741,
  0x4948432052455454454C204C415449504143204E4954414C20202020202020264C2023202020202020202020202033354241203B46435F434B464E203B2020202020202020202033423741,
  0x415445422052455454454C204C415449504143204E4954414C20202020202020264C2023202020202020202020202035423741203B46435F434B464E203B2020202020202020202034423741,
  0x4147454D4F2052455454454C204C415449504143204E4954414C20202020202020264C2023202020202020202020202037423741203B46435F434B464E203B2020202020202020202036423741,
  0x454B4F525453204854495720552052455454454C204C415449504143204E4954414C20202020202020264C2023202020202020202020202039423741203B46435F434B464E203B2020202020202020202038423741,
  0x41204C4154544F4C472052455454454C204C415449504143204E4954414C20202020202020264C2023202020202020202020202042423741203B46435F434B464E203B2020202020202020202041423741,
  0x49204C4154544F4C472052455454454C204C415449504143204E4954414C20202020202020264C2023202020202020202020202044423741203B46435F434B464E203B2020202020202020202043423741,
  0x55204C4154544F4C472052455454454C204C415449504143204E4954414C20202020202020264C2023202020202020202020202046423741203B46435F434B464E203B2020202020202020202045423741,
  0x5720414E4143494C474E412052455454454C204C415449504143204E4954414C20202020202020264C2023202020202020202020202033433741203B46435F434B464E203B2020202020202020202032433741,
  0x4B4F4F48204C4154414C4150204854495720432052455454454C204C415449504143204E4954414C20202020202020264C2023202020202020202020202034393741203B46435F434B464E203B2020202020202020202034433741,
  0x4B4F4F48204854495720532052455454454C204C415449504143204E4954414C20202020202020264C2023202020202020202020202032383230203B46435F434B464E203B2020202020202020202035433741,
  0x4B4F4F48204C4154414C41502048544957205A2052455454454C204C415449504143204E4954414C20202020202020264C2023202020202020202020202045384431203B46435F434B464E203B2020202020202020202036433741,
  0x59414C5245564F20454B4F5254532054524F4853204854495720442052455454454C204C415449504143204E4954414C20202020202020264C2023202020202020202020202038433741203B46435F434B464E203B2020202020202020202037433741,
  0x59414C5245564F20454B4F5254532054524F4853204854495720532052455454454C204C415449504143204E4954414C20202020202020264C2023202020202020202020202041433741203B46435F434B464E203B2020202020202020202039433741,
  0x4820464C41482044455352455645522052455454454C204C415449504143204E4954414C20202020202020264C2023202020202020202020202036463741203B46435F434B464E203B2020202020202020202035463741,
  0x454B4F52545320485449572048204C4154495041432052455454454C205245494649444F4D202020202020206D4C2023202020202020202020202037323130203B46435F434B464E203B2020202020202020202038463741,
  0x454F20455255544147494C204C4C414D532052455454454C205245494649444F4D202020202020206D4C2023202020202020202020202033353130203B46435F434B464E203B2020202020202020202039463741,
  0x474E4548204C4C414D532052455454454C205245494649444F4D202020202020206D4C2023202020202020202020202037323741203B46435F434B464E203B2020202020202020202043354241,
  0x5320595A414C204445545245564E492048544957204C204C4C414D532052455454454C205245494649444F4D202020202020206D4C2023202020202020202020202037334241203B46435F434B464E203B2020202020202020202044354241,
  0x45444C495420454C4444494D2048544957204C204C4C414D532052455454454C205245494649444F4D202020202020206D4C2023202020202020202020202042363230203B46435F434B464E203B2020202020202020202045354241,
  0x4B4F4F48205446454C20485449572055204C4C414D532052455454454C205245494649444F4D202020202020206D4C2023202020202020202020202032354241203B46435F434B464E203B2020202020202020202046354241,
  0x572044454E525554204C4C414D532052455454454C205245494649444F4D202020202020206D4C2023202020202020202020202044383230203B46435F434B464E203B2020202020202020202039364241,
  0x412052455454454C204C4C414D532045454B4F5245484320202020202020264C2023202020202020202020202030413331203B46435F434B464E203B2020202020202020202030374241,
  0x452052455454454C204C4C414D532045454B4F5245484320202020202020264C2023202020202020202020202031413331203B46435F434B464E203B2020202020202020202031374241,
  0x492052455454454C204C4C414D532045454B4F5245484320202020202020264C2023202020202020202020202032413331203B46435F434B464E203B2020202020202020202032374241,
  0x4F2052455454454C204C4C414D532045454B4F5245484320202020202020264C2023202020202020202020202033413331203B46435F434B464E203B2020202020202020202033374241,
  0x552052455454454C204C4C414D532045454B4F5245484320202020202020264C2023202020202020202020202034413331203B46435F434B464E203B2020202020202020202034374241,
  0x562052455454454C204C4C414D532045454B4F5245484320202020202020264C2023202020202020202020202035413331203B46435F434B464E203B2020202020202020202035374241,
  0x41472052455454454C204C4C414D532045454B4F5245484320202020202020264C2023202020202020202020202036413331203B46435F434B464E203B2020202020202020202036374241,
  0x414B2052455454454C204C4C414D532045454B4F5245484320202020202020264C2023202020202020202020202037413331203B46435F434B464E203B2020202020202020202037374241,
  0x45472052455454454C204C4C414D532045454B4F5245484320202020202020264C2023202020202020202020202038413331203B46435F434B464E203B2020202020202020202038374241,
  0x49472052455454454C204C4C414D532045454B4F5245484320202020202020264C2023202020202020202020202039413331203B46435F434B464E203B2020202020202020202039374241,
  0x4F472052455454454C204C4C414D532045454B4F5245484320202020202020264C2023202020202020202020202041413331203B46435F434B464E203B2020202020202020202041374241,
  0x55472052455454454C204C4C414D532045454B4F5245484320202020202020264C2023202020202020202020202042413331203B46435F434B464E203B2020202020202020202042374241,
  0x56472052455454454C204C4C414D532045454B4F5245484320202020202020264C2023202020202020202020202043413331203B46435F434B464E203B2020202020202020202043374241,
  0x41482052455454454C204C4C414D532045454B4F5245484320202020202020264C2023202020202020202020202044413331203B46435F434B464E203B2020202020202020202044374241,
  0x45482052455454454C204C4C414D532045454B4F5245484320202020202020264C2023202020202020202020202045413331203B46435F434B464E203B2020202020202020202045374241,
  0x49482052455454454C204C4C414D532045454B4F5245484320202020202020264C2023202020202020202020202046413331203B46435F434B464E203B2020202020202020202046374241,
  0x4F482052455454454C204C4C414D532045454B4F5245484320202020202020264C2023202020202020202020202030423331203B46435F434B464E203B2020202020202020202030384241,
  0x55482052455454454C204C4C414D532045454B4F5245484320202020202020264C2023202020202020202020202031423331203B46435F434B464E203B2020202020202020202031384241,
  0x56482052455454454C204C4C414D532045454B4F5245484320202020202020264C2023202020202020202020202032423331203B46435F434B464E203B2020202020202020202032384241,
  0x414C2052455454454C204C4C414D532045454B4F5245484320202020202020264C2023202020202020202020202033423331203B46435F434B464E203B2020202020202020202033384241,
  0x454C2052455454454C204C4C414D532045454B4F5245484320202020202020264C2023202020202020202020202034423331203B46435F434B464E203B2020202020202020202034384241,
  0x494C2052455454454C204C4C414D532045454B4F5245484320202020202020264C2023202020202020202020202035423331203B46435F434B464E203B2020202020202020202035384241,
  0x4F4C2052455454454C204C4C414D532045454B4F5245484320202020202020264C2023202020202020202020202036423331203B46435F434B464E203B2020202020202020202036384241,
  0x554C2052455454454C204C4C414D532045454B4F5245484320202020202020264C2023202020202020202020202037423331203B46435F434B464E203B2020202020202020202037384241,
  0x564C2052455454454C204C4C414D532045454B4F5245484320202020202020264C2023202020202020202020202038423331203B46435F434B464E203B2020202020202020202038384241,
  0x414D2052455454454C204C4C414D532045454B4F5245484320202020202020264C2023202020202020202020202039423331203B46435F434B464E203B2020202020202020202039384241,
  0x454D2052455454454C204C4C414D532045454B4F5245484320202020202020264C2023202020202020202020202041423331203B46435F434B464E203B2020202020202020202041384241,
  0x494D2052455454454C204C4C414D532045454B4F5245484320202020202020264C2023202020202020202020202042423331203B46435F434B464E203B2020202020202020202042384241,
  0x4F4D2052455454454C204C4C414D532045454B4F5245484320202020202020264C2023202020202020202020202043423331203B46435F434B464E203B2020202020202020202043384241,
  0x554D2052455454454C204C4C414D532045454B4F5245484320202020202020264C2023202020202020202020202044423331203B46435F434B464E203B2020202020202020202044384241,
  0x414E2052455454454C204C4C414D532045454B4F5245484320202020202020264C2023202020202020202020202045423331203B46435F434B464E203B2020202020202020202045384241,
  0x414E482052455454454C204C4C414D532045454B4F5245484320202020202020264C2023202020202020202020202046423331203B46435F434B464E203B2020202020202020202046384241,
  0x48414E2052455454454C204C4C414D532045454B4F5245484320202020202020264C2023202020202020202020202030433331203B46435F434B464E203B2020202020202020202030394241,
  0x454E2052455454454C204C4C414D532045454B4F5245484320202020202020264C2023202020202020202020202031433331203B46435F434B464E203B2020202020202020202031394241,
  0x494E2052455454454C204C4C414D532045454B4F5245484320202020202020264C2023202020202020202020202032433331203B46435F434B464E203B2020202020202020202032394241,
  0x4F4E2052455454454C204C4C414D532045454B4F5245484320202020202020264C2023202020202020202020202033433331203B46435F434B464E203B2020202020202020202033394241,
  0x554E2052455454454C204C4C414D532045454B4F5245484320202020202020264C2023202020202020202020202034433331203B46435F434B464E203B2020202020202020202034394241,
  0x564E2052455454454C204C4C414D532045454B4F5245484320202020202020264C2023202020202020202020202035433331203B46435F434B464E203B2020202020202020202035394241,
  0x4155512052455454454C204C4C414D532045454B4F5245484320202020202020264C2023202020202020202020202036433331203B46435F434B464E203B2020202020202020202036394241,
  0x4555512052455454454C204C4C414D532045454B4F5245484320202020202020264C2023202020202020202020202037433331203B46435F434B464E203B2020202020202020202037394241,
  0x4955512052455454454C204C4C414D532045454B4F5245484320202020202020264C2023202020202020202020202038433331203B46435F434B464E203B2020202020202020202038394241,
  0x4F55512052455454454C204C4C414D532045454B4F5245484320202020202020264C2023202020202020202020202039433331203B46435F434B464E203B2020202020202020202039394241,
  0x5555512052455454454C204C4C414D532045454B4F5245484320202020202020264C2023202020202020202020202041433331203B46435F434B464E203B2020202020202020202041394241,
  0x5655512052455454454C204C4C414D532045454B4F5245484320202020202020264C2023202020202020202020202042433331203B46435F434B464E203B2020202020202020202042394241,
  0x41532052455454454C204C4C414D532045454B4F5245484320202020202020264C2023202020202020202020202043433331203B46435F434B464E203B2020202020202020202043394241,
  0x532052455454454C204C4C414D532045454B4F5245484320202020202020264C2023202020202020202020202044433331203B46435F434B464E203B2020202020202020202044394241,
  0x45532052455454454C204C4C414D532045454B4F5245484320202020202020264C2023202020202020202020202045433331203B46435F434B464E203B2020202020202020202045394241,
  0x49532052455454454C204C4C414D532045454B4F5245484320202020202020264C2023202020202020202020202046433331203B46435F434B464E203B2020202020202020202046394241,
  0x4F532052455454454C204C4C414D532045454B4F5245484320202020202020264C2023202020202020202020202030443331203B46435F434B464E203B2020202020202020202030414241,
  0x55532052455454454C204C4C414D532045454B4F5245484320202020202020264C2023202020202020202020202031443331203B46435F434B464E203B2020202020202020202031414241,
  0x56532052455454454C204C4C414D532045454B4F5245484320202020202020264C2023202020202020202020202032443331203B46435F434B464E203B2020202020202020202032414241,
  0x41442052455454454C204C4C414D532045454B4F5245484320202020202020264C2023202020202020202020202033443331203B46435F434B464E203B2020202020202020202033414241,
  0x41542052455454454C204C4C414D532045454B4F5245484320202020202020264C2023202020202020202020202034443331203B46435F434B464E203B2020202020202020202034414241,
  0x45442052455454454C204C4C414D532045454B4F5245484320202020202020264C2023202020202020202020202035443331203B46435F434B464E203B2020202020202020202035414241,
  0x45542052455454454C204C4C414D532045454B4F5245484320202020202020264C2023202020202020202020202036443331203B46435F434B464E203B2020202020202020202036414241,
  0x49442052455454454C204C4C414D532045454B4F5245484320202020202020264C2023202020202020202020202037443331203B46435F434B464E203B2020202020202020202037414241,
  0x49542052455454454C204C4C414D532045454B4F5245484320202020202020264C2023202020202020202020202038443331203B46435F434B464E203B2020202020202020202038414241,
  0x4F442052455454454C204C4C414D532045454B4F5245484320202020202020264C2023202020202020202020202039443331203B46435F434B464E203B2020202020202020202039414241,
  0x55442052455454454C204C4C414D532045454B4F5245484320202020202020264C2023202020202020202020202041443331203B46435F434B464E203B2020202020202020202041414241,
  0x56442052455454454C204C4C414D532045454B4F5245484320202020202020264C2023202020202020202020202042443331203B46435F434B464E203B2020202020202020202042414241,
  0x414C442052455454454C204C4C414D532045454B4F5245484320202020202020264C2023202020202020202020202043443331203B46435F434B464E203B2020202020202020202043414241,
  0x414C542052455454454C204C4C414D532045454B4F5245484320202020202020264C2023202020202020202020202044443331203B46435F434B464E203B2020202020202020202044414241,
  0x454C542052455454454C204C4C414D532045454B4F5245484320202020202020264C2023202020202020202020202045443331203B46435F434B464E203B2020202020202020202045414241,
  0x494C542052455454454C204C4C414D532045454B4F5245484320202020202020264C2023202020202020202020202046443331203B46435F434B464E203B2020202020202020202046414241,
  0x4F4C542052455454454C204C4C414D532045454B4F5245484320202020202020264C2023202020202020202020202030453331203B46435F434B464E203B2020202020202020202030424241,
  0x554C542052455454454C204C4C414D532045454B4F5245484320202020202020264C2023202020202020202020202031453331203B46435F434B464E203B2020202020202020202031424241,
  0x564C542052455454454C204C4C414D532045454B4F5245484320202020202020264C2023202020202020202020202032453331203B46435F434B464E203B2020202020202020202032424241,
  0x4153542052455454454C204C4C414D532045454B4F5245484320202020202020264C2023202020202020202020202033453331203B46435F434B464E203B2020202020202020202033424241,
  0x4553542052455454454C204C4C414D532045454B4F5245484320202020202020264C2023202020202020202020202034453331203B46435F434B464E203B2020202020202020202034424241,
  0x4953542052455454454C204C4C414D532045454B4F5245484320202020202020264C2023202020202020202020202035453331203B46435F434B464E203B2020202020202020202035424241,
  0x4F53542052455454454C204C4C414D532045454B4F5245484320202020202020264C2023202020202020202020202036453331203B46435F434B464E203B2020202020202020202036424241,
  0x5553542052455454454C204C4C414D532045454B4F5245484320202020202020264C2023202020202020202020202037453331203B46435F434B464E203B2020202020202020202037424241,
  0x5653542052455454454C204C4C414D532045454B4F5245484320202020202020264C2023202020202020202020202038453331203B46435F434B464E203B2020202020202020202038424241,
  0x41572052455454454C204C4C414D532045454B4F5245484320202020202020264C2023202020202020202020202039453331203B46435F434B464E203B2020202020202020202039424241,
  0x45572052455454454C204C4C414D532045454B4F5245484320202020202020264C2023202020202020202020202041453331203B46435F434B464E203B2020202020202020202041424241,
  0x49572052455454454C204C4C414D532045454B4F5245484320202020202020264C2023202020202020202020202042453331203B46435F434B464E203B2020202020202020202042424241,
  0x4F572052455454454C204C4C414D532045454B4F5245484320202020202020264C2023202020202020202020202043453331203B46435F434B464E203B2020202020202020202043424241,
  0x55572052455454454C204C4C414D532045454B4F5245484320202020202020264C2023202020202020202020202044453331203B46435F434B464E203B2020202020202020202044424241,
  0x56572052455454454C204C4C414D532045454B4F5245484320202020202020264C2023202020202020202020202045453331203B46435F434B464E203B2020202020202020202045424241,
  0x41592052455454454C204C4C414D532045454B4F5245484320202020202020264C2023202020202020202020202046453331203B46435F434B464E203B2020202020202020202046424241,
  0x303039462D48504152474F454449205954494C4942495441504D4F43204B4A43202020202020206F4C2023202020202020202020202038344338203B46435F434B464E203B2020202020202020202030303946,
  0x313039462D48504152474F454449205954494C4942495441504D4F43204B4A43202020202020206F4C2023202020202020202020202034463636203B46435F434B464E203B2020202020202020202031303946,
  0x323039462D48504152474F454449205954494C4942495441504D4F43204B4A43202020202020206F4C2023202020202020202020202041434538203B46435F434B464E203B2020202020202020202032303946,
  0x333039462D48504152474F454449205954494C4942495441504D4F43204B4A43202020202020206F4C2023202020202020202020202038434338203B46435F434B464E203B2020202020202020202033303946,
  0x343039462D48504152474F454449205954494C4942495441504D4F43204B4A43202020202020206F4C2023202020202020202020202031444536203B46435F434B464E203B2020202020202020202034303946,
  0x353039462D48504152474F454449205954494C4942495441504D4F43204B4A43202020202020206F4C2023202020202020202020202032334534203B46435F434B464E203B2020202020202020202035303946,
  0x363039462D48504152474F454449205954494C4942495441504D4F43204B4A43202020202020206F4C2023202020202020202020202035453335203B46435F434B464E203B2020202020202020202036303946,
  0x383039462D48504152474F454449205954494C4942495441504D4F43204B4A432E2E373039462D48504152474F454449205954494C4942495441504D4F43204B4A43205D325B2020206F4C2023202020202020202020202043394639203B46435F434B464E203B20202020383039462E2E37303946,
  0x393039462D48504152474F454449205954494C4942495441504D4F43204B4A43202020202020206F4C2023202020202020202020202031353935203B46435F434B464E203B2020202020202020202039303946,
  0x413039462D48504152474F454449205954494C4942495441504D4F43204B4A43202020202020206F4C2023202020202020202020202031443139203B46435F434B464E203B2020202020202020202041303946,
  0x423039462D48504152474F454449205954494C4942495441504D4F43204B4A43202020202020206F4C2023202020202020202020202037383535203B46435F434B464E203B2020202020202020202042303946,
  0x433039462D48504152474F454449205954494C4942495441504D4F43204B4A43202020202020206F4C2023202020202020202020202038343935203B46435F434B464E203B2020202020202020202043303946,
  0x443039462D48504152474F454449205954494C4942495441504D4F43204B4A43202020202020206F4C2023202020202020202020202036463136203B46435F434B464E203B2020202020202020202044303946,
  0x453039462D48504152474F454449205954494C4942495441504D4F43204B4A43202020202020206F4C2023202020202020202020202039363637203B46435F434B464E203B2020202020202020202045303946,
  0x463039462D48504152474F454449205954494C4942495441504D4F43204B4A43202020202020206F4C2023202020202020202020202035384637203B46435F434B464E203B2020202020202020202046303946,
  0x303139462D48504152474F454449205954494C4942495441504D4F43204B4A43202020202020206F4C2023202020202020202020202046333638203B46435F434B464E203B2020202020202020202030313946,
  0x313139462D48504152474F454449205954494C4942495441504D4F43204B4A43202020202020206F4C2023202020202020202020202041423738203B46435F434B464E203B2020202020202020202031313946,
  0x323139462D48504152474F454449205954494C4942495441504D4F43204B4A43202020202020206F4C2023202020202020202020202038463838203B46435F434B464E203B2020202020202020202032313946,
  0x333139462D48504152474F454449205954494C4942495441504D4F43204B4A43202020202020206F4C2023202020202020202020202046383039203B46435F434B464E203B2020202020202020202033313946,
  0x343139462D48504152474F454449205954494C4942495441504D4F43204B4A43202020202020206F4C2023202020202020202020202032304136203B46435F434B464E203B2020202020202020202034313946,
  0x353139462D48504152474F454449205954494C4942495441504D4F43204B4A43202020202020206F4C2023202020202020202020202042314436203B46435F434B464E203B2020202020202020202035313946,
  0x363139462D48504152474F454449205954494C4942495441504D4F43204B4A43202020202020206F4C2023202020202020202020202039443037203B46435F434B464E203B2020202020202020202036313946,
  0x373139462D48504152474F454449205954494C4942495441504D4F43204B4A43202020202020206F4C2023202020202020202020202045443337203B46435F434B464E203B2020202020202020202037313946,
  0x383139462D48504152474F454449205954494C4942495441504D4F43204B4A43202020202020206F4C2023202020202020202020202044333438203B46435F434B464E203B2020202020202020202038313946,
  0x393139462D48504152474F454449205954494C4942495441504D4F43204B4A43202020202020206F4C2023202020202020202020202041363139203B46435F434B464E203B2020202020202020202039313946,
  0x413139462D48504152474F454449205954494C4942495441504D4F43204B4A43202020202020206F4C2023202020202020202020202031463939203B46435F434B464E203B2020202020202020202041313946,
  0x423139462D48504152474F454449205954494C4942495441504D4F43204B4A43202020202020206F4C2023202020202020202020202032384534203B46435F434B464E203B2020202020202020202042313946,
  0x433139462D48504152474F454449205954494C4942495441504D4F43204B4A43202020202020206F4C2023202020202020202020202035373335203B46435F434B464E203B2020202020202020202043313946,
  0x443139462D48504152474F454449205954494C4942495441504D4F43204B4A43202020202020206F4C2023202020202020202020202034304236203B46435F434B464E203B2020202020202020202044313946,
  0x453139462D48504152474F454449205954494C4942495441504D4F43204B4A43202020202020206F4C2023202020202020202020202042313237203B46435F434B464E203B2020202020202020202045313946,
  0x463139462D48504152474F454449205954494C4942495441504D4F43204B4A43202020202020206F4C2023202020202020202020202044323638203B46435F434B464E203B2020202020202020202046313946,
  0x303239462D48504152474F454449205954494C4942495441504D4F43204B4A43202020202020206F4C2023202020202020202020202045314539203B46435F434B464E203B2020202020202020202030323946,
  0x313239462D48504152474F454449205954494C4942495441504D4F43204B4A43202020202020206F4C2023202020202020202020202030354435203B46435F434B464E203B2020202020202020202031323946,
  0x323239462D48504152474F454449205954494C4942495441504D4F43204B4A43202020202020206F4C2023202020202020202020202042454636203B46435F434B464E203B2020202020202020202032323946,
  0x333239462D48504152474F454449205954494C4942495441504D4F43204B4A43202020202020206F4C2023202020202020202020202044433538203B46435F434B464E203B2020202020202020202033323946,
  0x343239462D48504152474F454449205954494C4942495441504D4F43204B4A43202020202020206F4C2023202020202020202020202034363938203B46435F434B464E203B2020202020202020202034323946,
  0x353239462D48504152474F454449205954494C4942495441504D4F43204B4A43202020202020206F4C2023202020202020202020202039433236203B46435F434B464E203B2020202020202020202035323946,
  0x363239462D48504152474F454449205954494C4942495441504D4F43204B4A43202020202020206F4C2023202020202020202020202038443138203B46435F434B464E203B2020202020202020202036323946,
  0x373239462D48504152474F454449205954494C4942495441504D4F43204B4A43202020202020206F4C2023202020202020202020202046313838203B46435F434B464E203B2020202020202020202037323946,
  0x383239462D48504152474F454449205954494C4942495441504D4F43204B4A43202020202020206F4C2023202020202020202020202041434535203B46435F434B464E203B2020202020202020202038323946,
  0x393239462D48504152474F454449205954494C4942495441504D4F43204B4A43202020202020206F4C2023202020202020202020202037313736203B46435F434B464E203B2020202020202020202039323946,
  0x413239462D48504152474F454449205954494C4942495441504D4F43204B4A43202020202020206F4C2023202020202020202020202041364436203B46435F434B464E203B2020202020202020202041323946,
  0x423239462D48504152474F454449205954494C4942495441504D4F43204B4A43202020202020206F4C2023202020202020202020202043463237203B46435F434B464E203B2020202020202020202042323946,
  0x433239462D48504152474F454449205954494C4942495441504D4F43204B4A43202020202020206F4C2023202020202020202020202045433039203B46435F434B464E203B2020202020202020202043323946,
  0x443239462D48504152474F454449205954494C4942495441504D4F43204B4A43202020202020206F4C2023202020202020202020202036384634203B46435F434B464E203B2020202020202020202044323946,
  0x453239462D48504152474F454449205954494C4942495441504D4F43204B4A43202020202020206F4C2023202020202020202020202037423135203B46435F434B464E203B2020202020202020202045323946,
  0x463239462D48504152474F454449205954494C4942495441504D4F43204B4A43202020202020206F4C2023202020202020202020202045443235203B46435F434B464E203B2020202020202020202046323946,
  0x303339462D48504152474F454449205954494C4942495441504D4F43204B4A43202020202020206F4C2023202020202020202020202034433436203B46435F434B464E203B2020202020202020202030333946,
  0x313339462D48504152474F454449205954494C4942495441504D4F43204B4A43202020202020206F4C2023202020202020202020202033444136203B46435F434B464E203B2020202020202020202031333946,
  0x323339462D48504152474F454449205954494C4942495441504D4F43204B4A43202020202020206F4C2023202020202020202020202030313237203B46435F434B464E203B2020202020202020202032333946,
  0x333339462D48504152474F454449205954494C4942495441504D4F43204B4A43202020202020206F4C2023202020202020202020202037453637203B46435F434B464E203B2020202020202020202033333946,
  0x343339462D48504152474F454449205954494C4942495441504D4F43204B4A43202020202020206F4C2023202020202020202020202031303038203B46435F434B464E203B2020202020202020202034333946,
  0x353339462D48504152474F454449205954494C4942495441504D4F43204B4A43202020202020206F4C2023202020202020202020202036303638203B46435F434B464E203B2020202020202020202035333946,
  0x363339462D48504152474F454449205954494C4942495441504D4F43204B4A43202020202020206F4C2023202020202020202020202043353638203B46435F434B464E203B2020202020202020202036333946,
  0x373339462D48504152474F454449205954494C4942495441504D4F43204B4A43202020202020206F4C2023202020202020202020202046454438203B46435F434B464E203B2020202020202020202037333946,
  0x383339462D48504152474F454449205954494C4942495441504D4F43204B4A43202020202020206F4C2023202020202020202020202032333739203B46435F434B464E203B2020202020202020202038333946,
  0x393339462D48504152474F454449205954494C4942495441504D4F43204B4A43202020202020206F4C2023202020202020202020202046364239203B46435F434B464E203B2020202020202020202039333946,
  0x413339462D48504152474F454449205954494C4942495441504D4F43204B4A43202020202020206F4C2023202020202020202020202041464439203B46435F434B464E203B2020202020202020202041333946,
  0x423339462D48504152474F454449205954494C4942495441504D4F43204B4A43202020202020206F4C2023202020202020202020202043383837203B46435F434B464E203B2020202020202020202042333946,
  0x433339462D48504152474F454449205954494C4942495441504D4F43204B4A43202020202020206F4C2023202020202020202020202046373937203B46435F434B464E203B2020202020202020202043333946,
  0x443339462D48504152474F454449205954494C4942495441504D4F43204B4A43202020202020206F4C2023202020202020202020202030414437203B46435F434B464E203B2020202020202020202044333946,
  0x453339462D48504152474F454449205954494C4942495441504D4F43204B4A43202020202020206F4C2023202020202020202020202039433338203B46435F434B464E203B2020202020202020202045333946,
  0x463339462D48504152474F454449205954494C4942495441504D4F43204B4A43202020202020206F4C2023202020202020202020202034303339203B46435F434B464E203B2020202020202020202046333946,
  0x303439462D48504152474F454449205954494C4942495441504D4F43204B4A43202020202020206F4C2023202020202020202020202046374539203B46435F434B464E203B2020202020202020202030343946,
  0x313439462D48504152474F454449205954494C4942495441504D4F43204B4A43202020202020206F4C2023202020202020202020202036444138203B46435F434B464E203B2020202020202020202031343946]

def qcText22 : List Nat := [
  0x323439462D48504152474F454449205954494C4942495441504D4F43204B4A43202020202020206F4C2023202020202020202020202046443835203B46435F434B464E203B2020202020202020202032343946,
  0x333439462D48504152474F454449205954494C4942495441504D4F43204B4A43202020202020206F4C2023202020202020202020202034304635203B46435F434B464E203B2020202020202020202033343946,
  0x343439462D48504152474F454449205954494C4942495441504D4F43204B4A43202020202020206F4C2023202020202020202020202030364337203B46435F434B464E203B2020202020202020202034343946,
  0x353439462D48504152474F454449205954494C4942495441504D4F43204B4A43202020202020206F4C2023202020202020202020202045373038203B46435F434B464E203B2020202020202020202035343946,
  0x363439462D48504152474F454449205954494C4942495441504D4F43204B4A43202020202020206F4C2023202020202020202020202032363237203B46435F434B464E203B2020202020202020202036343946,
  0x373439462D48504152474F454449205954494C4942495441504D4F43204B4A43202020202020206F4C2023202020202020202020202041433837203B46435F434B464E203B2020202020202020202037343946,
  0x383439462D48504152474F454449205954494C4942495441504D4F43204B4A43202020202020206F4C2023202020202020202020202032434338203B46435F434B464E203B2020202020202020202038343946,
  0x393439462D48504152474F454449205954494C4942495441504D4F43204B4A43202020202020206F4C2023202020202020202020202037463639203B46435F434B464E203B2020202020202020202039343946,
  0x413439462D48504152474F454449205954494C4942495441504D4F43204B4A43202020202020206F4C2023202020202020202020202038443835203B46435F434B464E203B2020202020202020202041343946,
  0x423439462D48504152474F454449205954494C4942495441504D4F43204B4A43202020202020206F4C2023202020202020202020202032364335203B46435F434B464E203B2020202020202020202042343946,
  0x433439462D48504152474F454449205954494C4942495441504D4F43204B4A43202020202020206F4C2023202020202020202020202033314136203B46435F434B464E203B2020202020202020202043343946,
  0x443439462D48504152474F454449205954494C4942495441504D4F43204B4A43202020202020206F4C2023202020202020202020202041444436203B46435F434B464E203B2020202020202020202044343946,
  0x453439462D48504152474F454449205954494C4942495441504D4F43204B4A43202020202020206F4C2023202020202020202020202046304636203B46435F434B464E203B2020202020202020202045343946,
  0x463439462D48504152474F454449205954494C4942495441504D4F43204B4A43202020202020206F4C2023202020202020202020202046324437203B46435F434B464E203B2020202020202020202046343946,
  0x303539462D48504152474F454449205954494C4942495441504D4F43204B4A43202020202020206F4C2023202020202020202020202037334537203B46435F434B464E203B2020202020202020202030353946,
  0x313539462D48504152474F454449205954494C4942495441504D4F43204B4A43202020202020206F4C2023202020202020202020202042343639203B46435F434B464E203B2020202020202020202031353946,
  0x323539462D48504152474F454449205954494C4942495441504D4F43204B4A43202020202020206F4C2023202020202020202020202032443235203B46435F434B464E203B2020202020202020202032353946,
  0x333539462D48504152474F454449205954494C4942495441504D4F43204B4A43202020202020206F4C2023202020202020202020202042383038203B46435F434B464E203B2020202020202020202033353946,
  0x343539462D48504152474F454449205954494C4942495441504D4F43204B4A43202020202020206F4C2023202020202020202020202043443135203B46435F434B464E203B2020202020202020202034353946,
  0x353539462D48504152474F454449205954494C4942495441504D4F43204B4A43202020202020206F4C2023202020202020202020202043433135203B46435F434B464E203B2020202020202020202035353946,
  0x363539462D48504152474F454449205954494C4942495441504D4F43204B4A43202020202020206F4C2023202020202020202020202043314137203B46435F434B464E203B2020202020202020202036353946,
  0x373539462D48504152474F454449205954494C4942495441504D4F43204B4A43202020202020206F4C2023202020202020202020202045424437203B46435F434B464E203B2020202020202020202037353946,
  0x383539462D48504152474F454449205954494C4942495441504D4F43204B4A43202020202020206F4C2023202020202020202020202031463338203B46435F434B464E203B2020202020202020202038353946,
  0x393539462D48504152474F454449205954494C4942495441504D4F43204B4A43202020202020206F4C2023202020202020202020202035373639203B46435F434B464E203B2020202020202020202039353946,
  0x413539462D48504152474F454449205954494C4942495441504D4F43204B4A43202020202020206F4C2023202020202020202020202030384238203B46435F434B464E203B2020202020202020202041353946,
  0x423539462D48504152474F454449205954494C4942495441504D4F43204B4A43202020202020206F4C2023202020202020202020202046433236203B46435F434B464E203B2020202020202020202042353946,
  0x433539462D48504152474F454449205954494C4942495441504D4F43204B4A43202020202020206F4C2023202020202020202020202032304136203B46435F434B464E203B2020202020202020202043353946,
  0x443539462D48504152474F454449205954494C4942495441504D4F43204B4A43202020202020206F4C2023202020202020202020202045464138203B46435F434B464E203B2020202020202020202044353946,
  0x453539462D48504152474F454449205954494C4942495441504D4F43204B4A43202020202020206F4C2023202020202020202020202039334534203B46435F434B464E203B2020202020202020202045353946,
  0x463539462D48504152474F454449205954494C4942495441504D4F43204B4A43202020202020206F4C2023202020202020202020202037454235203B46435F434B464E203B2020202020202020202046353946,
  0x303639462D48504152474F454449205954494C4942495441504D4F43204B4A43202020202020206F4C2023202020202020202020202032313036203B46435F434B464E203B2020202020202020202030363946,
  0x313639462D48504152474F454449205954494C4942495441504D4F43204B4A43202020202020206F4C2023202020202020202020202037383337203B46435F434B464E203B2020202020202020202031363946,
  0x323639462D48504152474F454449205954494C4942495441504D4F43204B4A43202020202020206F4C2023202020202020202020202030373537203B46435F434B464E203B2020202020202020202032363946,
  0x333639462D48504152474F454449205954494C4942495441504D4F43204B4A43202020202020206F4C2023202020202020202020202037313335203B46435F434B464E203B2020202020202020202033363946,
  0x343639462D48504152474F454449205954494C4942495441504D4F43204B4A43202020202020206F4C2023202020202020202020202042463837203B46435F434B464E203B2020202020202020202034363946,
  0x353639462D48504152474F454449205954494C4942495441504D4F43204B4A43202020202020206F4C2023202020202020202020202046424634203B46435F434B464E203B2020202020202020202035363946,
  0x363639462D48504152474F454449205954494C4942495441504D4F43204B4A43202020202020206F4C2023202020202020202020202039414635203B46435F434B464E203B2020202020202020202036363946,
  0x373639462D48504152474F454449205954494C4942495441504D4F43204B4A43202020202020206F4C2023202020202020202020202044304534203B46435F434B464E203B2020202020202020202037363946,
  0x383639462D48504152474F454449205954494C4942495441504D4F43204B4A43202020202020206F4C2023202020202020202020202043434336203B46435F434B464E203B2020202020202020202038363946,
  0x393639462D48504152474F454449205954494C4942495441504D4F43204B4A43202020202020206F4C2023202020202020202020202038373536203B46435F434B464E203B2020202020202020202039363946,
  0x413639462D48504152474F454449205954494C4942495441504D4F43204B4A43202020202020206F4C2023202020202020202020202032324437203B46435F434B464E203B2020202020202020202041363946,
  0x423639462D48504152474F454449205954494C4942495441504D4F43204B4A43202020202020206F4C2023202020202020202020202033433335203B46435F434B464E203B2020202020202020202042363946,
  0x433639462D48504152474F454449205954494C4942495441504D4F43204B4A43202020202020206F4C2023202020202020202020202045353835203B46435F434B464E203B2020202020202020202043363946,
  0x443639462D48504152474F454449205954494C4942495441504D4F43204B4A43202020202020206F4C2023202020202020202020202031303737203B46435F434B464E203B2020202020202020202044363946,
  0x453639462D48504152474F454449205954494C4942495441504D4F43204B4A43202020202020206F4C2023202020202020202020202039343438203B46435F434B464E203B2020202020202020202045363946,
  0x463639462D48504152474F454449205954494C4942495441504D4F43204B4A43202020202020206F4C2023202020202020202020202041414138203B46435F434B464E203B2020202020202020202046363946,
  0x303739462D48504152474F454449205954494C4942495441504D4F43204B4A43202020202020206F4C2023202020202020202020202041424236203B46435F434B464E203B2020202020202020202030373946,
  0x313739462D48504152474F454449205954494C4942495441504D4F43204B4A43202020202020206F4C2023202020202020202020202030424638203B46435F434B464E203B2020202020202020202031373946,
  0x323739462D48504152474F454449205954494C4942495441504D4F43204B4A43202020202020206F4C2023202020202020202020202038384336203B46435F434B464E203B2020202020202020202032373946,
  0x333739462D48504152474F454449205954494C4942495441504D4F43204B4A43202020202020206F4C2023202020202020202020202045463236203B46435F434B464E203B2020202020202020202033373946,
  0x343739462D48504152474F454449205954494C4942495441504D4F43204B4A43202020202020206F4C2023202020202020202020202035453238203B46435F434B464E203B2020202020202020202034373946,
  0x353739462D48504152474F454449205954494C4942495441504D4F43204B4A43202020202020206F4C2023202020202020202020202030413336203B46435F434B464E203B2020202020202020202035373946,
  0x363739462D48504152474F454449205954494C4942495441504D4F43204B4A43202020202020206F4C2023202020202020202020202035363537203B46435F434B464E203B2020202020202020202036373946,
  0x373739462D48504152474F454449205954494C4942495441504D4F43204B4A43202020202020206F4C2023202020202020202020202045414534203B46435F434B464E203B2020202020202020202037373946,
  0x383739462D48504152474F454449205954494C4942495441504D4F43204B4A43202020202020206F4C2023202020202020202020202039363135203B46435F434B464E203B2020202020202020202038373946,
  0x393739462D48504152474F454449205954494C4942495441504D4F43204B4A43202020202020206F4C2023202020202020202020202039433135203B46435F434B464E203B2020202020202020202039373946,
  0x413739462D48504152474F454449205954494C4942495441504D4F43204B4A43202020202020206F4C2023202020202020202020202031383836203B46435F434B464E203B2020202020202020202041373946,
  0x423739462D48504152474F454449205954494C4942495441504D4F43204B4A43202020202020206F4C2023202020202020202020202037454337203B46435F434B464E203B2020202020202020202042373946,
  0x433739462D48504152474F454449205954494C4942495441504D4F43204B4A43202020202020206F4C2023202020202020202020202046363238203B46435F434B464E203B2020202020202020202043373946,
  0x443739462D48504152474F454449205954494C4942495441504D4F43204B4A43202020202020206F4C2023202020202020202020202032444138203B46435F434B464E203B2020202020202020202044373946,
  0x453739462D48504152474F454449205954494C4942495441504D4F43204B4A43202020202020206F4C2023202020202020202020202046433139203B46435F434B464E203B2020202020202020202045373946,
  0x463739462D48504152474F454449205954494C4942495441504D4F43204B4A43202020202020206F4C2023202020202020202020202035463235203B46435F434B464E203B2020202020202020202046373946,
  0x303839462D48504152474F454449205954494C4942495441504D4F43204B4A43202020202020206F4C2023202020202020202020202032343435203B46435F434B464E203B2020202020202020202030383946,
  0x313839462D48504152474F454449205954494C4942495441504D4F43204B4A43202020202020206F4C2023202020202020202020202033373935203B46435F434B464E203B2020202020202020202031383946,
  0x323839462D48504152474F454449205954494C4942495441504D4F43204B4A43202020202020206F4C2023202020202020202020202043454535203B46435F434B464E203B2020202020202020202032383946,
  0x333839462D48504152474F454449205954494C4942495441504D4F43204B4A43202020202020206F4C2023202020202020202020202035433536203B46435F434B464E203B2020202020202020202033383946,
  0x343839462D48504152474F454449205954494C4942495441504D4F43204B4A43202020202020206F4C2023202020202020202020202045464636203B46435F434B464E203B2020202020202020202034383946,
  0x353839462D48504152474F454449205954494C4942495441504D4F43204B4A43202020202020206F4C2023202020202020202020202041323937203B46435F434B464E203B2020202020202020202035383946,
  0x363839462D48504152474F454449205954494C4942495441504D4F43204B4A43202020202020206F4C2023202020202020202020202044413539203B46435F434B464E203B2020202020202020202036383946,
  0x373839462D48504152474F454449205954494C4942495441504D4F43204B4A43202020202020206F4C2023202020202020202020202041364139203B46435F434B464E203B2020202020202020202037383946,
  0x383839462D48504152474F454449205954494C4942495441504D4F43204B4A43202020202020206F4C2023202020202020202020202037394539203B46435F434B464E203B2020202020202020202038383946,
  0x393839462D48504152474F454449205954494C4942495441504D4F43204B4A43202020202020206F4C2023202020202020202020202045434539203B46435F434B464E203B2020202020202020202039383946,
  0x413839462D48504152474F454449205954494C4942495441504D4F43204B4A43202020202020206F4C2023202020202020202020202042393235203B46435F434B464E203B2020202020202020202041383946,
  0x423839462D48504152474F454449205954494C4942495441504D4F43204B4A43202020202020206F4C2023202020202020202020202036433636203B46435F434B464E203B2020202020202020202042383946,
  0x433839462D48504152474F454449205954494C4942495441504D4F43204B4A43202020202020206F4C2023202020202020202020202037374236203B46435F434B464E203B2020202020202020202043383946,
  0x443839462D48504152474F454449205954494C4942495441504D4F43204B4A43202020202020206F4C2023202020202020202020202032364638203B46435F434B464E203B2020202020202020202044383946,
  0x453839462D48504152474F454449205954494C4942495441504D4F43204B4A43202020202020206F4C2023202020202020202020202034374535203B46435F434B464E203B2020202020202020202045383946,
  0x463839462D48504152474F454449205954494C4942495441504D4F43204B4A43202020202020206F4C2023202020202020202020202030393136203B46435F434B464E203B2020202020202020202046383946,
  0x303939462D48504152474F454449205954494C4942495441504D4F43204B4A43202020202020206F4C2023202020202020202020202030303236203B46435F434B464E203B2020202020202020202030393946,
  0x313939462D48504152474F454449205954494C4942495441504D4F43204B4A43202020202020206F4C2023202020202020202020202041393436203B46435F434B464E203B2020202020202020202031393946,
  0x323939462D48504152474F454449205954494C4942495441504D4F43204B4A43202020202020206F4C2023202020202020202020202033324636203B46435F434B464E203B2020202020202020202032393946,
  0x333939462D48504152474F454449205954494C4942495441504D4F43204B4A43202020202020206F4C2023202020202020202020202039343137203B46435F434B464E203B2020202020202020202033393946,
  0x343939462D48504152474F454449205954494C4942495441504D4F43204B4A43202020202020206F4C2023202020202020202020202039383437203B46435F434B464E203B2020202020202020202034393946,
  0x353939462D48504152474F454449205954494C4942495441504D4F43204B4A43202020202020206F4C2023202020202020202020202041433937203B46435F434B464E203B2020202020202020202035393946,
  0x363939462D48504152474F454449205954494C4942495441504D4F43204B4A43202020202020206F4C2023202020202020202020202034464437203B46435F434B464E203B2020202020202020202036393946,
  0x373939462D48504152474F454449205954494C4942495441504D4F43204B4A43202020202020206F4C2023202020202020202020202046363038203B46435F434B464E203B2020202020202020202037393946,
  0x383939462D48504152474F454449205954494C4942495441504D4F43204B4A43202020202020206F4C2023202020202020202020202036324638203B46435F434B464E203B2020202020202020202038393946,
  0x393939462D48504152474F454449205954494C4942495441504D4F43204B4A43202020202020206F4C2023202020202020202020202045453438203B46435F434B464E203B2020202020202020202039393946,
  0x413939462D48504152474F454449205954494C4942495441504D4F43204B4A43202020202020206F4C2023202020202020202020202033323039203B46435F434B464E203B2020202020202020202041393946,
  0x423939462D48504152474F454449205954494C4942495441504D4F43204B4A43202020202020206F4C2023202020202020202020202041343339203B46435F434B464E203B2020202020202020202042393946,
  0x433939462D48504152474F454449205954494C4942495441504D4F43204B4A43202020202020206F4C2023202020202020202020202037313235203B46435F434B464E203B2020202020202020202043393946,
  0x443939462D48504152474F454449205954494C4942495441504D4F43204B4A43202020202020206F4C2023202020202020202020202033413235203B46435F434B464E203B2020202020202020202044393946,
  0x453939462D48504152474F454449205954494C4942495441504D4F43204B4A43202020202020206F4C2023202020202020202020202044423435203B46435F434B464E203B2020202020202020202045393946,
  0x463939462D48504152474F454449205954494C4942495441504D4F43204B4A43202020202020206F4C2023202020202020202020202038433037203B46435F434B464E203B2020202020202020202046393946,
  0x304139462D48504152474F454449205954494C4942495441504D4F43204B4A43202020202020206F4C2023202020202020202020202032433838203B46435F434B464E203B2020202020202020202030413946,
  0x314139462D48504152474F454449205954494C4942495441504D4F43204B4A43202020202020206F4C2023202020202020202020202041414138203B46435F434B464E203B2020202020202020202031413946,
  0x324139462D48504152474F454449205954494C4942495441504D4F43204B4A43202020202020206F4C2023202020202020202020202039434535203B46435F434B464E203B2020202020202020202032413946,
  0x334139462D48504152474F454449205954494C4942495441504D4F43204B4A43202020202020206F4C2023202020202020202020202035464635203B46435F434B464E203B2020202020202020202033413946,
  0x344139462D48504152474F454449205954494C4942495441504D4F43204B4A43202020202020206F4C2023202020202020202020202042373336203B46435F434B464E203B2020202020202020202034413946,
  0x354139462D48504152474F454449205954494C4942495441504D4F43204B4A43202020202020206F4C2023202020202020202020202045414236203B46435F434B464E203B2020202020202020202035413946,
  0x364139462D48504152474F454449205954494C4942495441504D4F43204B4A43202020202020206F4C2023202020202020202020202045334337203B46435F434B464E203B2020202020202020202036413946,
  0x374139462D48504152474F454449205954494C4942495441504D4F43204B4A43202020202020206F4C2023202020202020202020202035373337203B46435F434B464E203B2020202020202020202037413946,
  0x384139462D48504152474F454449205954494C4942495441504D4F43204B4A43202020202020206F4C2023202020202020202020202034454534203B46435F434B464E203B2020202020202020202038413946,
  0x394139462D48504152474F454449205954494C4942495441504D4F43204B4A43202020202020206F4C2023202020202020202020202039463635203B46435F434B464E203B2020202020202020202039413946,
  0x414139462D48504152474F454449205954494C4942495441504D4F43204B4A43202020202020206F4C2023202020202020202020202037454235203B46435F434B464E203B2020202020202020202041413946,
  0x424139462D48504152474F454449205954494C4942495441504D4F43204B4A43202020202020206F4C2023202020202020202020202041424435203B46435F434B464E203B2020202020202020202042413946,
  0x434139462D48504152474F454449205954494C4942495441504D4F43204B4A43202020202020206F4C2023202020202020202020202043313036203B46435F434B464E203B2020202020202020202043413946,
  0x444139462D48504152474F454449205954494C4942495441504D4F43204B4A43202020202020206F4C2023202020202020202020202032423337203B46435F434B464E203B2020202020202020202044413946,
  0x454139462D48504152474F454449205954494C4942495441504D4F43204B4A43202020202020206F4C2023202020202020202020202039363437203B46435F434B464E203B2020202020202020202045413946,
  0x464139462D48504152474F454449205954494C4942495441504D4F43204B4A43202020202020206F4C2023202020202020202020202041394637203B46435F434B464E203B2020202020202020202046413946,
  0x304239462D48504152474F454449205954494C4942495441504D4F43204B4A43202020202020206F4C2023202020202020202020202036343038203B46435F434B464E203B2020202020202020202030423946,
  0x314239462D48504152474F454449205954494C4942495441504D4F43204B4A43202020202020206F4C2023202020202020202020202034333239203B46435F434B464E203B2020202020202020202031423946,
  0x324239462D48504152474F454449205954494C4942495441504D4F43204B4A43202020202020206F4C2023202020202020202020202036463639203B46435F434B464E203B2020202020202020202032423946,
  0x334239462D48504152474F454449205954494C4942495441504D4F43204B4A43202020202020206F4C2023202020202020202020202038343739203B46435F434B464E203B2020202020202020202033423946,
  0x344239462D48504152474F454449205954494C4942495441504D4F43204B4A43202020202020206F4C2023202020202020202020202038313839203B46435F434B464E203B2020202020202020202034423946,
  0x354239462D48504152474F454449205954494C4942495441504D4F43204B4A43202020202020206F4C2023202020202020202020202042384634203B46435F434B464E203B2020202020202020202035423946,
  0x364239462D48504152474F454449205954494C4942495441504D4F43204B4A43202020202020206F4C2023202020202020202020202045413937203B46435F434B464E203B2020202020202020202036423946,
  0x374239462D48504152474F454449205954494C4942495441504D4F43204B4A43202020202020206F4C2023202020202020202020202034423139203B46435F434B464E203B2020202020202020202037423946,
  0x384239462D48504152474F454449205954494C4942495441504D4F43204B4A43202020202020206F4C2023202020202020202020202038423639203B46435F434B464E203B2020202020202020202038423946,
  0x394239462D48504152474F454449205954494C4942495441504D4F43204B4A43202020202020206F4C2023202020202020202020202031453036203B46435F434B464E203B2020202020202020202039423946,
  0x414239462D48504152474F454449205954494C4942495441504D4F43204B4A43202020202020206F4C2023202020202020202020202036384534203B46435F434B464E203B2020202020202020202041423946,
  0x424239462D48504152474F454449205954494C4942495441504D4F43204B4A43202020202020206F4C2023202020202020202020202041443035203B46435F434B464E203B2020202020202020202042423946,
  0x434239462D48504152474F454449205954494C4942495441504D4F43204B4A43202020202020206F4C2023202020202020202020202045454235203B46435F434B464E203B2020202020202020202043423946,
  0x444239462D48504152474F454449205954494C4942495441504D4F43204B4A43202020202020206F4C2023202020202020202020202046334335203B46435F434B464E203B2020202020202020202044423946,
  0x454239462D48504152474F454449205954494C4942495441504D4F43204B4A43202020202020206F4C2023202020202020202020202039393536203B46435F434B464E203B2020202020202020202045423946,
  0x464239462D48504152474F454449205954494C4942495441504D4F43204B4A43202020202020206F4C2023202020202020202020202032304136203B46435F434B464E203B2020202020202020202046423946,
  0x304339462D48504152474F454449205954494C4942495441504D4F43204B4A43202020202020206F4C2023202020202020202020202045433137203B46435F434B464E203B2020202020202020202030433946,
  0x314339462D48504152474F454449205954494C4942495441504D4F43204B4A43202020202020206F4C2023202020202020202020202032343637203B46435F434B464E203B2020202020202020202031433946,
  0x324339462D48504152474F454449205954494C4942495441504D4F43204B4A43202020202020206F4C2023202020202020202020202043463438203B46435F434B464E203B2020202020202020202032433946,
  0x334339462D48504152474F454449205954494C4942495441504D4F43204B4A43202020202020206F4C2023202020202020202020202043373039203B46435F434B464E203B2020202020202020202033433946,
  0x344339462D48504152474F454449205954494C4942495441504D4F43204B4A43202020202020206F4C2023202020202020202020202044384639203B46435F434B464E203B2020202020202020202034433946,
  0x354339462D48504152474F454449205954494C4942495441504D4F43204B4A43202020202020206F4C2023202020202020202020202038383636203B46435F434B464E203B2020202020202020202035433946,
  0x364339462D48504152474F454449205954494C4942495441504D4F43204B4A43202020202020206F4C2023202020202020202020202045323639203B46435F434B464E203B2020202020202020202036433946,
  0x374339462D48504152474F454449205954494C4942495441504D4F43204B4A43202020202020206F4C2023202020202020202020202039383235203B46435F434B464E203B2020202020202020202037433946,
  0x384339462D48504152474F454449205954494C4942495441504D4F43204B4A43202020202020206F4C2023202020202020202020202042373736203B46435F434B464E203B2020202020202020202038433946,
  0x394339462D48504152474F454449205954494C4942495441504D4F43204B4A43202020202020206F4C2023202020202020202020202033463736203B46435F434B464E203B2020202020202020202039433946,
  0x414339462D48504152474F454449205954494C4942495441504D4F43204B4A43202020202020206F4C2023202020202020202020202031344436203B46435F434B464E203B2020202020202020202041433946,
  0x424339462D48504152474F454449205954494C4942495441504D4F43204B4A43202020202020206F4C2023202020202020202020202043394536203B46435F434B464E203B2020202020202020202042433946,
  0x434339462D48504152474F454449205954494C4942495441504D4F43204B4A43202020202020206F4C2023202020202020202020202039303437203B46435F434B464E203B2020202020202020202043433946,
  0x444339462D48504152474F454449205954494C4942495441504D4F43204B4A43202020202020206F4C2023202020202020202020202039353537203B46435F434B464E203B2020202020202020202044433946,
  0x454339462D48504152474F454449205954494C4942495441504D4F43204B4A43202020202020206F4C2023202020202020202020202042363837203B46435F434B464E203B2020202020202020202045433946,
  0x464339462D48504152474F454449205954494C4942495441504D4F43204B4A43202020202020206F4C2023202020202020202020202030314437203B46435F434B464E203B2020202020202020202046433946,
  0x304439462D48504152474F454449205954494C4942495441504D4F43204B4A43202020202020206F4C2023202020202020202020202045353839203B46435F434B464E203B2020202020202020202030443946,
  0x314439462D48504152474F454449205954494C4942495441504D4F43204B4A43202020202020206F4C2023202020202020202020202044363135203B46435F434B464E203B2020202020202020202031443946,
  0x324439462D48504152474F454449205954494C4942495441504D4F43204B4A43202020202020206F4C2023202020202020202020202045323236203B46435F434B464E203B2020202020202020202032443946,
  0x334439462D48504152474F454449205954494C4942495441504D4F43204B4A43202020202020206F4C2023202020202020202020202038373639203B46435F434B464E203B2020202020202020202033443946,
  0x344439462D48504152474F454449205954494C4942495441504D4F43204B4A43202020202020206F4C2023202020202020202020202042323035203B46435F434B464E203B2020202020202020202034443946,
  0x354439462D48504152474F454449205954494C4942495441504D4F43204B4A43202020202020206F4C2023202020202020202020202039314435203B46435F434B464E203B2020202020202020202035443946,
  0x364439462D48504152474F454449205954494C4942495441504D4F43204B4A43202020202020206F4C2023202020202020202020202041454436203B46435F434B464E203B2020202020202020202036443946,
  0x374439462D48504152474F454449205954494C4942495441504D4F43204B4A43202020202020206F4C2023202020202020202020202041324638203B46435F434B464E203B2020202020202020202037443946,
  0x384439462D48504152474F454449205954494C4942495441504D4F43204B4A43202020202020206F4C2023202020202020202020202042384635203B46435F434B464E203B2020202020202020202038443946,
  0x394439462D48504152474F454449205954494C4942495441504D4F43204B4A43202020202020206F4C2023202020202020202020202034343136203B46435F434B464E203B2020202020202020202039443946,
  0x414439462D48504152474F454449205954494C4942495441504D4F43204B4A43202020202020206F4C2023202020202020202020202037313836203B46435F434B464E203B2020202020202020202041443946,
  0x424439462D48504152474F454449205954494C4942495441504D4F43204B4A43202020202020206F4C2023202020202020202020202037383337203B46435F434B464E203B2020202020202020202042443946,
  0x434439462D48504152474F454449205954494C4942495441504D4F43204B4A43202020202020206F4C2023202020202020202020202036383639203B46435F434B464E203B2020202020202020202043443946,
  0x444439462D48504152474F454449205954494C4942495441504D4F43204B4A43202020202020206F4C2023202020202020202020202039323235203B46435F434B464E203B2020202020202020202044443946,
  0x454439462D48504152474F454449205954494C4942495441504D4F43204B4A43202020202020206F4C2023202020202020202020202046303435203B46435F434B464E203B2020202020202020202045443946,
  0x464439462D48504152474F454449205954494C4942495441504D4F43204B4A43202020202020206F4C2023202020202020202020202035364335203B46435F434B464E203B2020202020202020202046443946,
  0x304539462D48504152474F454449205954494C4942495441504D4F43204B4A43202020202020206F4C2023202020202020202020202033313636203B46435F434B464E203B2020202020202020202030453946,
  0x314539462D48504152474F454449205954494C4942495441504D4F43204B4A43202020202020206F4C2023202020202020202020202045343736203B46435F434B464E203B2020202020202020202031453946,
  0x324539462D48504152474F454449205954494C4942495441504D4F43204B4A43202020202020206F4C2023202020202020202020202038413836203B46435F434B464E203B2020202020202020202032453946,
  0x334539462D48504152474F454449205954494C4942495441504D4F43204B4A43202020202020206F4C2023202020202020202020202035454336203B46435F434B464E203B2020202020202020202033453946,
  0x344539462D48504152474F454449205954494C4942495441504D4F43204B4A43202020202020206F4C2023202020202020202020202036303437203B46435F434B464E203B2020202020202020202034453946,
  0x354539462D48504152474F454449205954494C4942495441504D4F43204B4A43202020202020206F4C2023202020202020202020202032453537203B46435F434B464E203B2020202020202020202035453946,
  0x364539462D48504152474F454449205954494C4942495441504D4F43204B4A43202020202020206F4C2023202020202020202020202039374637203B46435F434B464E203B2020202020202020202036453946,
  0x374539462D48504152474F454449205954494C4942495441504D4F43204B4A43202020202020206F4C2023202020202020202020202046433838203B46435F434B464E203B2020202020202020202037453946,
  0x384539462D48504152474F454449205954494C4942495441504D4F43204B4A43202020202020206F4C2023202020202020202020202031453838203B46435F434B464E203B2020202020202020202038453946,
  0x394539462D48504152474F454449205954494C4942495441504D4F43204B4A43202020202020206F4C2023202020202020202020202043433139203B46435F434B464E203B2020202020202020202039453946,
  0x414539462D48504152474F454449205954494C4942495441504D4F43204B4A43202020202020206F4C2023202020202020202020202032453639203B46435F434B464E203B2020202020202020202041453946,
  0x424539462D48504152474F454449205954494C4942495441504D4F43204B4A43202020202020206F4C2023202020202020202020202046333335203B46435F434B464E203B2020202020202020202042453946,
  0x434539462D48504152474F454449205954494C4942495441504D4F43204B4A43202020202020206F4C2023202020202020202020202041424536203B46435F434B464E203B2020202020202020202043453946,
  0x444539462D48504152474F454449205954494C4942495441504D4F43204B4A43202020202020206F4C2023202020202020202020202044313435203B46435F434B464E203B2020202020202020202044453946,
  0x454539462D48504152474F454449205954494C4942495441504D4F43204B4A43202020202020206F4C2023202020202020202020202030443137203B46435F434B464E203B2020202020202020202045453946,
  0x464539462D48504152474F454449205954494C4942495441504D4F43204B4A43202020202020206F4C2023202020202020202020202038393437203B46435F434B464E203B2020202020202020202046453946,
  0x304639462D48504152474F454449205954494C4942495441504D4F43204B4A43202020202020206F4C2023202020202020202020202041463538203B46435F434B464E203B2020202020202020202030463946,
  0x314639462D48504152474F454449205954494C4942495441504D4F43204B4A43202020202020206F4C2023202020202020202020202033413639203B46435F434B464E203B2020202020202020202031463946,
  0x324639462D48504152474F454449205954494C4942495441504D4F43204B4A43202020202020206F4C2023202020202020202020202037354339203B46435F434B464E203B2020202020202020202032463946,
  0x334639462D48504152474F454449205954494C4942495441504D4F43204B4A43202020202020206F4C2023202020202020202020202046394539203B46435F434B464E203B2020202020202020202033463946,
  0x344639462D48504152474F454449205954494C4942495441504D4F43204B4A43202020202020206F4C2023202020202020202020202037393736203B46435F434B464E203B2020202020202020202034463946,
  0x354639462D48504152474F454449205954494C4942495441504D4F43204B4A43202020202020206F4C2023202020202020202020202042434436203B46435F434B464E203B2020202020202020202035463946,
  0x364639462D48504152474F454449205954494C4942495441504D4F43204B4A43202020202020206F4C2023202020202020202020202038453138203B46435F434B464E203B2020202020202020202036463946,
  0x374639462D48504152474F454449205954494C4942495441504D4F43204B4A43202020202020206F4C2023202020202020202020202042434137203B46435F434B464E203B2020202020202020202037463946,
  0x384639462D48504152474F454449205954494C4942495441504D4F43204B4A43202020202020206F4C2023202020202020202020202030324237203B46435F434B464E203B2020202020202020202038463946,
  0x394639462D48504152474F454449205954494C4942495441504D4F43204B4A43202020202020206F4C2023202020202020202020202032394337203B46435F434B464E203B2020202020202020202039463946,
  0x414639462D48504152474F454449205954494C4942495441504D4F43204B4A43202020202020206F4C2023202020202020202020202030433237203B46435F434B464E203B2020202020202020202041463946,
  0x424639462D48504152474F454449205954494C4942495441504D4F43204B4A43202020202020206F4C2023202020202020202020202039393037203B46435F434B464E203B2020202020202020202042463946,
  0x434639462D48504152474F454449205954494C4942495441504D4F43204B4A43202020202020206F4C2023202020202020202020202038354238203B46435F434B464E203B2020202020202020202043463946,
  0x444639462D48504152474F454449205954494C4942495441504D4F43204B4A43202020202020206F4C2023202020202020202020202030434534203B46435F434B464E203B2020202020202020202044463946,
  0x454639462D48504152474F454449205954494C4942495441504D4F43204B4A43202020202020206F4C2023202020202020202020202036333338203B46435F434B464E203B2020202020202020202045463946,
  0x464639462D48504152474F454449205954494C4942495441504D4F43204B4A43202020202020206F4C2023202020202020202020202041333235203B46435F434B464E203B2020202020202020202046463946,
  0x303041462D48504152474F454449205954494C4942495441504D4F43204B4A43202020202020206F4C2023202020202020202020202037303235203B46435F434B464E203B2020202020202020202030304146,
  0x313041462D48504152474F454449205954494C4942495441504D4F43204B4A43202020202020206F4C2023202020202020202020202036414535203B46435F434B464E203B2020202020202020202031304146,
  0x323041462D48504152474F454449205954494C4942495441504D4F43204B4A43202020202020206F4C2023202020202020202020202033443236203B46435F434B464E203B2020202020202020202032304146,
  0x333041462D48504152474F454449205954494C4942495441504D4F43204B4A43202020202020206F4C2023202020202020202020202036444337203B46435F434B464E203B2020202020202020202033304146,
  0x343041462D48504152474F454449205954494C4942495441504D4F43204B4A43202020202020206F4C2023202020202020202020202035384235203B46435F434B464E203B2020202020202020202034304146,
  0x353041462D48504152474F454449205954494C4942495441504D4F43204B4A43202020202020206F4C2023202020202020202020202045314436203B46435F434B464E203B2020202020202020202035304146,
  0x363041462D48504152474F454449205954494C4942495441504D4F43204B4A43202020202020206F4C2023202020202020202020202034423636203B46435F434B464E203B2020202020202020202036304146,
  0x373041462D48504152474F454449205954494C4942495441504D4F43204B4A43202020202020206F4C2023202020202020202020202042334638203B46435F434B464E203B2020202020202020202037304146,
  0x383041462D48504152474F454449205954494C4942495441504D4F43204B4A43202020202020206F4C2023202020202020202020202043343838203B46435F434B464E203B2020202020202020202038304146,
  0x393041462D48504152474F454449205954494C4942495441504D4F43204B4A43202020202020206F4C2023202020202020202020202044343639203B46435F434B464E203B2020202020202020202039304146,
  0x413041462D48504152474F454449205954494C4942495441504D4F43204B4A43202020202020206F4C2023202020202020202020202042383938203B46435F434B464E203B2020202020202020202041304146,
  0x423041462D48504152474F454449205954494C4942495441504D4F43204B4A43202020202020206F4C2023202020202020202020202033444535203B46435F434B464E203B2020202020202020202042304146,
  0x433041462D48504152474F454449205954494C4942495441504D4F43204B4A43202020202020206F4C2023202020202020202020202030343135203B46435F434B464E203B2020202020202020202043304146,
  0x443041462D48504152474F454449205954494C4942495441504D4F43204B4A43202020202020206F4C2023202020202020202020202030433535203B46435F434B464E203B2020202020202020202044304146,
  0x303141462D48504152474F454449205954494C4942495441504D4F43204B4A43202020202020206F4C2023202020202020202020202041353835203B46435F434B464E203B2020202020202020202030314146,
  0x323141462D48504152474F454449205954494C4942495441504D4F43204B4A43202020202020206F4C2023202020202020202020202034373636203B46435F434B464E203B2020202020202020202032314146,
  0x353141462D48504152474F454449205954494C4942495441504D4F43204B4A43202020202020206F4C2023202020202020202020202045443135203B46435F434B464E203B2020202020202020202035314146,
  0x363141462D48504152474F454449205954494C4942495441504D4F43204B4A43202020202020206F4C2023202020202020202020202041323337203B46435F434B464E203B2020202020202020202036314146,
  0x373141462D48504152474F454449205954494C4942495441504D4F43204B4A43202020202020206F4C2023202020202020202020202041433637203B46435F434B464E203B2020202020202020202037314146,
  0x383141462D48504152474F454449205954494C4942495441504D4F43204B4A43202020202020206F4C2023202020202020202020202043333937203B46435F434B464E203B2020202020202020202038314146,
  0x393141462D48504152474F454449205954494C4942495441504D4F43204B4A43202020202020206F4C2023202020202020202020202045353937203B46435F434B464E203B2020202020202020202039314146,
  0x413141462D48504152474F454449205954494C4942495441504D4F43204B4A43202020202020206F4C2023202020202020202020202035363937203B46435F434B464E203B2020202020202020202041314146,
  0x423141462D48504152474F454449205954494C4942495441504D4F43204B4A43202020202020206F4C2023202020202020202020202046383937203B46435F434B464E203B2020202020202020202042314146,
  0x433141462D48504152474F454449205954494C4942495441504D4F43204B4A43202020202020206F4C2023202020202020202020202036353739203B46435F434B464E203B2020202020202020202043314146,
  0x443141462D48504152474F454449205954494C4942495441504D4F43204B4A43202020202020206F4C2023202020202020202020202045424337203B46435F434B464E203B2020202020202020202044314146,
  0x453141462D48504152474F454449205954494C4942495441504D4F43204B4A43202020202020206F4C2023202020202020202020202044424637203B46435F434B464E203B2020202020202020202045314146,
  0x303241462D48504152474F454449205954494C4942495441504D4F43204B4A43202020202020206F4C2023202020202020202020202032313638203B46435F434B464E203B2020202020202020202030324146,
  0x323241462D48504152474F454449205954494C4942495441504D4F43204B4A43202020202020206F4C2023202020202020202020202038464138203B46435F434B464E203B2020202020202020202032324146,
  0x353241462D48504152474F454449205954494C4942495441504D4F43204B4A43202020202020206F4C2023202020202020202020202038333039203B46435F434B464E203B2020202020202020202035324146,
  0x363241462D48504152474F454449205954494C4942495441504D4F43204B4A43202020202020206F4C2023202020202020202020202044463039203B46435F434B464E203B2020202020202020202036324146,
  0x413241462D48504152474F454449205954494C4942495441504D4F43204B4A43202020202020206F4C2023202020202020202020202046453839203B46435F434B464E203B2020202020202020202041324146,
  0x423241462D48504152474F454449205954494C4942495441504D4F43204B4A43202020202020206F4C2023202020202020202020202043463839203B46435F434B464E203B2020202020202020202042324146,
  0x433241462D48504152474F454449205954494C4942495441504D4F43204B4A43202020202020206F4C2023202020202020202020202038323939203B46435F434B464E203B2020202020202020202043324146,
  0x443241462D48504152474F454449205954494C4942495441504D4F43204B4A43202020202020206F4C2023202020202020202020202034424439203B46435F434B464E203B2020202020202020202044324146,
  0x453241462D48504152474F454449205954494C4942495441504D4F43204B4A43202020202020206F4C2023202020202020202020202045443039203B46435F434B464E203B2020202020202020202045324146,
  0x463241462D48504152474F454449205954494C4942495441504D4F43204B4A43202020202020206F4C2023202020202020202020202037423639203B46435F434B464E203B2020202020202020202046324146,
  0x303341462D48504152474F454449205954494C4942495441504D4F43204B4A43202020202020206F4C2023202020202020202020202045414634203B46435F434B464E203B2020202020202020202030334146,
  0x313341462D48504152474F454449205954494C4942495441504D4F43204B4A43202020202020206F4C2023202020202020202020202037453035203B46435F434B464E203B2020202020202020202031334146,
  0x323341462D48504152474F454449205954494C4942495441504D4F43204B4A43202020202020206F4C2023202020202020202020202044343135203B46435F434B464E203B2020202020202020202032334146,
  0x333341462D48504152474F454449205954494C4942495441504D4F43204B4A43202020202020206F4C2023202020202020202020202039433235203B46435F434B464E203B2020202020202020202033334146,
  0x343341462D48504152474F454449205954494C4942495441504D4F43204B4A43202020202020206F4C2023202020202020202020202034453235203B46435F434B464E203B2020202020202020202034334146,
  0x353341462D48504152474F454449205954494C4942495441504D4F43204B4A43202020202020206F4C2023202020202020202020202031353335203B46435F434B464E203B2020202020202020202035334146,
  0x363341462D48504152474F454449205954494C4942495441504D4F43204B4A43202020202020206F4C2023202020202020202020202044393535203B46435F434B464E203B2020202020202020202036334146,
  0x373341462D48504152474F454449205954494C4942495441504D4F43204B4A43202020202020206F4C2023202020202020202020202036303635203B46435F434B464E203B2020202020202020202037334146,
  0x383341462D48504152474F454449205954494C4942495441504D4F43204B4A43202020202020206F4C2023202020202020202020202038363635203B46435F434B464E203B2020202020202020202038334146,
  0x393341462D48504152474F454449205954494C4942495441504D4F43204B4A43202020202020206F4C2023202020202020202020202030343835203B46435F434B464E203B2020202020202020202039334146,
  0x413341462D48504152474F454449205954494C4942495441504D4F43204B4A43202020202020206F4C2023202020202020202020202038413835203B46435F434B464E203B2020202020202020202041334146,
  0x423341462D48504152474F454449205954494C4942495441504D4F43204B4A43202020202020206F4C2023202020202020202020202034364335203B46435F434B464E203B2020202020202020202042334146,
  0x433341462D48504152474F454449205954494C4942495441504D4F43204B4A43202020202020206F4C2023202020202020202020202045364335203B46435F434B464E203B2020202020202020202043334146,
  0x443341462D48504152474F454449205954494C4942495441504D4F43204B4A43202020202020206F4C2023202020202020202020202034393036203B46435F434B464E203B2020202020202020202044334146,
  0x453341462D48504152474F454449205954494C4942495441504D4F43204B4A43202020202020206F4C2023202020202020202020202038363136203B46435F434B464E203B2020202020202020202045334146,
  0x463341462D48504152474F454449205954494C4942495441504D4F43204B4A43202020202020206F4C2023202020202020202020202045383136203B46435F434B464E203B2020202020202020202046334146,
  0x303441462D48504152474F454449205954494C4942495441504D4F43204B4A43202020202020206F4C2023202020202020202020202032463136203B46435F434B464E203B2020202020202020202030344146,
  0x313441462D48504152474F454449205954494C4942495441504D4F43204B4A43202020202020206F4C2023202020202020202020202046343536203B46435F434B464E203B2020202020202020202031344146,
  0x323441462D48504152474F454449205954494C4942495441504D4F43204B4A43202020202020206F4C2023202020202020202020202032453536203B46435F434B464E203B2020202020202020202032344146,
  0x333441462D48504152474F454449205954494C4942495441504D4F43204B4A43202020202020206F4C2023202020202020202020202031393636203B46435F434B464E203B2020202020202020202033344146,
  0x343441462D48504152474F454449205954494C4942495441504D4F43204B4A43202020202020206F4C2023202020202020202020202035383836203B46435F434B464E203B2020202020202020202034344146,
  0x353441462D48504152474F454449205954494C4942495441504D4F43204B4A43202020202020206F4C2023202020202020202020202037374436203B46435F434B464E203B2020202020202020202035344146,
  0x363441462D48504152474F454449205954494C4942495441504D4F43204B4A43202020202020206F4C2023202020202020202020202041314536203B46435F434B464E203B2020202020202020202036344146,
  0x373441462D48504152474F454449205954494C4942495441504D4F43204B4A43202020202020206F4C2023202020202020202020202032324636203B46435F434B464E203B2020202020202020202037344146]

def qcText23 : List Nat := [
  0x383441462D48504152474F454449205954494C4942495441504D4F43204B4A43202020202020206F4C2023202020202020202020202045363137203B46435F434B464E203B2020202020202020202038344146,
  0x393441462D48504152474F454449205954494C4942495441504D4F43204B4A43202020202020206F4C2023202020202020202020202042323237203B46435F434B464E203B2020202020202020202039344146,
  0x413441462D48504152474F454449205954494C4942495441504D4F43204B4A43202020202020206F4C2023202020202020202020202032323437203B46435F434B464E203B2020202020202020202041344146,
  0x423441462D48504152474F454449205954494C4942495441504D4F43204B4A43202020202020206F4C2023202020202020202020202031393837203B46435F434B464E203B2020202020202020202042344146,
  0x433441462D48504152474F454449205954494C4942495441504D4F43204B4A43202020202020206F4C2023202020202020202020202045333937203B46435F434B464E203B2020202020202020202043344146,
  0x443441462D48504152474F454449205954494C4942495441504D4F43204B4A43202020202020206F4C2023202020202020202020202039343937203B46435F434B464E203B2020202020202020202044344146,
  0x453441462D48504152474F454449205954494C4942495441504D4F43204B4A43202020202020206F4C2023202020202020202020202038343937203B46435F434B464E203B2020202020202020202045344146,
  0x463441462D48504152474F454449205954494C4942495441504D4F43204B4A43202020202020206F4C2023202020202020202020202030353937203B46435F434B464E203B2020202020202020202046344146,
  0x303541462D48504152474F454449205954494C4942495441504D4F43204B4A43202020202020206F4C2023202020202020202020202036353937203B46435F434B464E203B2020202020202020202030354146,
  0x313541462D48504152474F454449205954494C4942495441504D4F43204B4A43202020202020206F4C2023202020202020202020202044353937203B46435F434B464E203B2020202020202020202031354146,
  0x323541462D48504152474F454449205954494C4942495441504D4F43204B4A43202020202020206F4C2023202020202020202020202044383937203B46435F434B464E203B2020202020202020202032354146,
  0x333541462D48504152474F454449205954494C4942495441504D4F43204B4A43202020202020206F4C2023202020202020202020202045383937203B46435F434B464E203B2020202020202020202033354146,
  0x343541462D48504152474F454449205954494C4942495441504D4F43204B4A43202020202020206F4C2023202020202020202020202030344137203B46435F434B464E203B2020202020202020202034354146,
  0x353541462D48504152474F454449205954494C4942495441504D4F43204B4A43202020202020206F4C2023202020202020202020202031384137203B46435F434B464E203B2020202020202020202035354146,
  0x363541462D48504152474F454449205954494C4942495441504D4F43204B4A43202020202020206F4C2023202020202020202020202030434237203B46435F434B464E203B2020202020202020202036354146,
  0x373541462D48504152474F454449205954494C4942495441504D4F43204B4A43202020202020206F4C2023202020202020202020202034464437203B46435F434B464E203B2020202020202020202037354146,
  0x383541462D48504152474F454449205954494C4942495441504D4F43204B4A43202020202020206F4C2023202020202020202020202039304537203B46435F434B464E203B2020202020202020202038354146,
  0x393541462D48504152474F454449205954494C4942495441504D4F43204B4A43202020202020206F4C2023202020202020202020202031344537203B46435F434B464E203B2020202020202020202039354146,
  0x413541462D48504152474F454449205954494C4942495441504D4F43204B4A43202020202020206F4C2023202020202020202020202032374637203B46435F434B464E203B2020202020202020202041354146,
  0x423541462D48504152474F454449205954494C4942495441504D4F43204B4A43202020202020206F4C2023202020202020202020202035303038203B46435F434B464E203B2020202020202020202042354146,
  0x433541462D48504152474F454449205954494C4942495441504D4F43204B4A43202020202020206F4C2023202020202020202020202044453138203B46435F434B464E203B2020202020202020202043354146,
  0x453541462D48504152474F454449205954494C4942495441504D4F43204B4A432E2E443541462D48504152474F454449205954494C4942495441504D4F43204B4A43205D325B2020206F4C2023202020202020202020202039373238203B46435F434B464E203B20202020453541462E2E44354146,
  0x463541462D48504152474F454449205954494C4942495441504D4F43204B4A43202020202020206F4C2023202020202020202020202037353438203B46435F434B464E203B2020202020202020202046354146,
  0x303641462D48504152474F454449205954494C4942495441504D4F43204B4A43202020202020206F4C2023202020202020202020202030313938203B46435F434B464E203B2020202020202020202030364146,
  0x313641462D48504152474F454449205954494C4942495441504D4F43204B4A43202020202020206F4C2023202020202020202020202036393938203B46435F434B464E203B2020202020202020202031364146,
  0x323641462D48504152474F454449205954494C4942495441504D4F43204B4A43202020202020206F4C2023202020202020202020202031304238203B46435F434B464E203B2020202020202020202032364146,
  0x333641462D48504152474F454449205954494C4942495441504D4F43204B4A43202020202020206F4C2023202020202020202020202039334238203B46435F434B464E203B2020202020202020202033364146,
  0x343641462D48504152474F454449205954494C4942495441504D4F43204B4A43202020202020206F4C2023202020202020202020202033444338203B46435F434B464E203B2020202020202020202034364146,
  0x353641462D48504152474F454449205954494C4942495441504D4F43204B4A43202020202020206F4C2023202020202020202020202038304438203B46435F434B464E203B2020202020202020202035364146,
  0x363641462D48504152474F454449205954494C4942495441504D4F43204B4A43202020202020206F4C2023202020202020202020202036424638203B46435F434B464E203B2020202020202020202036364146,
  0x373641462D48504152474F454449205954494C4942495441504D4F43204B4A43202020202020206F4C2023202020202020202020202038333039203B46435F434B464E203B2020202020202020202037364146,
  0x383641462D48504152474F454449205954494C4942495441504D4F43204B4A43202020202020206F4C2023202020202020202020202033453639203B46435F434B464E203B2020202020202020202038364146,
  0x393641462D48504152474F454449205954494C4942495441504D4F43204B4A43202020202020206F4C2023202020202020202020202046463739203B46435F434B464E203B2020202020202020202039364146,
  0x413641462D48504152474F454449205954494C4942495441504D4F43204B4A43202020202020206F4C2023202020202020202020202042333839203B46435F434B464E203B2020202020202020202041364146,
  0x423641462D48504152474F454449205954494C4942495441504D4F43204B4A43202020202020206F4C2023202020202020202020202035373036203B46435F434B464E203B2020202020202020202042364146,
  0x433641462D48504152474F454449205954494C4942495441504D4F43204B4A43202020202020206F4C2023202020202020202020204545323432203B46435F434B464E203B2020202020202020202043364146,
  0x443641462D48504152474F454449205954494C4942495441504D4F43204B4A43202020202020206F4C2023202020202020202020202038313238203B46435F434B464E203B2020202020202020202044364146,
  0x303741462D48504152474F454449205954494C4942495441504D4F43204B4A43202020202020206F4C2023202020202020202020202036324534203B46435F434B464E203B2020202020202020202030374146,
  0x313741462D48504152474F454449205954494C4942495441504D4F43204B4A43202020202020206F4C2023202020202020202020202035423135203B46435F434B464E203B2020202020202020202031374146,
  0x323741462D48504152474F454449205954494C4942495441504D4F43204B4A43202020202020206F4C2023202020202020202020202038363135203B46435F434B464E203B2020202020202020202032374146,
  0x333741462D48504152474F454449205954494C4942495441504D4F43204B4A43202020202020206F4C2023202020202020202020202030384634203B46435F434B464E203B2020202020202020202033374146,
  0x343741462D48504152474F454449205954494C4942495441504D4F43204B4A43202020202020206F4C2023202020202020202020202035343135203B46435F434B464E203B2020202020202020202034374146,
  0x353741462D48504152474F454449205954494C4942495441504D4F43204B4A43202020202020206F4C2023202020202020202020202030383135203B46435F434B464E203B2020202020202020202035374146,
  0x363741462D48504152474F454449205954494C4942495441504D4F43204B4A43202020202020206F4C2023202020202020202020202037433235203B46435F434B464E203B2020202020202020202036374146,
  0x373741462D48504152474F454449205954494C4942495441504D4F43204B4A43202020202020206F4C2023202020202020202020202041463235203B46435F434B464E203B2020202020202020202037374146,
  0x383741462D48504152474F454449205954494C4942495441504D4F43204B4A43202020202020206F4C2023202020202020202020202044393535203B46435F434B464E203B2020202020202020202038374146,
  0x393741462D48504152474F454449205954494C4942495441504D4F43204B4A43202020202020206F4C2023202020202020202020202035353535203B46435F434B464E203B2020202020202020202039374146,
  0x413741462D48504152474F454449205954494C4942495441504D4F43204B4A43202020202020206F4C2023202020202020202020202039393535203B46435F434B464E203B2020202020202020202041374146,
  0x423741462D48504152474F454449205954494C4942495441504D4F43204B4A43202020202020206F4C2023202020202020202020202032453535203B46435F434B464E203B2020202020202020202042374146,
  0x433741462D48504152474F454449205954494C4942495441504D4F43204B4A43202020202020206F4C2023202020202020202020202041353835203B46435F434B464E203B2020202020202020202043374146,
  0x443741462D48504152474F454449205954494C4942495441504D4F43204B4A43202020202020206F4C2023202020202020202020202033423835203B46435F434B464E203B2020202020202020202044374146,
  0x453741462D48504152474F454449205954494C4942495441504D4F43204B4A43202020202020206F4C2023202020202020202020202034343935203B46435F434B464E203B2020202020202020202045374146,
  0x463741462D48504152474F454449205954494C4942495441504D4F43204B4A43202020202020206F4C2023202020202020202020202034353935203B46435F434B464E203B2020202020202020202046374146,
  0x303841462D48504152474F454449205954494C4942495441504D4F43204B4A43202020202020206F4C2023202020202020202020202032364135203B46435F434B464E203B2020202020202020202030384146,
  0x313841462D48504152474F454449205954494C4942495441504D4F43204B4A43202020202020206F4C2023202020202020202020202038324235203B46435F434B464E203B2020202020202020202031384146,
  0x323841462D48504152474F454449205954494C4942495441504D4F43204B4A43202020202020206F4C2023202020202020202020202032444535203B46435F434B464E203B2020202020202020202032384146,
  0x333841462D48504152474F454449205954494C4942495441504D4F43204B4A43202020202020206F4C2023202020202020202020202039444535203B46435F434B464E203B2020202020202020202033384146,
  0x343841462D48504152474F454449205954494C4942495441504D4F43204B4A43202020202020206F4C2023202020202020202020202039364635203B46435F434B464E203B2020202020202020202034384146,
  0x353841462D48504152474F454449205954494C4942495441504D4F43204B4A43202020202020206F4C2023202020202020202020202044414635203B46435F434B464E203B2020202020202020202035384146,
  0x363841462D48504152474F454449205954494C4942495441504D4F43204B4A43202020202020206F4C2023202020202020202020202038443036203B46435F434B464E203B2020202020202020202036384146,
  0x373841462D48504152474F454449205954494C4942495441504D4F43204B4A43202020202020206F4C2023202020202020202020202045343136203B46435F434B464E203B2020202020202020202037384146,
  0x383841462D48504152474F454449205954494C4942495441504D4F43204B4A43202020202020206F4C2023202020202020202020202038303136203B46435F434B464E203B2020202020202020202038384146,
  0x393841462D48504152474F454449205954494C4942495441504D4F43204B4A43202020202020206F4C2023202020202020202020202045383136203B46435F434B464E203B2020202020202020202039384146,
  0x413841462D48504152474F454449205954494C4942495441504D4F43204B4A43202020202020206F4C2023202020202020202020202030363136203B46435F434B464E203B2020202020202020202041384146,
  0x423841462D48504152474F454449205954494C4942495441504D4F43204B4A43202020202020206F4C2023202020202020202020202032463136203B46435F434B464E203B2020202020202020202042384146,
  0x433841462D48504152474F454449205954494C4942495441504D4F43204B4A43202020202020206F4C2023202020202020202020202034333236203B46435F434B464E203B2020202020202020202043384146,
  0x443841462D48504152474F454449205954494C4942495441504D4F43204B4A43202020202020206F4C2023202020202020202020202034433336203B46435F434B464E203B2020202020202020202044384146,
  0x453841462D48504152474F454449205954494C4942495441504D4F43204B4A43202020202020206F4C2023202020202020202020202043313436203B46435F434B464E203B2020202020202020202045384146,
  0x463841462D48504152474F454449205954494C4942495441504D4F43204B4A43202020202020206F4C2023202020202020202020202032353436203B46435F434B464E203B2020202020202020202046384146,
  0x303941462D48504152474F454449205954494C4942495441504D4F43204B4A43202020202020206F4C2023202020202020202020202036353536203B46435F434B464E203B2020202020202020202030394146,
  0x313941462D48504152474F454449205954494C4942495441504D4F43204B4A43202020202020206F4C2023202020202020202020202034373636203B46435F434B464E203B2020202020202020202031394146,
  0x323941462D48504152474F454449205954494C4942495441504D4F43204B4A43202020202020206F4C2023202020202020202020202037313736203B46435F434B464E203B2020202020202020202032394146,
  0x333941462D48504152474F454449205954494C4942495441504D4F43204B4A43202020202020206F4C2023202020202020202020202042313736203B46435F434B464E203B2020202020202020202033394146,
  0x343941462D48504152474F454449205954494C4942495441504D4F43204B4A43202020202020206F4C2023202020202020202020202036353736203B46435F434B464E203B2020202020202020202034394146,
  0x353941462D48504152474F454449205954494C4942495441504D4F43204B4A43202020202020206F4C2023202020202020202020202039374236203B46435F434B464E203B2020202020202020202035394146,
  0x363941462D48504152474F454449205954494C4942495441504D4F43204B4A43202020202020206F4C2023202020202020202020202041424236203B46435F434B464E203B2020202020202020202036394146,
  0x373941462D48504152474F454449205954494C4942495441504D4F43204B4A43202020202020206F4C2023202020202020202020202031344436203B46435F434B464E203B2020202020202020202037394146,
  0x383941462D48504152474F454449205954494C4942495441504D4F43204B4A43202020202020206F4C2023202020202020202020202042444536203B46435F434B464E203B2020202020202020202038394146,
  0x393941462D48504152474F454449205954494C4942495441504D4F43204B4A43202020202020206F4C2023202020202020202020202042434536203B46435F434B464E203B2020202020202020202039394146,
  0x413941462D48504152474F454449205954494C4942495441504D4F43204B4A43202020202020206F4C2023202020202020202020202032324636203B46435F434B464E203B2020202020202020202041394146,
  0x423941462D48504152474F454449205954494C4942495441504D4F43204B4A43202020202020206F4C2023202020202020202020202045313037203B46435F434B464E203B2020202020202020202042394146,
  0x433941462D48504152474F454449205954494C4942495441504D4F43204B4A43202020202020206F4C2023202020202020202020202045363137203B46435F434B464E203B2020202020202020202043394146,
  0x443941462D48504152474F454449205954494C4942495441504D4F43204B4A43202020202020206F4C2023202020202020202020202037413737203B46435F434B464E203B2020202020202020202044394146,
  0x453941462D48504152474F454449205954494C4942495441504D4F43204B4A43202020202020206F4C2023202020202020202020202035333237203B46435F434B464E203B2020202020202020202045394146,
  0x463941462D48504152474F454449205954494C4942495441504D4F43204B4A43202020202020206F4C2023202020202020202020202046413237203B46435F434B464E203B2020202020202020202046394146,
  0x304141462D48504152474F454449205954494C4942495441504D4F43204B4A43202020202020206F4C2023202020202020202020202041323337203B46435F434B464E203B2020202020202020202030414146,
  0x314141462D48504152474F454449205954494C4942495441504D4F43204B4A43202020202020206F4C2023202020202020202020202031373437203B46435F434B464E203B2020202020202020202031414146,
  0x324141462D48504152474F454449205954494C4942495441504D4F43204B4A43202020202020206F4C2023202020202020202020202036303537203B46435F434B464E203B2020202020202020202032414146,
  0x334141462D48504152474F454449205954494C4942495441504D4F43204B4A43202020202020206F4C2023202020202020202020202042333537203B46435F434B464E203B2020202020202020202033414146,
  0x344141462D48504152474F454449205954494C4942495441504D4F43204B4A43202020202020206F4C2023202020202020202020202044313637203B46435F434B464E203B2020202020202020202034414146,
  0x354141462D48504152474F454449205954494C4942495441504D4F43204B4A43202020202020206F4C2023202020202020202020202046313637203B46435F434B464E203B2020202020202020202035414146,
  0x364141462D48504152474F454449205954494C4942495441504D4F43204B4A43202020202020206F4C2023202020202020202020202041433637203B46435F434B464E203B2020202020202020202036414146,
  0x374141462D48504152474F454449205954494C4942495441504D4F43204B4A43202020202020206F4C2023202020202020202020202042443637203B46435F434B464E203B2020202020202020202037414146,
  0x384141462D48504152474F454449205954494C4942495441504D4F43204B4A43202020202020206F4C2023202020202020202020202034463637203B46435F434B464E203B2020202020202020202038414146,
  0x394141462D48504152474F454449205954494C4942495441504D4F43204B4A43202020202020206F4C2023202020202020202020202041343737203B46435F434B464E203B2020202020202020202039414146,
  0x414141462D48504152474F454449205954494C4942495441504D4F43204B4A43202020202020206F4C2023202020202020202020202030343737203B46435F434B464E203B2020202020202020202041414146,
  0x424141462D48504152474F454449205954494C4942495441504D4F43204B4A43202020202020206F4C2023202020202020202020202043433837203B46435F434B464E203B2020202020202020202042414146,
  0x434141462D48504152474F454449205954494C4942495441504D4F43204B4A43202020202020206F4C2023202020202020202020202031424137203B46435F434B464E203B2020202020202020202043414146,
  0x444141462D48504152474F454449205954494C4942495441504D4F43204B4A43202020202020206F4C2023202020202020202020202030434237203B46435F434B464E203B2020202020202020202044414146,
  0x454141462D48504152474F454449205954494C4942495441504D4F43204B4A43202020202020206F4C2023202020202020202020202042374337203B46435F434B464E203B2020202020202020202045414146,
  0x464141462D48504152474F454449205954494C4942495441504D4F43204B4A43202020202020206F4C2023202020202020202020202042354437203B46435F434B464E203B2020202020202020202046414146,
  0x304241462D48504152474F454449205954494C4942495441504D4F43204B4A43202020202020206F4C2023202020202020202020202034464437203B46435F434B464E203B2020202020202020202030424146,
  0x314241462D48504152474F454449205954494C4942495441504D4F43204B4A43202020202020206F4C2023202020202020202020202045334637203B46435F434B464E203B2020202020202020202031424146,
  0x324241462D48504152474F454449205954494C4942495441504D4F43204B4A43202020202020206F4C2023202020202020202020202035303038203B46435F434B464E203B2020202020202020202032424146,
  0x334241462D48504152474F454449205954494C4942495441504D4F43204B4A43202020202020206F4C2023202020202020202020202032353338203B46435F434B464E203B2020202020202020202033424146,
  0x344241462D48504152474F454449205954494C4942495441504D4F43204B4A43202020202020206F4C2023202020202020202020202046453338203B46435F434B464E203B2020202020202020202034424146,
  0x354241462D48504152474F454449205954494C4942495441504D4F43204B4A43202020202020206F4C2023202020202020202020202039373738203B46435F434B464E203B2020202020202020202035424146,
  0x364241462D48504152474F454449205954494C4942495441504D4F43204B4A43202020202020206F4C2023202020202020202020202031343938203B46435F434B464E203B2020202020202020202036424146,
  0x374241462D48504152474F454449205954494C4942495441504D4F43204B4A43202020202020206F4C2023202020202020202020202036383938203B46435F434B464E203B2020202020202020202037424146,
  0x384241462D48504152474F454449205954494C4942495441504D4F43204B4A43202020202020206F4C2023202020202020202020202036393938203B46435F434B464E203B2020202020202020202038424146,
  0x394241462D48504152474F454449205954494C4942495441504D4F43204B4A43202020202020206F4C2023202020202020202020202046424138203B46435F434B464E203B2020202020202020202039424146,
  0x414241462D48504152474F454449205954494C4942495441504D4F43204B4A43202020202020206F4C2023202020202020202020202038464138203B46435F434B464E203B2020202020202020202041424146,
  0x424241462D48504152474F454449205954494C4942495441504D4F43204B4A43202020202020206F4C2023202020202020202020202042434138203B46435F434B464E203B2020202020202020202042424146,
  0x434241462D48504152474F454449205954494C4942495441504D4F43204B4A43202020202020206F4C2023202020202020202020202031304238203B46435F434B464E203B2020202020202020202043424146,
  0x444241462D48504152474F454449205954494C4942495441504D4F43204B4A43202020202020206F4C2023202020202020202020202045464138203B46435F434B464E203B2020202020202020202044424146,
  0x454241462D48504152474F454449205954494C4942495441504D4F43204B4A43202020202020206F4C2023202020202020202020202044454138203B46435F434B464E203B2020202020202020202045424146,
  0x464241462D48504152474F454449205954494C4942495441504D4F43204B4A43202020202020206F4C2023202020202020202020202039334238203B46435F434B464E203B2020202020202020202046424146,
  0x304341462D48504152474F454449205954494C4942495441504D4F43204B4A43202020202020206F4C2023202020202020202020202041384238203B46435F434B464E203B2020202020202020202030434146,
  0x314341462D48504152474F454449205954494C4942495441504D4F43204B4A43202020202020206F4C2023202020202020202020202038304438203B46435F434B464E203B2020202020202020202031434146,
  0x324341462D48504152474F454449205954494C4942495441504D4F43204B4A43202020202020206F4C2023202020202020202020202038334638203B46435F434B464E203B2020202020202020202032434146,
  0x334341462D48504152474F454449205954494C4942495441504D4F43204B4A43202020202020206F4C2023202020202020202020202032373039203B46435F434B464E203B2020202020202020202033434146,
  0x344341462D48504152474F454449205954494C4942495441504D4F43204B4A43202020202020206F4C2023202020202020202020202039393139203B46435F434B464E203B2020202020202020202034434146,
  0x354341462D48504152474F454449205954494C4942495441504D4F43204B4A43202020202020206F4C2023202020202020202020202036373239203B46435F434B464E203B2020202020202020202035434146,
  0x364341462D48504152474F454449205954494C4942495441504D4F43204B4A43202020202020206F4C2023202020202020202020202043373639203B46435F434B464E203B2020202020202020202036434146,
  0x374341462D48504152474F454449205954494C4942495441504D4F43204B4A43202020202020206F4C2023202020202020202020202033453639203B46435F434B464E203B2020202020202020202037434146,
  0x384341462D48504152474F454449205954494C4942495441504D4F43204B4A43202020202020206F4C2023202020202020202020202036353739203B46435F434B464E203B2020202020202020202038434146,
  0x394341462D48504152474F454449205954494C4942495441504D4F43204B4A43202020202020206F4C2023202020202020202020202042443739203B46435F434B464E203B2020202020202020202039434146,
  0x414341462D48504152474F454449205954494C4942495441504D4F43204B4A43202020202020206F4C2023202020202020202020202046463739203B46435F434B464E203B2020202020202020202041434146,
  0x424341462D48504152474F454449205954494C4942495441504D4F43204B4A43202020202020206F4C2023202020202020202020202042303839203B46435F434B464E203B2020202020202020202042434146,
  0x434341462D48504152474F454449205954494C4942495441504D4F43204B4A43202020202020206F4C2023202020202020202020202042333839203B46435F434B464E203B2020202020202020202043434146,
  0x444341462D48504152474F454449205954494C4942495441504D4F43204B4A43202020202020206F4C2023202020202020202020202032314239203B46435F434B464E203B2020202020202020202044434146,
  0x454341462D48504152474F454449205954494C4942495441504D4F43204B4A43202020202020206F4C2023202020202020202020202043394639203B46435F434B464E203B2020202020202020202045434146,
  0x464341462D48504152474F454449205954494C4942495441504D4F43204B4A43202020202020206F4C2023202020202020202020204134383232203B46435F434B464E203B2020202020202020202046434146,
  0x304441462D48504152474F454449205954494C4942495441504D4F43204B4A43202020202020206F4C2023202020202020202020203434383232203B46435F434B464E203B2020202020202020202030444146,
  0x314441462D48504152474F454449205954494C4942495441504D4F43204B4A43202020202020206F4C2023202020202020202020203544333332203B46435F434B464E203B2020202020202020202031444146,
  0x324441462D48504152474F454449205954494C4942495441504D4F43204B4A43202020202020206F4C2023202020202020202020202044394233203B46435F434B464E203B2020202020202020202032444146,
  0x334441462D48504152474F454449205954494C4942495441504D4F43204B4A43202020202020206F4C2023202020202020202020202038313034203B46435F434B464E203B2020202020202020202033444146,
  0x344441462D48504152474F454449205954494C4942495441504D4F43204B4A43202020202020206F4C2023202020202020202020202039333034203B46435F434B464E203B2020202020202020202034444146,
  0x354441462D48504152474F454449205954494C4942495441504D4F43204B4A43202020202020206F4C2023202020202020202020203934323532203B46435F434B464E203B2020202020202020202035444146,
  0x364441462D48504152474F454449205954494C4942495441504D4F43204B4A43202020202020206F4C2023202020202020202020203044433532203B46435F434B464E203B2020202020202020202036444146,
  0x374441462D48504152474F454449205954494C4942495441504D4F43204B4A43202020202020206F4C2023202020202020202020203344453732203B46435F434B464E203B2020202020202020202037444146,
  0x384441462D48504152474F454449205954494C4942495441504D4F43204B4A43202020202020206F4C2023202020202020202020202033344639203B46435F434B464E203B2020202020202020202038444146,
  0x394441462D48504152474F454449205954494C4942495441504D4F43204B4A43202020202020206F4C2023202020202020202020202045384639203B46435F434B464E203B2020202020202020202039444146,
  0x464620455255544147494C204C4C414D53204E4954414C20202020202020264C2023202020202020363630302036363030203B46435F434B464E203B2020202020202020202030304246,
  0x494620455255544147494C204C4C414D53204E4954414C20202020202020264C2023202020202020393630302036363030203B46435F434B464E203B2020202020202020202031304246,
  0x4C4620455255544147494C204C4C414D53204E4954414C20202020202020264C2023202020202020433630302036363030203B46435F434B464E203B2020202020202020202032304246,
  0x49464620455255544147494C204C4C414D53204E4954414C20202020202020264C2023203936303020363630302036363030203B46435F434B464E203B2020202020202020202033304246,
  0x4C464620455255544147494C204C4C414D53204E4954414C20202020202020264C2023204336303020363630302036363030203B46435F434B464E203B2020202020202020202034304246,
  0x545320455255544147494C204C4C414D53204E4954414C2E2E54205320474E4F4C20455255544147494C204C4C414D53204E4954414C205D325B202020264C2023202020202020343730302033373030203B46435F434B464E203B20202020363042462E2E35304246,
  0x574F4E204E454D20455255544147494C204C4C414D53204E41494E454D524120202020202020264C2023202020202020363735302034373530203B46435F434B464E203B2020202020202020202033314246,
  0x484345204E454D20455255544147494C204C4C414D53204E41494E454D524120202020202020264C2023202020202020353635302034373530203B46435F434B464E203B2020202020202020202034314246,
  0x494E49204E454D20455255544147494C204C4C414D53204E41494E454D524120202020202020264C2023202020202020423635302034373530203B46435F434B464E203B2020202020202020202035314246,
  0x574F4E2057455620455255544147494C204C4C414D53204E41494E454D524120202020202020264C2023202020202020363735302045373530203B46435F434B464E203B2020202020202020202036314246,
  0x484558204E454D20455255544147494C204C4C414D53204E41494E454D524120202020202020264C2023202020202020443635302034373530203B46435F434B464E203B2020202020202020202037314246,
  0x5149524948204854495720444F592052455454454C20574552424548202020202020206F4C2023202020202020344235302039443530203B46435F434B464E203B2020202020202020202044314246,
  0x484154415020444F5920444F59204853494444495920455255544147494C20574552424548202020202020206F4C2023202020202020374235302032463530203B46435F434B464E203B2020202020202020202046314246,
  0x4E4959412045564954414E5245544C412052455454454C20574552424548202020202020206F4C2023202020202020202020202032453530203B46435F434B464E203B2020202020202020202030324246,
  0x46454C4120454449572052455454454C20574552424548202020202020206F4C2023202020202020202020202030443530203B46435F434B464E203B2020202020202020202031324246,
  0x54454C414420454449572052455454454C20574552424548202020202020206F4C2023202020202020202020202033443530203B46435F434B464E203B2020202020202020202032324246,
  0x454820454449572052455454454C20574552424548202020202020206F4C2023202020202020202020202034443530203B46435F434B464E203B2020202020202020202033324246,
  0x46414B20454449572052455454454C20574552424548202020202020206F4C2023202020202020202020202042443530203B46435F434B464E203B2020202020202020202034324246,
  0x44454D414C20454449572052455454454C20574552424548202020202020206F4C2023202020202020202020202043443530203B46435F434B464E203B2020202020202020202035324246,
  0x4D454D204C414E494620454449572052455454454C20574552424548202020202020206F4C2023202020202020202020202044443530203B46435F434B464E203B2020202020202020202036324246,
  0x4853455220454449572052455454454C20574552424548202020202020206F4C2023202020202020202020202038453530203B46435F434B464E203B2020202020202020202037324246,
  0x56415420454449572052455454454C20574552424548202020202020206F4C2023202020202020202020202041453530203B46435F434B464E203B2020202020202020202038324246,
  0x4E4749532053554C502045564954414E5245544C412052455454454C20574552424548202020202020206D532023202020202020202020202042323030203B46435F434B464E203B2020202020202020202039324246,
  0x544F44204E4948532048544957204E4948532052455454454C20574552424548202020202020206F4C2023202020202020314335302039453530203B46435F434B464E203B2020202020202020202041324246,
  0x544F44204E49532048544957204E4948532052455454454C20574552424548202020202020206F4C2023202020202020324335302039453530203B46435F434B464E203B2020202020202020202042324246,
  0x544F44204E49485320444E41204853454741442048544957204E4948532052455454454C20574552424548202020202020206F4C2023203143353020434235302039453530203B46435F434B464E203B2020202020202020202043324246,
  0x544F44204E495320444E41204853454741442048544957204E4948532052455454454C20574552424548202020202020206F4C2023203243353020434235302039453530203B46435F434B464E203B2020202020202020202044324246,
  0x484154415020485449572046454C412052455454454C20574552424548202020202020206F4C2023202020202020374235302030443530203B46435F434B464E203B2020202020202020202045324246,
  0x5354414D415120485449572046454C412052455454454C20574552424548202020202020206F4C2023202020202020384235302030443530203B46435F434B464E203B2020202020202020202046324246,
  0x514950414D20485449572046454C412052455454454C20574552424548202020202020206F4C2023202020202020434235302030443530203B46435F434B464E203B2020202020202020202030334246,
  0x4853454741442048544957205445422052455454454C20574552424548202020202020206F4C2023202020202020434235302031443530203B46435F434B464E203B2020202020202020202031334246,
  0x4853454741442048544957204C454D49472052455454454C20574552424548202020202020206F4C2023202020202020434235302032443530203B46435F434B464E203B2020202020202020202032334246,
  0x48534547414420485449572054454C41442052455454454C20574552424548202020202020206F4C2023202020202020434235302033443530203B46435F434B464E203B2020202020202020202033334246,
  0x514950414D20485449572045482052455454454C20574552424548202020202020206F4C2023202020202020434235302034443530203B46435F434B464E203B2020202020202020202034334246,
  0x4853454741442048544957205641562052455454454C20574552424548202020202020206F4C2023202020202020434235302035443530203B46435F434B464E203B2020202020202020202035334246,
  0x4853454741442048544957204E4959415A2052455454454C20574552424548202020202020206F4C2023202020202020434235302036443530203B46435F434B464E203B2020202020202020202036334246,
  0x4853454741442048544957205445542052455454454C20574552424548202020202020206F4C2023202020202020434235302038443530203B46435F434B464E203B2020202020202020202038334246,
  0x485345474144204854495720444F592052455454454C20574552424548202020202020206F4C2023202020202020434235302039443530203B46435F434B464E203B2020202020202020202039334246,
  0x48534547414420485449572046414B204C414E49462052455454454C20574552424548202020202020206F4C2023202020202020434235302041443530203B46435F434B464E203B2020202020202020202041334246,
  0x48534547414420485449572046414B2052455454454C20574552424548202020202020206F4C2023202020202020434235302042443530203B46435F434B464E203B2020202020202020202042334246,
  0x48534547414420485449572044454D414C2052455454454C20574552424548202020202020206F4C2023202020202020434235302043443530203B46435F434B464E203B2020202020202020202043334246,
  0x4853454741442048544957204D454D2052455454454C20574552424548202020202020206F4C2023202020202020434235302045443530203B46435F434B464E203B2020202020202020202045334246,
  0x4853454741442048544957204E554E2052455454454C20574552424548202020202020206F4C2023202020202020434235302030453530203B46435F434B464E203B2020202020202020202030344246,
  0x485345474144204854495720484B454D41532052455454454C20574552424548202020202020206F4C2023202020202020434235302031453530203B46435F434B464E203B2020202020202020202031344246,
  0x4853454741442048544957204550204C414E49462052455454454C20574552424548202020202020206F4C2023202020202020434235302033453530203B46435F434B464E203B2020202020202020202033344246,
  0x48534547414420485449572045502052455454454C20574552424548202020202020206F4C2023202020202020434235302034453530203B46435F434B464E203B2020202020202020202034344246,
  0x48534547414420485449572049444153542052455454454C20574552424548202020202020206F4C2023202020202020434235302036453530203B46435F434B464E203B2020202020202020202036344246,
  0x485345474144204854495720464F512052455454454C20574552424548202020202020206F4C2023202020202020434235302037453530203B46435F434B464E203B2020202020202020202037344246,
  0x485345474144204854495720485345522052455454454C20574552424548202020202020206F4C2023202020202020434235302038453530203B46435F434B464E203B2020202020202020202038344246,
  0x4853454741442048544957204E4948532052455454454C20574552424548202020202020206F4C2023202020202020434235302039453530203B46435F434B464E203B2020202020202020202039344246,
  0x4853454741442048544957205641542052455454454C20574552424548202020202020206F4C2023202020202020434235302041453530203B46435F434B464E203B2020202020202020202041344246,
  0x4D414C4F482048544957205641562052455454454C20574552424548202020202020206F4C2023202020202020394235302035443530203B46435F434B464E203B2020202020202020202042344246,
  0x454641522048544957205445422052455454454C20574552424548202020202020206F4C2023202020202020464235302031443530203B46435F434B464E203B2020202020202020202043344246,
  0x4546415220485449572046414B2052455454454C20574552424548202020202020206F4C2023202020202020464235302042443530203B46435F434B464E203B2020202020202020202044344246,
  0x4546415220485449572045502052455454454C20574552424548202020202020206F4C2023202020202020464235302034453530203B46435F434B464E203B2020202020202020202045344246,
  0x44454D414C2046454C4120455255544147494C20574552424548202020202020206F4C2023202020202020434435302030443530203B46435F434B464E203B2020202020202020202046344246,
  0x4D524F46204C414E494620414C5341572046454C412052455454454C204349424152412E2E4D524F4620444554414C4F534920414C5341572046454C412052455454454C20434942415241205D325B2020206F4C2023202020202020202020202031373630203B46435F434B464E203B20202020313542462E2E30354246,
  0x4D524F46204C414944454D20484545422052455454454C204349424152412E2E4D524F4620444554414C4F534920484545422052455454454C20434942415241205D345B2020206F4C2023202020202020202020202042373630203B46435F434B464E203B20202020353542462E2E32354246,
  0x4D524F46204C414944454D204845502052455454454C204349424152412E2E4D524F4620444554414C4F5349204845502052455454454C20434942415241205D345B2020206F4C2023202020202020202020202045373630203B46435F434B464E203B20202020393542462E2E36354246,
  0x4D524F46204C414944454D2048454845422052455454454C204349424152412E2E4D524F4620444554414C4F53492048454845422052455454454C20434942415241205D345B2020206F4C2023202020202020202020202030383630203B46435F434B464E203B20202020443542462E2E41354246,
  0x4D524F46204C414944454D204845484554542052455454454C204349424152412E2E4D524F4620444554414C4F5349204845484554542052455454454C20434942415241205D345B2020206F4C2023202020202020202020202041373630203B46435F434B464E203B20202020313642462E2E45354246,
  0x4D524F46204C414944454D2048454845542052455454454C204349424152412E2E4D524F4620444554414C4F53492048454845542052455454454C20434942415241205D345B2020206F4C2023202020202020202020202046373630203B46435F434B464E203B20202020353642462E2E32364246,
  0x4D524F46204C414944454D20484554542052455454454C204349424152412E2E4D524F4620444554414C4F534920484554542052455454454C20434942415241205D345B2020206F4C2023202020202020202020202039373630203B46435F434B464E203B20202020393642462E2E36364246,
  0x4D524F46204C414944454D204845562052455454454C204349424152412E2E4D524F4620444554414C4F5349204845562052455454454C20434942415241205D345B2020206F4C2023202020202020202020202034413630203B46435F434B464E203B20202020443642462E2E41364246,
  0x4D524F46204C414944454D2048454845502052455454454C204349424152412E2E4D524F4620444554414C4F53492048454845502052455454454C20434942415241205D345B2020206F4C2023202020202020202020202036413630203B46435F434B464E203B20202020313742462E2E45364246,
  0x4D524F46204C414944454D20484559442052455454454C204349424152412E2E4D524F4620444554414C4F534920484559442052455454454C20434942415241205D345B2020206F4C2023202020202020202020202034383630203B46435F434B464E203B20202020353742462E2E32374246,
  0x4D524F46204C414944454D204845594E2052455454454C204349424152412E2E4D524F4620444554414C4F5349204845594E2052455454454C20434942415241205D345B2020206F4C2023202020202020202020202033383630203B46435F434B464E203B20202020393742462E2E36374246,
  0x4D524F46204C414944454D2048454843542052455454454C204349424152412E2E4D524F4620444554414C4F53492048454843542052455454454C20434942415241205D345B2020206F4C2023202020202020202020202036383630203B46435F434B464E203B20202020443742462E2E41374246,
  0x4D524F46204C414944454D20484548454843542052455454454C204349424152412E2E4D524F4620444554414C4F534920484548454843542052455454454C20434942415241205D345B2020206F4C2023202020202020202020202037383630203B46435F434B464E203B20202020313842462E2E45374246,
  0x4D524F46204C414E4946204C41484144442052455454454C204349424152412E2E4D524F4620444554414C4F5349204C41484144442052455454454C20434942415241205D325B2020206F4C2023202020202020202020202044383630203B46435F434B464E203B20202020333842462E2E32384246,
  0x4D524F46204C414E4946204C414841442052455454454C204349424152412E2E4D524F4620444554414C4F5349204C414841442052455454454C20434942415241205D325B2020206F4C2023202020202020202020202043383630203B46435F434B464E203B20202020353842462E2E34384246,
  0x4D524F46204C414E4946204C55442052455454454C204349424152412E2E4D524F4620444554414C4F5349204C55442052455454454C20434942415241205D325B2020206F4C2023202020202020202020202045383630203B46435F434B464E203B20202020373842462E2E36384246,
  0x4D524F46204C414E4946204C4144442052455454454C204349424152412E2E4D524F4620444554414C4F5349204C4144442052455454454C20434942415241205D325B2020206F4C2023202020202020202020202038383630203B46435F434B464E203B20202020393842462E2E38384246,
  0x4D524F46204C414E49462048454A2052455454454C204349424152412E2E4D524F4620444554414C4F53492048454A2052455454454C20434942415241205D325B2020206F4C2023202020202020202020202038393630203B46435F434B464E203B20202020423842462E2E41384246,
  0x4D524F46204C414E494620484552522052455454454C204349424152412E2E4D524F4620444554414C4F534920484552522052455454454C20434942415241205D325B2020206F4C2023202020202020202020202031393630203B46435F434B464E203B20202020443842462E2E43384246,
  0x4D524F46204C414944454D20484548454B2052455454454C204349424152412E2E4D524F4620444554414C4F534920484548454B2052455454454C20434942415241205D345B2020206F4C2023202020202020202020202039413630203B46435F434B464E203B20202020313942462E2E45384246,
  0x4D524F46204C414944454D204641472052455454454C204349424152412E2E4D524F4620444554414C4F5349204641472052455454454C20434942415241205D345B2020206F4C2023202020202020202020202046413630203B46435F434B464E203B20202020353942462E2E32394246,
  0x4D524F46204C414944454D20484555472052455454454C204349424152412E2E4D524F4620444554414C4F534920484555472052455454454C20434942415241205D345B2020206F4C2023202020202020202020202033423630203B46435F434B464E203B20202020393942462E2E36394246,
  0x4D524F46204C414944454D2048454F474E2052455454454C204349424152412E2E4D524F4620444554414C4F53492048454F474E2052455454454C20434942415241205D345B2020206F4C2023202020202020202020202031423630203B46435F434B464E203B20202020443942462E2E41394246,
  0x4D524F46204C414E494620414E4E554847204E4F4F4E2052455454454C204349424152412E2E4D524F4620444554414C4F534920414E4E554847204E4F4F4E2052455454454C20434942415241205D325B2020206F4C2023202020202020202020202041423630203B46435F434B464E203B20202020463942462E2E45394246,
  0x4D524F46204C414944454D204E4F4F4E522052455454454C204349424152412E2E4D524F4620444554414C4F5349204E4F4F4E522052455454454C20434942415241205D345B2020206F4C2023202020202020202020202042423630203B46435F434B464E203B20202020334142462E2E30414246,
  0x4D524F46204C414E49462045564F4241204845592048544957204845482052455454454C204349424152412E2E4D524F4620444554414C4F53492045564F4241204845592048544957204845482052455454454C20434942415241205D325B2020206F4C2023202020202020202020202030433630203B46435F434B464E203B20202020354142462E2E34414246,
  0x4D524F46204C414944454D204C414F47204845482052455454454C204349424152412E2E4D524F4620444554414C4F5349204C414F47204845482052455454454C20434942415241205D345B2020206F4C2023202020202020202020202031433630203B46435F434B464E203B20202020394142462E2E36414246,
  0x4D524F46204C414944454D2045454D4853414843414F44204845482052455454454C204349424152412E2E4D524F4620444554414C4F53492045454D4853414843414F44204845482052455454454C20434942415241205D345B2020206F4C2023202020202020202020202045423630203B46435F434B464E203B20202020444142462E2E41414246,
  0x4D524F46204C414E494620454552524142204845592052455454454C204349424152412E2E4D524F4620444554414C4F534920454552524142204845592052455454454C20434942415241205D325B2020206F4C2023202020202020202020202032443630203B46435F434B464E203B20202020464142462E2E45414246,
  0x4D524F46204C414E49462045564F424120415A4D4148204854495720454552524142204845592052455454454C204349424152412E2E4D524F4620444554414C4F53492045564F424120415A4D4148204854495720454552524142204845592052455454454C20434942415241205D325B2020206F4C2023202020202020202020202033443630203B46435F434B464E203B20202020314242462E2E30424246,
  0x4D524F46204C414944454D20474E2052455454454C204349424152412E2E4D524F4620444554414C4F534920474E2052455454454C20434942415241205D345B2020206F4C2023202020202020202020202044413630203B46435F434B464E203B20202020364442462E2E33444246,
  0x4D524F46204C414E494620552052455454454C204349424152412E2E4D524F4620444554414C4F534920552052455454454C20434942415241205D325B2020206F4C2023202020202020202020202037433630203B46435F434B464E203B20202020384442462E2E37444246,
  0x4D524F46204C414E494620454F2052455454454C204349424152412E2E4D524F4620444554414C4F534920454F2052455454454C20434942415241205D325B2020206F4C2023202020202020202020202036433630203B46435F434B464E203B20202020414442462E2E39444246,
  0x4D524F46204C414E49462055592052455454454C204349424152412E2E4D524F4620444554414C4F53492055592052455454454C20434942415241205D325B2020206F4C2023202020202020202020202038433630203B46435F434B464E203B20202020434442462E2E42444246,
  0x4D524F4620444554414C4F53492045564F424120415A4D4148204854495720552052455454454C20434942415241202020202020206F4C2023202020202020343736302037433630203B46435F434B464E203B2020202020202020202044444246,
  0x4D524F46204C414E49462045562052455454454C204349424152412E2E4D524F4620444554414C4F53492045562052455454454C20434942415241205D325B2020206F4C2023202020202020202020202042433630203B46435F434B464E203B20202020464442462E2E45444246,
  0x4D524F46204C414E494620454F205A49484752494B2052455454454C204349424152412E2E4D524F4620444554414C4F534920454F205A49484752494B2052455454454C20434942415241205D325B2020206F4C2023202020202020202020202035433630203B46435F434B464E203B20202020314542462E2E30454246,
  0x4D524F46204C414E4946205559205A49484752494B2052455454454C204349424152412E2E4D524F4620444554414C4F5349205559205A49484752494B2052455454454C20434942415241205D325B2020206F4C2023202020202020202020202039433630203B46435F434B464E203B20202020334542462E2E32454246,
  0x4D524F46204C414944454D20452052455454454C204349424152412E2E4D524F4620444554414C4F534920452052455454454C20434942415241205D345B2020206F4C2023202020202020202020202030443630203B46435F434B464E203B20202020374542462E2E34454246,
  0x4D524F46204C414944454D20415255534B414D2046454C41205A49484752494B20484B415A414B205255484749552052455454454C204349424152412E2E4D524F46204C414954494E4920415255534B414D2046454C41205A49484752494B20484B415A414B205255484749552052455454454C20434942415241205D325B2020206F4C2023202020202020202020202039343630203B46435F434B464E203B20202020394542462E2E38454246,
  0x4D524F46204C414E49462046454C4120485449572045564F424120415A4D414820485449572048455920455255544147494C204349424152412E2E4D524F4620444554414C4F53492046454C4120485449572045564F424120415A4D414820485449572048455920455255544147494C20434942415241205D325B2020206F4C2023202020202020373236302036323630203B46435F434B464E203B20202020424542462E2E41454246,
  0x4D524F46204C414E494620454120485449572045564F424120415A4D414820485449572048455920455255544147494C204349424152412E2E4D524F4620444554414C4F534920454120485449572045564F424120415A4D414820485449572048455920455255544147494C20434942415241205D325B2020206F4C2023202020202020354436302036323630203B46435F434B464E203B20202020444542462E2E43454246,
  0x4D524F46204C414E49462057415720485449572045564F424120415A4D414820485449572048455920455255544147494C204349424152412E2E4D524F4620444554414C4F53492057415720485449572045564F424120415A4D414820485449572048455920455255544147494C20434942415241205D325B2020206F4C2023202020202020383436302036323630203B46435F434B464E203B20202020464542462E2E45454246,
  0x4D524F46204C414E4946205520485449572045564F424120415A4D414820485449572048455920455255544147494C204349424152412E2E4D524F4620444554414C4F5349205520485449572045564F424120415A4D414820485449572048455920455255544147494C20434942415241205D325B2020206F4C2023202020202020374336302036323630203B46435F434B464E203B20202020314642462E2E30464246,
  0x4D524F46204C414E494620454F20485449572045564F424120415A4D414820485449572048455920455255544147494C204349424152412E2E4D524F4620444554414C4F534920454F20485449572045564F424120415A4D414820485449572048455920455255544147494C20434942415241205D325B2020206F4C2023202020202020364336302036323630203B46435F434B464E203B20202020334642462E2E32464246,
  0x4D524F46204C414E494620555920485449572045564F424120415A4D414820485449572048455920455255544147494C204349424152412E2E4D524F4620444554414C4F534920555920485449572045564F424120415A4D414820485449572048455920455255544147494C20434942415241205D325B2020206F4C2023202020202020384336302036323630203B46435F434B464E203B20202020354642462E2E34464246,
  0x4D524F46204C414954494E49204520485449572045564F424120415A4D414820485449572048455920455255544147494C204349424152412E2E4D524F4620444554414C4F5349204520485449572045564F424120415A4D414820485449572048455920455255544147494C20434942415241205D335B2020206F4C2023202020202020304436302036323630203B46435F434B464E203B20202020384642462E2E36464246,
  0x4D524F46204C414954494E4920415255534B414D2046454C4120485449572045564F424120415A4D4148204854495720484559205A49484752494B2052554847495520455255544147494C204349424152412E2E4D524F4620444554414C4F534920415255534B414D2046454C4120485449572045564F424120415A4D4148204854495720484559205A49484752494B2052554847495520455255544147494C20434942415241205D335B2020206F4C2023202020202020393436302036323630203B46435F434B464E203B20202020424642462E2E39464246,
  0x4D524F46204C414944454D204845592049535241462052455454454C204349424152412E2E4D524F4620444554414C4F5349204845592049535241462052455454454C20434942415241205D345B2020206F4C2023202020202020202020202043433630203B46435F434B464E203B20202020464642462E2E43464246,
  0x4D524F4620444554414C4F5349204D45454A20485449572045564F424120415A4D414820485449572048455920455255544147494C20434942415241202020202020206F4C2023202020202020433236302036323630203B46435F434B464E203B2020202020202020202030304346,
  0x4D524F4620444554414C4F53492048414820485449572045564F424120415A4D414820485449572048455920455255544147494C20434942415241202020202020206F4C2023202020202020443236302036323630203B46435F434B464E203B2020202020202020202031304346]

def qcText24 : List Nat := [
  0x4D524F4620444554414C4F5349204D45454D20485449572045564F424120415A4D414820485449572048455920455255544147494C20434942415241202020202020206F4C2023202020202020353436302036323630203B46435F434B464E203B2020202020202020202032304346,
  0x4D524F4620444554414C4F534920415255534B414D2046454C4120485449572045564F424120415A4D414820485449572048455920455255544147494C20434942415241202020202020206F4C2023202020202020393436302036323630203B46435F434B464E203B2020202020202020202033304346,
  0x4D524F4620444554414C4F53492048455920485449572045564F424120415A4D414820485449572048455920455255544147494C20434942415241202020202020206F4C2023202020202020413436302036323630203B46435F434B464E203B2020202020202020202034304346,
  0x4D524F4620444554414C4F5349204D45454A20485449572048454220455255544147494C20434942415241202020202020206F4C2023202020202020433236302038323630203B46435F434B464E203B2020202020202020202035304346,
  0x4D524F4620444554414C4F53492048414820485449572048454220455255544147494C20434942415241202020202020206F4C2023202020202020443236302038323630203B46435F434B464E203B2020202020202020202036304346,
  0x4D524F4620444554414C4F5349204841484B20485449572048454220455255544147494C20434942415241202020202020206F4C2023202020202020453236302038323630203B46435F434B464E203B2020202020202020202037304346,
  0x4D524F4620444554414C4F5349204D45454D20485449572048454220455255544147494C20434942415241202020202020206F4C2023202020202020353436302038323630203B46435F434B464E203B2020202020202020202038304346,
  0x4D524F4620444554414C4F534920415255534B414D2046454C4120485449572048454220455255544147494C20434942415241202020202020206F4C2023202020202020393436302038323630203B46435F434B464E203B2020202020202020202039304346,
  0x4D524F4620444554414C4F53492048455920485449572048454220455255544147494C20434942415241202020202020206F4C2023202020202020413436302038323630203B46435F434B464E203B2020202020202020202041304346,
  0x4D524F4620444554414C4F5349204D45454A20485449572048455420455255544147494C20434942415241202020202020206F4C2023202020202020433236302041323630203B46435F434B464E203B2020202020202020202042304346,
  0x4D524F4620444554414C4F53492048414820485449572048455420455255544147494C20434942415241202020202020206F4C2023202020202020443236302041323630203B46435F434B464E203B2020202020202020202043304346,
  0x4D524F4620444554414C4F5349204841484B20485449572048455420455255544147494C20434942415241202020202020206F4C2023202020202020453236302041323630203B46435F434B464E203B2020202020202020202044304346,
  0x4D524F4620444554414C4F5349204D45454D20485449572048455420455255544147494C20434942415241202020202020206F4C2023202020202020353436302041323630203B46435F434B464E203B2020202020202020202045304346,
  0x4D524F4620444554414C4F534920415255534B414D2046454C4120485449572048455420455255544147494C20434942415241202020202020206F4C2023202020202020393436302041323630203B46435F434B464E203B2020202020202020202046304346,
  0x4D524F4620444554414C4F53492048455920485449572048455420455255544147494C20434942415241202020202020206F4C2023202020202020413436302041323630203B46435F434B464E203B2020202020202020202030314346,
  0x4D524F4620444554414C4F5349204D45454A2048544957204845485420455255544147494C20434942415241202020202020206F4C2023202020202020433236302042323630203B46435F434B464E203B2020202020202020202031314346,
  0x4D524F4620444554414C4F5349204D45454D2048544957204845485420455255544147494C20434942415241202020202020206F4C2023202020202020353436302042323630203B46435F434B464E203B2020202020202020202032314346,
  0x4D524F4620444554414C4F534920415255534B414D2046454C412048544957204845485420455255544147494C20434942415241202020202020206F4C2023202020202020393436302042323630203B46435F434B464E203B2020202020202020202033314346,
  0x4D524F4620444554414C4F5349204845592048544957204845485420455255544147494C20434942415241202020202020206F4C2023202020202020413436302042323630203B46435F434B464E203B2020202020202020202034314346,
  0x4D524F4620444554414C4F5349204841482048544957204D45454A20455255544147494C20434942415241202020202020206F4C2023202020202020443236302043323630203B46435F434B464E203B2020202020202020202035314346,
  0x4D524F4620444554414C4F5349204D45454D2048544957204D45454A20455255544147494C20434942415241202020202020206F4C2023202020202020353436302043323630203B46435F434B464E203B2020202020202020202036314346,
  0x4D524F4620444554414C4F5349204D45454A20485449572048414820455255544147494C20434942415241202020202020206F4C2023202020202020433236302044323630203B46435F434B464E203B2020202020202020202037314346,
  0x4D524F4620444554414C4F5349204D45454D20485449572048414820455255544147494C20434942415241202020202020206F4C2023202020202020353436302044323630203B46435F434B464E203B2020202020202020202038314346,
  0x4D524F4620444554414C4F5349204D45454A2048544957204841484B20455255544147494C20434942415241202020202020206F4C2023202020202020433236302045323630203B46435F434B464E203B2020202020202020202039314346,
  0x4D524F4620444554414C4F5349204841482048544957204841484B20455255544147494C20434942415241202020202020206F4C2023202020202020443236302045323630203B46435F434B464E203B2020202020202020202041314346,
  0x4D524F4620444554414C4F5349204D45454D2048544957204841484B20455255544147494C20434942415241202020202020206F4C2023202020202020353436302045323630203B46435F434B464E203B2020202020202020202042314346,
  0x4D524F4620444554414C4F5349204D45454A2048544957204E45455320455255544147494C20434942415241202020202020206F4C2023202020202020433236302033333630203B46435F434B464E203B2020202020202020202043314346,
  0x4D524F4620444554414C4F5349204841482048544957204E45455320455255544147494C20434942415241202020202020206F4C2023202020202020443236302033333630203B46435F434B464E203B2020202020202020202044314346,
  0x4D524F4620444554414C4F5349204841484B2048544957204E45455320455255544147494C20434942415241202020202020206F4C2023202020202020453236302033333630203B46435F434B464E203B2020202020202020202045314346,
  0x4D524F4620444554414C4F5349204D45454D2048544957204E45455320455255544147494C20434942415241202020202020206F4C2023202020202020353436302033333630203B46435F434B464E203B2020202020202020202046314346,
  0x4D524F4620444554414C4F53492048414820485449572044415320455255544147494C20434942415241202020202020206F4C2023202020202020443236302035333630203B46435F434B464E203B2020202020202020202030324346,
  0x4D524F4620444554414C4F5349204D45454D20485449572044415320455255544147494C20434942415241202020202020206F4C2023202020202020353436302035333630203B46435F434B464E203B2020202020202020202031324346,
  0x4D524F4620444554414C4F5349204D45454A20485449572044414420455255544147494C20434942415241202020202020206F4C2023202020202020433236302036333630203B46435F434B464E203B2020202020202020202032324346,
  0x4D524F4620444554414C4F53492048414820485449572044414420455255544147494C20434942415241202020202020206F4C2023202020202020443236302036333630203B46435F434B464E203B2020202020202020202033324346,
  0x4D524F4620444554414C4F5349204841484B20485449572044414420455255544147494C20434942415241202020202020206F4C2023202020202020453236302036333630203B46435F434B464E203B2020202020202020202034324346,
  0x4D524F4620444554414C4F5349204D45454D20485449572044414420455255544147494C20434942415241202020202020206F4C2023202020202020353436302036333630203B46435F434B464E203B2020202020202020202035324346,
  0x4D524F4620444554414C4F53492048414820485449572048415420455255544147494C20434942415241202020202020206F4C2023202020202020443236302037333630203B46435F434B464E203B2020202020202020202036324346,
  0x4D524F4620444554414C4F5349204D45454D20485449572048415420455255544147494C20434942415241202020202020206F4C2023202020202020353436302037333630203B46435F434B464E203B2020202020202020202037324346,
  0x4D524F4620444554414C4F5349204D45454D20485449572048415A20455255544147494C20434942415241202020202020206F4C2023202020202020353436302038333630203B46435F434B464E203B2020202020202020202038324346,
  0x4D524F4620444554414C4F5349204D45454A2048544957204E494120455255544147494C20434942415241202020202020206F4C2023202020202020433236302039333630203B46435F434B464E203B2020202020202020202039324346,
  0x4D524F4620444554414C4F5349204D45454D2048544957204E494120455255544147494C20434942415241202020202020206F4C2023202020202020353436302039333630203B46435F434B464E203B2020202020202020202041324346,
  0x4D524F4620444554414C4F5349204D45454A2048544957204E4941484720455255544147494C20434942415241202020202020206F4C2023202020202020433236302041333630203B46435F434B464E203B2020202020202020202042324346,
  0x4D524F4620444554414C4F5349204D45454D2048544957204E4941484720455255544147494C20434942415241202020202020206F4C2023202020202020353436302041333630203B46435F434B464E203B2020202020202020202043324346,
  0x4D524F4620444554414C4F5349204D45454A20485449572048454620455255544147494C20434942415241202020202020206F4C2023202020202020433236302031343630203B46435F434B464E203B2020202020202020202044324346,
  0x4D524F4620444554414C4F53492048414820485449572048454620455255544147494C20434942415241202020202020206F4C2023202020202020443236302031343630203B46435F434B464E203B2020202020202020202045324346,
  0x4D524F4620444554414C4F5349204841484B20485449572048454620455255544147494C20434942415241202020202020206F4C2023202020202020453236302031343630203B46435F434B464E203B2020202020202020202046324346,
  0x4D524F4620444554414C4F5349204D45454D20485449572048454620455255544147494C20434942415241202020202020206F4C2023202020202020353436302031343630203B46435F434B464E203B2020202020202020202030334346,
  0x4D524F4620444554414C4F534920415255534B414D2046454C4120485449572048454620455255544147494C20434942415241202020202020206F4C2023202020202020393436302031343630203B46435F434B464E203B2020202020202020202031334346,
  0x4D524F4620444554414C4F53492048455920485449572048454620455255544147494C20434942415241202020202020206F4C2023202020202020413436302031343630203B46435F434B464E203B2020202020202020202032334346,
  0x4D524F4620444554414C4F53492048414820485449572046415120455255544147494C20434942415241202020202020206F4C2023202020202020443236302032343630203B46435F434B464E203B2020202020202020202033334346,
  0x4D524F4620444554414C4F5349204D45454D20485449572046415120455255544147494C20434942415241202020202020206F4C2023202020202020353436302032343630203B46435F434B464E203B2020202020202020202034334346,
  0x4D524F4620444554414C4F534920415255534B414D2046454C4120485449572046415120455255544147494C20434942415241202020202020206F4C2023202020202020393436302032343630203B46435F434B464E203B2020202020202020202035334346,
  0x4D524F4620444554414C4F53492048455920485449572046415120455255544147494C20434942415241202020202020206F4C2023202020202020413436302032343630203B46435F434B464E203B2020202020202020202036334346,
  0x4D524F4620444554414C4F53492046454C4120485449572046414B20455255544147494C20434942415241202020202020206F4C2023202020202020373236302033343630203B46435F434B464E203B2020202020202020202037334346,
  0x4D524F4620444554414C4F5349204D45454A20485449572046414B20455255544147494C20434942415241202020202020206F4C2023202020202020433236302033343630203B46435F434B464E203B2020202020202020202038334346,
  0x4D524F4620444554414C4F53492048414820485449572046414B20455255544147494C20434942415241202020202020206F4C2023202020202020443236302033343630203B46435F434B464E203B2020202020202020202039334346,
  0x4D524F4620444554414C4F5349204841484B20485449572046414B20455255544147494C20434942415241202020202020206F4C2023202020202020453236302033343630203B46435F434B464E203B2020202020202020202041334346,
  0x4D524F4620444554414C4F5349204D414C20485449572046414B20455255544147494C20434942415241202020202020206F4C2023202020202020343436302033343630203B46435F434B464E203B2020202020202020202042334346,
  0x4D524F4620444554414C4F5349204D45454D20485449572046414B20455255544147494C20434942415241202020202020206F4C2023202020202020353436302033343630203B46435F434B464E203B2020202020202020202043334346,
  0x4D524F4620444554414C4F534920415255534B414D2046454C4120485449572046414B20455255544147494C20434942415241202020202020206F4C2023202020202020393436302033343630203B46435F434B464E203B2020202020202020202044334346,
  0x4D524F4620444554414C4F53492048455920485449572046414B20455255544147494C20434942415241202020202020206F4C2023202020202020413436302033343630203B46435F434B464E203B2020202020202020202045334346,
  0x4D524F4620444554414C4F5349204D45454A2048544957204D414C20455255544147494C20434942415241202020202020206F4C2023202020202020433236302034343630203B46435F434B464E203B2020202020202020202046334346,
  0x4D524F4620444554414C4F5349204841482048544957204D414C20455255544147494C20434942415241202020202020206F4C2023202020202020443236302034343630203B46435F434B464E203B2020202020202020202030344346,
  0x4D524F4620444554414C4F5349204841484B2048544957204D414C20455255544147494C20434942415241202020202020206F4C2023202020202020453236302034343630203B46435F434B464E203B2020202020202020202031344346,
  0x4D524F4620444554414C4F5349204D45454D2048544957204D414C20455255544147494C20434942415241202020202020206F4C2023202020202020353436302034343630203B46435F434B464E203B2020202020202020202032344346,
  0x4D524F4620444554414C4F534920415255534B414D2046454C412048544957204D414C20455255544147494C20434942415241202020202020206F4C2023202020202020393436302034343630203B46435F434B464E203B2020202020202020202033344346,
  0x4D524F4620444554414C4F5349204845592048544957204D414C20455255544147494C20434942415241202020202020206F4C2023202020202020413436302034343630203B46435F434B464E203B2020202020202020202034344346,
  0x4D524F4620444554414C4F5349204D45454A2048544957204D45454D20455255544147494C20434942415241202020202020206F4C2023202020202020433236302035343630203B46435F434B464E203B2020202020202020202035344346,
  0x4D524F4620444554414C4F5349204841482048544957204D45454D20455255544147494C20434942415241202020202020206F4C2023202020202020443236302035343630203B46435F434B464E203B2020202020202020202036344346,
  0x4D524F4620444554414C4F5349204841484B2048544957204D45454D20455255544147494C20434942415241202020202020206F4C2023202020202020453236302035343630203B46435F434B464E203B2020202020202020202037344346,
  0x4D524F4620444554414C4F5349204D45454D2048544957204D45454D20455255544147494C20434942415241202020202020206F4C2023202020202020353436302035343630203B46435F434B464E203B2020202020202020202038344346,
  0x4D524F4620444554414C4F534920415255534B414D2046454C412048544957204D45454D20455255544147494C20434942415241202020202020206F4C2023202020202020393436302035343630203B46435F434B464E203B2020202020202020202039344346,
  0x4D524F4620444554414C4F5349204845592048544957204D45454D20455255544147494C20434942415241202020202020206F4C2023202020202020413436302035343630203B46435F434B464E203B2020202020202020202041344346,
  0x4D524F4620444554414C4F5349204D45454A2048544957204E4F4F4E20455255544147494C20434942415241202020202020206F4C2023202020202020433236302036343630203B46435F434B464E203B2020202020202020202042344346,
  0x4D524F4620444554414C4F5349204841482048544957204E4F4F4E20455255544147494C20434942415241202020202020206F4C2023202020202020443236302036343630203B46435F434B464E203B2020202020202020202043344346,
  0x4D524F4620444554414C4F5349204841484B2048544957204E4F4F4E20455255544147494C20434942415241202020202020206F4C2023202020202020453236302036343630203B46435F434B464E203B2020202020202020202044344346,
  0x4D524F4620444554414C4F5349204D45454D2048544957204E4F4F4E20455255544147494C20434942415241202020202020206F4C2023202020202020353436302036343630203B46435F434B464E203B2020202020202020202045344346,
  0x4D524F4620444554414C4F534920415255534B414D2046454C412048544957204E4F4F4E20455255544147494C20434942415241202020202020206F4C2023202020202020393436302036343630203B46435F434B464E203B2020202020202020202046344346,
  0x4D524F4620444554414C4F5349204845592048544957204E4F4F4E20455255544147494C20434942415241202020202020206F4C2023202020202020413436302036343630203B46435F434B464E203B2020202020202020202030354346,
  0x4D524F4620444554414C4F5349204D45454A20485449572048454820455255544147494C20434942415241202020202020206F4C2023202020202020433236302037343630203B46435F434B464E203B2020202020202020202031354346,
  0x4D524F4620444554414C4F5349204D45454D20485449572048454820455255544147494C20434942415241202020202020206F4C2023202020202020353436302037343630203B46435F434B464E203B2020202020202020202032354346,
  0x4D524F4620444554414C4F534920415255534B414D2046454C4120485449572048454820455255544147494C20434942415241202020202020206F4C2023202020202020393436302037343630203B46435F434B464E203B2020202020202020202033354346,
  0x4D524F4620444554414C4F53492048455920485449572048454820455255544147494C20434942415241202020202020206F4C2023202020202020413436302037343630203B46435F434B464E203B2020202020202020202034354346,
  0x4D524F4620444554414C4F5349204D45454A20485449572048455920455255544147494C20434942415241202020202020206F4C2023202020202020433236302041343630203B46435F434B464E203B2020202020202020202035354346,
  0x4D524F4620444554414C4F53492048414820485449572048455920455255544147494C20434942415241202020202020206F4C2023202020202020443236302041343630203B46435F434B464E203B2020202020202020202036354346,
  0x4D524F4620444554414C4F5349204841484B20485449572048455920455255544147494C20434942415241202020202020206F4C2023202020202020453236302041343630203B46435F434B464E203B2020202020202020202037354346,
  0x4D524F4620444554414C4F5349204D45454D20485449572048455920455255544147494C20434942415241202020202020206F4C2023202020202020353436302041343630203B46435F434B464E203B2020202020202020202038354346,
  0x4D524F4620444554414C4F534920415255534B414D2046454C4120485449572048455920455255544147494C20434942415241202020202020206F4C2023202020202020393436302041343630203B46435F434B464E203B2020202020202020202039354346,
  0x4D524F4620444554414C4F53492048455920485449572048455920455255544147494C20434942415241202020202020206F4C2023202020202020413436302041343630203B46435F434B464E203B2020202020202020202041354346,
  0x4D524F4620444554414C4F53492046454C412054504952435352455055532048544957204C41485420455255544147494C20434942415241202020202020206F4C2023202020202020303736302030333630203B46435F434B464E203B2020202020202020202042354346,
  0x4D524F4620444554414C4F53492046454C4120545049524353524550555320485449572048455220455255544147494C20434942415241202020202020206F4C2023202020202020303736302031333630203B46435F434B464E203B2020202020202020202043354346,
  0x4D524F4620444554414C4F53492046454C41205450495243535245505553204854495720415255534B414D2046454C4120455255544147494C20434942415241202020202020206F4C2023202020202020303736302039343630203B46435F434B464E203B2020202020202020202044354346,
  0x4D524F4620444554414C4F5349204E4154414D4D414420485449572041444441485320455255544147494C20434942415241202020202020206F4C2023203135363020433436302030323030203B46435F434B464E203B2020202020202020202045354346,
  0x4D524F4620444554414C4F5349204E4154415253414B20485449572041444441485320455255544147494C20434942415241202020202020206F4C2023203135363020443436302030323030203B46435F434B464E203B2020202020202020202046354346,
  0x4D524F4620444554414C4F534920414854414620485449572041444441485320455255544147494C20434942415241202020202020206F4C2023203135363020453436302030323030203B46435F434B464E203B2020202020202020202030364346,
  0x4D524F4620444554414C4F534920414D4D414420485449572041444441485320455255544147494C20434942415241202020202020206F4C2023203135363020463436302030323030203B46435F434B464E203B2020202020202020202031364346,
  0x4D524F4620444554414C4F534920415253414B20485449572041444441485320455255544147494C20434942415241202020202020206F4C2023203135363020303536302030323030203B46435F434B464E203B2020202020202020202032364346,
  0x4D524F4620444554414C4F53492046454C4120545049524353524550555320485449572041444441485320455255544147494C20434942415241202020202020206F4C2023203037363020313536302030323030203B46435F434B464E203B2020202020202020202033364346,
  0x4D524F46204C414E49462048455220485449572045564F424120415A4D414820485449572048455920455255544147494C20434942415241202020202020206F4C2023202020202020313336302036323630203B46435F434B464E203B2020202020202020202034364346,
  0x4D524F46204C414E4946204E49415A20485449572045564F424120415A4D414820485449572048455920455255544147494C20434942415241202020202020206F4C2023202020202020323336302036323630203B46435F434B464E203B2020202020202020202035364346,
  0x4D524F46204C414E4946204D45454D20485449572045564F424120415A4D414820485449572048455920455255544147494C20434942415241202020202020206F4C2023202020202020353436302036323630203B46435F434B464E203B2020202020202020202036364346,
  0x4D524F46204C414E4946204E4F4F4E20485449572045564F424120415A4D414820485449572048455920455255544147494C20434942415241202020202020206F4C2023202020202020363436302036323630203B46435F434B464E203B2020202020202020202037364346,
  0x4D524F46204C414E494620415255534B414D2046454C4120485449572045564F424120415A4D414820485449572048455920455255544147494C20434942415241202020202020206F4C2023202020202020393436302036323630203B46435F434B464E203B2020202020202020202038364346,
  0x4D524F46204C414E49462048455920485449572045564F424120415A4D414820485449572048455920455255544147494C20434942415241202020202020206F4C2023202020202020413436302036323630203B46435F434B464E203B2020202020202020202039364346,
  0x4D524F46204C414E49462048455220485449572048454220455255544147494C20434942415241202020202020206F4C2023202020202020313336302038323630203B46435F434B464E203B2020202020202020202041364346,
  0x4D524F46204C414E4946204E49415A20485449572048454220455255544147494C20434942415241202020202020206F4C2023202020202020323336302038323630203B46435F434B464E203B2020202020202020202042364346,
  0x4D524F46204C414E4946204D45454D20485449572048454220455255544147494C20434942415241202020202020206F4C2023202020202020353436302038323630203B46435F434B464E203B2020202020202020202043364346,
  0x4D524F46204C414E4946204E4F4F4E20485449572048454220455255544147494C20434942415241202020202020206F4C2023202020202020363436302038323630203B46435F434B464E203B2020202020202020202044364346,
  0x4D524F46204C414E494620415255534B414D2046454C4120485449572048454220455255544147494C20434942415241202020202020206F4C2023202020202020393436302038323630203B46435F434B464E203B2020202020202020202045364346,
  0x4D524F46204C414E49462048455920485449572048454220455255544147494C20434942415241202020202020206F4C2023202020202020413436302038323630203B46435F434B464E203B2020202020202020202046364346,
  0x4D524F46204C414E49462048455220485449572048455420455255544147494C20434942415241202020202020206F4C2023202020202020313336302041323630203B46435F434B464E203B2020202020202020202030374346,
  0x4D524F46204C414E4946204E49415A20485449572048455420455255544147494C20434942415241202020202020206F4C2023202020202020323336302041323630203B46435F434B464E203B2020202020202020202031374346,
  0x4D524F46204C414E4946204D45454D20485449572048455420455255544147494C20434942415241202020202020206F4C2023202020202020353436302041323630203B46435F434B464E203B2020202020202020202032374346,
  0x4D524F46204C414E4946204E4F4F4E20485449572048455420455255544147494C20434942415241202020202020206F4C2023202020202020363436302041323630203B46435F434B464E203B2020202020202020202033374346,
  0x4D524F46204C414E494620415255534B414D2046454C4120485449572048455420455255544147494C20434942415241202020202020206F4C2023202020202020393436302041323630203B46435F434B464E203B2020202020202020202034374346,
  0x4D524F46204C414E49462048455920485449572048455420455255544147494C20434942415241202020202020206F4C2023202020202020413436302041323630203B46435F434B464E203B2020202020202020202035374346,
  0x4D524F46204C414E4946204845522048544957204845485420455255544147494C20434942415241202020202020206F4C2023202020202020313336302042323630203B46435F434B464E203B2020202020202020202036374346,
  0x4D524F46204C414E4946204E49415A2048544957204845485420455255544147494C20434942415241202020202020206F4C2023202020202020323336302042323630203B46435F434B464E203B2020202020202020202037374346,
  0x4D524F46204C414E4946204D45454D2048544957204845485420455255544147494C20434942415241202020202020206F4C2023202020202020353436302042323630203B46435F434B464E203B2020202020202020202038374346,
  0x4D524F46204C414E4946204E4F4F4E2048544957204845485420455255544147494C20434942415241202020202020206F4C2023202020202020363436302042323630203B46435F434B464E203B2020202020202020202039374346,
  0x4D524F46204C414E494620415255534B414D2046454C412048544957204845485420455255544147494C20434942415241202020202020206F4C2023202020202020393436302042323630203B46435F434B464E203B2020202020202020202041374346,
  0x4D524F46204C414E4946204845592048544957204845485420455255544147494C20434942415241202020202020206F4C2023202020202020413436302042323630203B46435F434B464E203B2020202020202020202042374346,
  0x4D524F46204C414E494620415255534B414D2046454C4120485449572048454620455255544147494C20434942415241202020202020206F4C2023202020202020393436302031343630203B46435F434B464E203B2020202020202020202043374346,
  0x4D524F46204C414E49462048455920485449572048454620455255544147494C20434942415241202020202020206F4C2023202020202020413436302031343630203B46435F434B464E203B2020202020202020202044374346,
  0x4D524F46204C414E494620415255534B414D2046454C4120485449572046415120455255544147494C20434942415241202020202020206F4C2023202020202020393436302032343630203B46435F434B464E203B2020202020202020202045374346,
  0x4D524F46204C414E49462048455920485449572046415120455255544147494C20434942415241202020202020206F4C2023202020202020413436302032343630203B46435F434B464E203B2020202020202020202046374346,
  0x4D524F46204C414E49462046454C4120485449572046414B20455255544147494C20434942415241202020202020206F4C2023202020202020373236302033343630203B46435F434B464E203B2020202020202020202030384346,
  0x4D524F46204C414E4946204D414C20485449572046414B20455255544147494C20434942415241202020202020206F4C2023202020202020343436302033343630203B46435F434B464E203B2020202020202020202031384346,
  0x4D524F46204C414E4946204D45454D20485449572046414B20455255544147494C20434942415241202020202020206F4C2023202020202020353436302033343630203B46435F434B464E203B2020202020202020202032384346,
  0x4D524F46204C414E494620415255534B414D2046454C4120485449572046414B20455255544147494C20434942415241202020202020206F4C2023202020202020393436302033343630203B46435F434B464E203B2020202020202020202033384346,
  0x4D524F46204C414E49462048455920485449572046414B20455255544147494C20434942415241202020202020206F4C2023202020202020413436302033343630203B46435F434B464E203B2020202020202020202034384346,
  0x4D524F46204C414E4946204D45454D2048544957204D414C20455255544147494C20434942415241202020202020206F4C2023202020202020353436302034343630203B46435F434B464E203B2020202020202020202035384346,
  0x4D524F46204C414E494620415255534B414D2046454C412048544957204D414C20455255544147494C20434942415241202020202020206F4C2023202020202020393436302034343630203B46435F434B464E203B2020202020202020202036384346,
  0x4D524F46204C414E4946204845592048544957204D414C20455255544147494C20434942415241202020202020206F4C2023202020202020413436302034343630203B46435F434B464E203B2020202020202020202037384346,
  0x4D524F46204C414E49462046454C412048544957204D45454D20455255544147494C20434942415241202020202020206F4C2023202020202020373236302035343630203B46435F434B464E203B2020202020202020202038384346,
  0x4D524F46204C414E4946204D45454D2048544957204D45454D20455255544147494C20434942415241202020202020206F4C2023202020202020353436302035343630203B46435F434B464E203B2020202020202020202039384346,
  0x4D524F46204C414E4946204845522048544957204E4F4F4E20455255544147494C20434942415241202020202020206F4C2023202020202020313336302036343630203B46435F434B464E203B2020202020202020202041384346,
  0x4D524F46204C414E4946204E49415A2048544957204E4F4F4E20455255544147494C20434942415241202020202020206F4C2023202020202020323336302036343630203B46435F434B464E203B2020202020202020202042384346,
  0x4D524F46204C414E4946204D45454D2048544957204E4F4F4E20455255544147494C20434942415241202020202020206F4C2023202020202020353436302036343630203B46435F434B464E203B2020202020202020202043384346,
  0x4D524F46204C414E4946204E4F4F4E2048544957204E4F4F4E20455255544147494C20434942415241202020202020206F4C2023202020202020363436302036343630203B46435F434B464E203B2020202020202020202044384346,
  0x4D524F46204C414E494620415255534B414D2046454C412048544957204E4F4F4E20455255544147494C20434942415241202020202020206F4C2023202020202020393436302036343630203B46435F434B464E203B2020202020202020202045384346,
  0x4D524F46204C414E4946204845592048544957204E4F4F4E20455255544147494C20434942415241202020202020206F4C2023202020202020413436302036343630203B46435F434B464E203B2020202020202020202046384346,
  0x4D524F46204C414E49462046454C41205450495243535245505553204854495720415255534B414D2046454C4120455255544147494C20434942415241202020202020206F4C2023202020202020303736302039343630203B46435F434B464E203B2020202020202020202030394346,
  0x4D524F46204C414E49462048455220485449572048455920455255544147494C20434942415241202020202020206F4C2023202020202020313336302041343630203B46435F434B464E203B2020202020202020202031394346,
  0x4D524F46204C414E4946204E49415A20485449572048455920455255544147494C20434942415241202020202020206F4C2023202020202020323336302041343630203B46435F434B464E203B2020202020202020202032394346,
  0x4D524F46204C414E4946204D45454D20485449572048455920455255544147494C20434942415241202020202020206F4C2023202020202020353436302041343630203B46435F434B464E203B2020202020202020202033394346,
  0x4D524F46204C414E4946204E4F4F4E20485449572048455920455255544147494C20434942415241202020202020206F4C2023202020202020363436302041343630203B46435F434B464E203B2020202020202020202034394346,
  0x4D524F46204C414E494620415255534B414D2046454C4120485449572048455920455255544147494C20434942415241202020202020206F4C2023202020202020393436302041343630203B46435F434B464E203B2020202020202020202035394346,
  0x4D524F46204C414E49462048455920485449572048455920455255544147494C20434942415241202020202020206F4C2023202020202020413436302041343630203B46435F434B464E203B2020202020202020202036394346,
  0x4D524F46204C414954494E49204D45454A20485449572045564F424120415A4D414820485449572048455920455255544147494C20434942415241202020202020206F4C2023202020202020433236302036323630203B46435F434B464E203B2020202020202020202037394346,
  0x4D524F46204C414954494E492048414820485449572045564F424120415A4D414820485449572048455920455255544147494C20434942415241202020202020206F4C2023202020202020443236302036323630203B46435F434B464E203B2020202020202020202038394346,
  0x4D524F46204C414954494E49204841484B20485449572045564F424120415A4D414820485449572048455920455255544147494C20434942415241202020202020206F4C2023202020202020453236302036323630203B46435F434B464E203B2020202020202020202039394346,
  0x4D524F46204C414954494E49204D45454D20485449572045564F424120415A4D414820485449572048455920455255544147494C20434942415241202020202020206F4C2023202020202020353436302036323630203B46435F434B464E203B2020202020202020202041394346,
  0x4D524F46204C414954494E492048454820485449572045564F424120415A4D414820485449572048455920455255544147494C20434942415241202020202020206F4C2023202020202020373436302036323630203B46435F434B464E203B2020202020202020202042394346,
  0x4D524F46204C414954494E49204D45454A20485449572048454220455255544147494C20434942415241202020202020206F4C2023202020202020433236302038323630203B46435F434B464E203B2020202020202020202043394346,
  0x4D524F46204C414954494E492048414820485449572048454220455255544147494C20434942415241202020202020206F4C2023202020202020443236302038323630203B46435F434B464E203B2020202020202020202044394346,
  0x4D524F46204C414954494E49204841484B20485449572048454220455255544147494C20434942415241202020202020206F4C2023202020202020453236302038323630203B46435F434B464E203B2020202020202020202045394346,
  0x4D524F46204C414954494E49204D45454D20485449572048454220455255544147494C20434942415241202020202020206F4C2023202020202020353436302038323630203B46435F434B464E203B2020202020202020202046394346,
  0x4D524F46204C414954494E492048454820485449572048454220455255544147494C20434942415241202020202020206F4C2023202020202020373436302038323630203B46435F434B464E203B2020202020202020202030414346,
  0x4D524F46204C414954494E49204D45454A20485449572048455420455255544147494C20434942415241202020202020206F4C2023202020202020433236302041323630203B46435F434B464E203B2020202020202020202031414346,
  0x4D524F46204C414954494E492048414820485449572048455420455255544147494C20434942415241202020202020206F4C2023202020202020443236302041323630203B46435F434B464E203B2020202020202020202032414346,
  0x4D524F46204C414954494E49204841484B20485449572048455420455255544147494C20434942415241202020202020206F4C2023202020202020453236302041323630203B46435F434B464E203B2020202020202020202033414346,
  0x4D524F46204C414954494E49204D45454D20485449572048455420455255544147494C20434942415241202020202020206F4C2023202020202020353436302041323630203B46435F434B464E203B2020202020202020202034414346,
  0x4D524F46204C414954494E492048454820485449572048455420455255544147494C20434942415241202020202020206F4C2023202020202020373436302041323630203B46435F434B464E203B2020202020202020202035414346,
  0x4D524F46204C414954494E49204D45454D2048544957204845485420455255544147494C20434942415241202020202020206F4C2023202020202020353436302042323630203B46435F434B464E203B2020202020202020202036414346,
  0x4D524F46204C414954494E49204841482048544957204D45454A20455255544147494C20434942415241202020202020206F4C2023202020202020443236302043323630203B46435F434B464E203B2020202020202020202037414346,
  0x4D524F46204C414954494E49204D45454D2048544957204D45454A20455255544147494C20434942415241202020202020206F4C2023202020202020353436302043323630203B46435F434B464E203B2020202020202020202038414346,
  0x4D524F46204C414954494E49204D45454A20485449572048414820455255544147494C20434942415241202020202020206F4C2023202020202020433236302044323630203B46435F434B464E203B2020202020202020202039414346,
  0x4D524F46204C414954494E49204D45454D20485449572048414820455255544147494C20434942415241202020202020206F4C2023202020202020353436302044323630203B46435F434B464E203B2020202020202020202041414346,
  0x4D524F46204C414954494E49204D45454A2048544957204841484B20455255544147494C20434942415241202020202020206F4C2023202020202020433236302045323630203B46435F434B464E203B2020202020202020202042414346,
  0x4D524F46204C414954494E49204D45454D2048544957204841484B20455255544147494C20434942415241202020202020206F4C2023202020202020353436302045323630203B46435F434B464E203B2020202020202020202043414346,
  0x4D524F46204C414954494E49204D45454A2048544957204E45455320455255544147494C20434942415241202020202020206F4C2023202020202020433236302033333630203B46435F434B464E203B2020202020202020202044414346,
  0x4D524F46204C414954494E49204841482048544957204E45455320455255544147494C20434942415241202020202020206F4C2023202020202020443236302033333630203B46435F434B464E203B2020202020202020202045414346,
  0x4D524F46204C414954494E49204841484B2048544957204E45455320455255544147494C20434942415241202020202020206F4C2023202020202020453236302033333630203B46435F434B464E203B2020202020202020202046414346,
  0x4D524F46204C414954494E49204D45454D2048544957204E45455320455255544147494C20434942415241202020202020206F4C2023202020202020353436302033333630203B46435F434B464E203B2020202020202020202030424346,
  0x4D524F46204C414954494E492048414820485449572044415320455255544147494C20434942415241202020202020206F4C2023202020202020443236302035333630203B46435F434B464E203B2020202020202020202031424346,
  0x4D524F46204C414954494E49204841484B20485449572044415320455255544147494C20434942415241202020202020206F4C2023202020202020453236302035333630203B46435F434B464E203B2020202020202020202032424346,
  0x4D524F46204C414954494E49204D45454D20485449572044415320455255544147494C20434942415241202020202020206F4C2023202020202020353436302035333630203B46435F434B464E203B2020202020202020202033424346,
  0x4D524F46204C414954494E49204D45454A20485449572044414420455255544147494C20434942415241202020202020206F4C2023202020202020433236302036333630203B46435F434B464E203B2020202020202020202034424346,
  0x4D524F46204C414954494E492048414820485449572044414420455255544147494C20434942415241202020202020206F4C2023202020202020443236302036333630203B46435F434B464E203B2020202020202020202035424346,
  0x4D524F46204C414954494E49204841484B20485449572044414420455255544147494C20434942415241202020202020206F4C2023202020202020453236302036333630203B46435F434B464E203B2020202020202020202036424346,
  0x4D524F46204C414954494E49204D45454D20485449572044414420455255544147494C20434942415241202020202020206F4C2023202020202020353436302036333630203B46435F434B464E203B2020202020202020202037424346,
  0x4D524F46204C414954494E492048414820485449572048415420455255544147494C20434942415241202020202020206F4C2023202020202020443236302037333630203B46435F434B464E203B2020202020202020202038424346,
  0x4D524F46204C414954494E49204D45454D20485449572048415A20455255544147494C20434942415241202020202020206F4C2023202020202020353436302038333630203B46435F434B464E203B2020202020202020202039424346,
  0x4D524F46204C414954494E49204D45454A2048544957204E494120455255544147494C20434942415241202020202020206F4C2023202020202020433236302039333630203B46435F434B464E203B2020202020202020202041424346,
  0x4D524F46204C414954494E49204D45454D2048544957204E494120455255544147494C20434942415241202020202020206F4C2023202020202020353436302039333630203B46435F434B464E203B2020202020202020202042424346,
  0x4D524F46204C414954494E49204D45454A2048544957204E4941484720455255544147494C20434942415241202020202020206F4C2023202020202020433236302041333630203B46435F434B464E203B2020202020202020202043424346,
  0x4D524F46204C414954494E49204D45454D2048544957204E4941484720455255544147494C20434942415241202020202020206F4C2023202020202020353436302041333630203B46435F434B464E203B2020202020202020202044424346,
  0x4D524F46204C414954494E49204D45454A20485449572048454620455255544147494C20434942415241202020202020206F4C2023202020202020433236302031343630203B46435F434B464E203B2020202020202020202045424346,
  0x4D524F46204C414954494E492048414820485449572048454620455255544147494C20434942415241202020202020206F4C2023202020202020443236302031343630203B46435F434B464E203B2020202020202020202046424346,
  0x4D524F46204C414954494E49204841484B20485449572048454620455255544147494C20434942415241202020202020206F4C2023202020202020453236302031343630203B46435F434B464E203B2020202020202020202030434346,
  0x4D524F46204C414954494E49204D45454D20485449572048454620455255544147494C20434942415241202020202020206F4C2023202020202020353436302031343630203B46435F434B464E203B2020202020202020202031434346,
  0x4D524F46204C414954494E492048414820485449572046415120455255544147494C20434942415241202020202020206F4C2023202020202020443236302032343630203B46435F434B464E203B2020202020202020202032434346,
  0x4D524F46204C414954494E49204D45454D20485449572046415120455255544147494C20434942415241202020202020206F4C2023202020202020353436302032343630203B46435F434B464E203B2020202020202020202033434346,
  0x4D524F46204C414954494E49204D45454A20485449572046414B20455255544147494C20434942415241202020202020206F4C2023202020202020433236302033343630203B46435F434B464E203B2020202020202020202034434346,
  0x4D524F46204C414954494E492048414820485449572046414B20455255544147494C20434942415241202020202020206F4C2023202020202020443236302033343630203B46435F434B464E203B2020202020202020202035434346,
  0x4D524F46204C414954494E49204841484B20485449572046414B20455255544147494C20434942415241202020202020206F4C2023202020202020453236302033343630203B46435F434B464E203B2020202020202020202036434346,
  0x4D524F46204C414954494E49204D414C20485449572046414B20455255544147494C20434942415241202020202020206F4C2023202020202020343436302033343630203B46435F434B464E203B2020202020202020202037434346,
  0x4D524F46204C414954494E49204D45454D20485449572046414B20455255544147494C20434942415241202020202020206F4C2023202020202020353436302033343630203B46435F434B464E203B2020202020202020202038434346,
  0x4D524F46204C414954494E49204D45454A2048544957204D414C20455255544147494C20434942415241202020202020206F4C2023202020202020433236302034343630203B46435F434B464E203B2020202020202020202039434346,
  0x4D524F46204C414954494E49204841482048544957204D414C20455255544147494C20434942415241202020202020206F4C2023202020202020443236302034343630203B46435F434B464E203B2020202020202020202041434346,
  0x4D524F46204C414954494E49204841484B2048544957204D414C20455255544147494C20434942415241202020202020206F4C2023202020202020453236302034343630203B46435F434B464E203B2020202020202020202042434346,
  0x4D524F46204C414954494E49204D45454D2048544957204D414C20455255544147494C20434942415241202020202020206F4C2023202020202020353436302034343630203B46435F434B464E203B2020202020202020202043434346,
  0x4D524F46204C414954494E49204845482048544957204D414C20455255544147494C20434942415241202020202020206F4C2023202020202020373436302034343630203B46435F434B464E203B2020202020202020202044434346,
  0x4D524F46204C414954494E49204D45454A2048544957204D45454D20455255544147494C20434942415241202020202020206F4C2023202020202020433236302035343630203B46435F434B464E203B2020202020202020202045434346,
  0x4D524F46204C414954494E49204841482048544957204D45454D20455255544147494C20434942415241202020202020206F4C2023202020202020443236302035343630203B46435F434B464E203B2020202020202020202046434346,
  0x4D524F46204C414954494E49204841484B2048544957204D45454D20455255544147494C20434942415241202020202020206F4C2023202020202020453236302035343630203B46435F434B464E203B2020202020202020202030444346,
  0x4D524F46204C414954494E49204D45454D2048544957204D45454D20455255544147494C20434942415241202020202020206F4C2023202020202020353436302035343630203B46435F434B464E203B2020202020202020202031444346,
  0x4D524F46204C414954494E49204D45454A2048544957204E4F4F4E20455255544147494C20434942415241202020202020206F4C2023202020202020433236302036343630203B46435F434B464E203B2020202020202020202032444346,
  0x4D524F46204C414954494E49204841482048544957204E4F4F4E20455255544147494C20434942415241202020202020206F4C2023202020202020443236302036343630203B46435F434B464E203B2020202020202020202033444346,
  0x4D524F46204C414954494E49204841484B2048544957204E4F4F4E20455255544147494C20434942415241202020202020206F4C2023202020202020453236302036343630203B46435F434B464E203B2020202020202020202034444346,
  0x4D524F46204C414954494E49204D45454D2048544957204E4F4F4E20455255544147494C20434942415241202020202020206F4C2023202020202020353436302036343630203B46435F434B464E203B2020202020202020202035444346,
  0x4D524F46204C414954494E49204845482048544957204E4F4F4E20455255544147494C20434942415241202020202020206F4C2023202020202020373436302036343630203B46435F434B464E203B2020202020202020202036444346,
  0x4D524F46204C414954494E49204D45454A20485449572048454820455255544147494C20434942415241202020202020206F4C2023202020202020433236302037343630203B46435F434B464E203B2020202020202020202037444346,
  0x4D524F46204C414954494E49204D45454D20485449572048454820455255544147494C20434942415241202020202020206F4C2023202020202020353436302037343630203B46435F434B464E203B2020202020202020202038444346,
  0x4D524F46204C414954494E492046454C4120545049524353524550555320485449572048454820455255544147494C20434942415241202020202020206F4C2023202020202020303736302037343630203B46435F434B464E203B2020202020202020202039444346,
  0x4D524F46204C414954494E49204D45454A20485449572048455920455255544147494C20434942415241202020202020206F4C2023202020202020433236302041343630203B46435F434B464E203B2020202020202020202041444346,
  0x4D524F46204C414954494E492048414820485449572048455920455255544147494C20434942415241202020202020206F4C2023202020202020443236302041343630203B46435F434B464E203B2020202020202020202042444346,
  0x4D524F46204C414954494E49204841484B20485449572048455920455255544147494C20434942415241202020202020206F4C2023202020202020453236302041343630203B46435F434B464E203B2020202020202020202043444346,
  0x4D524F46204C414954494E49204D45454D20485449572048455920455255544147494C20434942415241202020202020206F4C2023202020202020353436302041343630203B46435F434B464E203B2020202020202020202044444346,
  0x4D524F46204C414954494E492048454820485449572048455920455255544147494C20434942415241202020202020206F4C2023202020202020373436302041343630203B46435F434B464E203B2020202020202020202045444346,
  0x4D524F46204C414944454D204D45454D20485449572045564F424120415A4D414820485449572048455920455255544147494C20434942415241202020202020206F4C2023202020202020353436302036323630203B46435F434B464E203B2020202020202020202046444346,
  0x4D524F46204C414944454D2048454820485449572045564F424120415A4D414820485449572048455920455255544147494C20434942415241202020202020206F4C2023202020202020373436302036323630203B46435F434B464E203B2020202020202020202030454346,
  0x4D524F46204C414944454D204D45454D20485449572048454220455255544147494C20434942415241202020202020206F4C2023202020202020353436302038323630203B46435F434B464E203B2020202020202020202031454346,
  0x4D524F46204C414944454D2048454820485449572048454220455255544147494C20434942415241202020202020206F4C2023202020202020373436302038323630203B46435F434B464E203B2020202020202020202032454346,
  0x4D524F46204C414944454D204D45454D20485449572048455420455255544147494C20434942415241202020202020206F4C2023202020202020353436302041323630203B46435F434B464E203B2020202020202020202033454346,
  0x4D524F46204C414944454D2048454820485449572048455420455255544147494C20434942415241202020202020206F4C2023202020202020373436302041323630203B46435F434B464E203B2020202020202020202034454346,
  0x4D524F46204C414944454D204D45454D2048544957204845485420455255544147494C20434942415241202020202020206F4C2023202020202020353436302042323630203B46435F434B464E203B2020202020202020202035454346,
  0x4D524F46204C414944454D204845482048544957204845485420455255544147494C20434942415241202020202020206F4C2023202020202020373436302042323630203B46435F434B464E203B2020202020202020202036454346,
  0x4D524F46204C414944454D204D45454D2048544957204E45455320455255544147494C20434942415241202020202020206F4C2023202020202020353436302033333630203B46435F434B464E203B2020202020202020202037454346,
  0x4D524F46204C414944454D204845482048544957204E45455320455255544147494C20434942415241202020202020206F4C2023202020202020373436302033333630203B46435F434B464E203B2020202020202020202038454346,
  0x4D524F46204C414944454D204D45454D2048544957204E4545485320455255544147494C20434942415241202020202020206F4C2023202020202020353436302034333630203B46435F434B464E203B2020202020202020202039454346,
  0x4D524F46204C414944454D204845482048544957204E4545485320455255544147494C20434942415241202020202020206F4C2023202020202020373436302034333630203B46435F434B464E203B2020202020202020202041454346,
  0x4D524F46204C414944454D204D414C20485449572046414B20455255544147494C20434942415241202020202020206F4C2023202020202020343436302033343630203B46435F434B464E203B2020202020202020202042454346,
  0x4D524F46204C414944454D204D45454D20485449572046414B20455255544147494C20434942415241202020202020206F4C2023202020202020353436302033343630203B46435F434B464E203B2020202020202020202043454346,
  0x4D524F46204C414944454D204D45454D2048544957204D414C20455255544147494C20434942415241202020202020206F4C2023202020202020353436302034343630203B46435F434B464E203B2020202020202020202044454346,
  0x4D524F46204C414944454D204D45454D2048544957204E4F4F4E20455255544147494C20434942415241202020202020206F4C2023202020202020353436302036343630203B46435F434B464E203B2020202020202020202045454346,
  0x4D524F46204C414944454D204845482048544957204E4F4F4E20455255544147494C20434942415241202020202020206F4C2023202020202020373436302036343630203B46435F434B464E203B2020202020202020202046454346,
  0x4D524F46204C414944454D204D45454D20485449572048455920455255544147494C20434942415241202020202020206F4C2023202020202020353436302041343630203B46435F434B464E203B2020202020202020202030464346,
  0x4D524F46204C414944454D2048454820485449572048455920455255544147494C20434942415241202020202020206F4C2023202020202020373436302041343630203B46435F434B464E203B2020202020202020202031464346,
  0x4D524F46204C414944454D20414854414620485449572041444441485320455255544147494C20434942415241202020202020206F4C2023203135363020453436302030343630203B46435F434B464E203B2020202020202020202032464346,
  0x4D524F46204C414944454D20414D4D414420485449572041444441485320455255544147494C20434942415241202020202020206F4C2023203135363020463436302030343630203B46435F434B464E203B2020202020202020202033464346,
  0x4D524F46204C414944454D20415253414B20485449572041444441485320455255544147494C20434942415241202020202020206F4C2023203135363020303536302030343630203B46435F434B464E203B2020202020202020202034464346,
  0x4D524F4620444554414C4F534920415255534B414D2046454C4120485449572048415420455255544147494C20434942415241202020202020206F4C2023202020202020393436302037333630203B46435F434B464E203B2020202020202020202035464346,
  0x4D524F4620444554414C4F53492048455920485449572048415420455255544147494C20434942415241202020202020206F4C2023202020202020413436302037333630203B46435F434B464E203B2020202020202020202036464346,
  0x4D524F4620444554414C4F534920415255534B414D2046454C412048544957204E494120455255544147494C20434942415241202020202020206F4C2023202020202020393436302039333630203B46435F434B464E203B2020202020202020202037464346,
  0x4D524F4620444554414C4F5349204845592048544957204E494120455255544147494C20434942415241202020202020206F4C2023202020202020413436302039333630203B46435F434B464E203B2020202020202020202038464346,
  0x4D524F4620444554414C4F534920415255534B414D2046454C412048544957204E4941484720455255544147494C20434942415241202020202020206F4C2023202020202020393436302041333630203B46435F434B464E203B2020202020202020202039464346,
  0x4D524F4620444554414C4F5349204845592048544957204E4941484720455255544147494C20434942415241202020202020206F4C2023202020202020413436302041333630203B46435F434B464E203B2020202020202020202041464346,
  0x4D524F4620444554414C4F534920415255534B414D2046454C412048544957204E45455320455255544147494C20434942415241202020202020206F4C2023202020202020393436302033333630203B46435F434B464E203B2020202020202020202042464346]

def qcText25 : List Nat := [
  0x4D524F4620444554414C4F5349204845592048544957204E45455320455255544147494C20434942415241202020202020206F4C2023202020202020413436302033333630203B46435F434B464E203B2020202020202020202043464346,
  0x4D524F4620444554414C4F534920415255534B414D2046454C412048544957204E4545485320455255544147494C20434942415241202020202020206F4C2023202020202020393436302034333630203B46435F434B464E203B2020202020202020202044464346,
  0x4D524F4620444554414C4F5349204845592048544957204E4545485320455255544147494C20434942415241202020202020206F4C2023202020202020413436302034333630203B46435F434B464E203B2020202020202020202045464346,
  0x4D524F4620444554414C4F534920415255534B414D2046454C4120485449572048414820455255544147494C20434942415241202020202020206F4C2023202020202020393436302044323630203B46435F434B464E203B2020202020202020202046464346,
  0x4D524F4620444554414C4F53492048455920485449572048414820455255544147494C20434942415241202020202020206F4C2023202020202020413436302044323630203B46435F434B464E203B2020202020202020202030304446,
  0x4D524F4620444554414C4F534920415255534B414D2046454C412048544957204D45454A20455255544147494C20434942415241202020202020206F4C2023202020202020393436302043323630203B46435F434B464E203B2020202020202020202031304446,
  0x4D524F4620444554414C4F5349204845592048544957204D45454A20455255544147494C20434942415241202020202020206F4C2023202020202020413436302043323630203B46435F434B464E203B2020202020202020202032304446,
  0x4D524F4620444554414C4F534920415255534B414D2046454C412048544957204841484B20455255544147494C20434942415241202020202020206F4C2023202020202020393436302045323630203B46435F434B464E203B2020202020202020202033304446,
  0x4D524F4620444554414C4F5349204845592048544957204841484B20455255544147494C20434942415241202020202020206F4C2023202020202020413436302045323630203B46435F434B464E203B2020202020202020202034304446,
  0x4D524F4620444554414C4F534920415255534B414D2046454C4120485449572044415320455255544147494C20434942415241202020202020206F4C2023202020202020393436302035333630203B46435F434B464E203B2020202020202020202035304446,
  0x4D524F4620444554414C4F53492048455920485449572044415320455255544147494C20434942415241202020202020206F4C2023202020202020413436302035333630203B46435F434B464E203B2020202020202020202036304446,
  0x4D524F4620444554414C4F534920415255534B414D2046454C4120485449572044414420455255544147494C20434942415241202020202020206F4C2023202020202020393436302036333630203B46435F434B464E203B2020202020202020202037304446,
  0x4D524F4620444554414C4F53492048455920485449572044414420455255544147494C20434942415241202020202020206F4C2023202020202020413436302036333630203B46435F434B464E203B2020202020202020202038304446,
  0x4D524F4620444554414C4F5349204D45454A2048544957204E4545485320455255544147494C20434942415241202020202020206F4C2023202020202020433236302034333630203B46435F434B464E203B2020202020202020202039304446,
  0x4D524F4620444554414C4F5349204841482048544957204E4545485320455255544147494C20434942415241202020202020206F4C2023202020202020443236302034333630203B46435F434B464E203B2020202020202020202041304446,
  0x4D524F4620444554414C4F5349204841484B2048544957204E4545485320455255544147494C20434942415241202020202020206F4C2023202020202020453236302034333630203B46435F434B464E203B2020202020202020202042304446,
  0x4D524F4620444554414C4F5349204D45454D2048544957204E4545485320455255544147494C20434942415241202020202020206F4C2023202020202020353436302034333630203B46435F434B464E203B2020202020202020202043304446,
  0x4D524F4620444554414C4F5349204845522048544957204E4545485320455255544147494C20434942415241202020202020206F4C2023202020202020313336302034333630203B46435F434B464E203B2020202020202020202044304446,
  0x4D524F4620444554414C4F5349204845522048544957204E45455320455255544147494C20434942415241202020202020206F4C2023202020202020313336302033333630203B46435F434B464E203B2020202020202020202045304446,
  0x4D524F4620444554414C4F53492048455220485449572044415320455255544147494C20434942415241202020202020206F4C2023202020202020313336302035333630203B46435F434B464E203B2020202020202020202046304446,
  0x4D524F4620444554414C4F53492048455220485449572044414420455255544147494C20434942415241202020202020206F4C2023202020202020313336302036333630203B46435F434B464E203B2020202020202020202030314446,
  0x4D524F46204C414E494620415255534B414D2046454C4120485449572048415420455255544147494C20434942415241202020202020206F4C2023202020202020393436302037333630203B46435F434B464E203B2020202020202020202031314446,
  0x4D524F46204C414E49462048455920485449572048415420455255544147494C20434942415241202020202020206F4C2023202020202020413436302037333630203B46435F434B464E203B2020202020202020202032314446,
  0x4D524F46204C414E494620415255534B414D2046454C412048544957204E494120455255544147494C20434942415241202020202020206F4C2023202020202020393436302039333630203B46435F434B464E203B2020202020202020202033314446,
  0x4D524F46204C414E4946204845592048544957204E494120455255544147494C20434942415241202020202020206F4C2023202020202020413436302039333630203B46435F434B464E203B2020202020202020202034314446,
  0x4D524F46204C414E494620415255534B414D2046454C412048544957204E4941484720455255544147494C20434942415241202020202020206F4C2023202020202020393436302041333630203B46435F434B464E203B2020202020202020202035314446,
  0x4D524F46204C414E4946204845592048544957204E4941484720455255544147494C20434942415241202020202020206F4C2023202020202020413436302041333630203B46435F434B464E203B2020202020202020202036314446,
  0x4D524F46204C414E494620415255534B414D2046454C412048544957204E45455320455255544147494C20434942415241202020202020206F4C2023202020202020393436302033333630203B46435F434B464E203B2020202020202020202037314446,
  0x4D524F46204C414E4946204845592048544957204E45455320455255544147494C20434942415241202020202020206F4C2023202020202020413436302033333630203B46435F434B464E203B2020202020202020202038314446,
  0x4D524F46204C414E494620415255534B414D2046454C412048544957204E4545485320455255544147494C20434942415241202020202020206F4C2023202020202020393436302034333630203B46435F434B464E203B2020202020202020202039314446,
  0x4D524F46204C414E4946204845592048544957204E4545485320455255544147494C20434942415241202020202020206F4C2023202020202020413436302034333630203B46435F434B464E203B2020202020202020202041314446,
  0x4D524F46204C414E494620415255534B414D2046454C4120485449572048414820455255544147494C20434942415241202020202020206F4C2023202020202020393436302044323630203B46435F434B464E203B2020202020202020202042314446,
  0x4D524F46204C414E49462048455920485449572048414820455255544147494C20434942415241202020202020206F4C2023202020202020413436302044323630203B46435F434B464E203B2020202020202020202043314446,
  0x4D524F46204C414E494620415255534B414D2046454C412048544957204D45454A20455255544147494C20434942415241202020202020206F4C2023202020202020393436302043323630203B46435F434B464E203B2020202020202020202044314446,
  0x4D524F46204C414E4946204845592048544957204D45454A20455255544147494C20434942415241202020202020206F4C2023202020202020413436302043323630203B46435F434B464E203B2020202020202020202045314446,
  0x4D524F46204C414E494620415255534B414D2046454C412048544957204841484B20455255544147494C20434942415241202020202020206F4C2023202020202020393436302045323630203B46435F434B464E203B2020202020202020202046314446,
  0x4D524F46204C414E4946204845592048544957204841484B20455255544147494C20434942415241202020202020206F4C2023202020202020413436302045323630203B46435F434B464E203B2020202020202020202030324446,
  0x4D524F46204C414E494620415255534B414D2046454C4120485449572044415320455255544147494C20434942415241202020202020206F4C2023202020202020393436302035333630203B46435F434B464E203B2020202020202020202031324446,
  0x4D524F46204C414E49462048455920485449572044415320455255544147494C20434942415241202020202020206F4C2023202020202020413436302035333630203B46435F434B464E203B2020202020202020202032324446,
  0x4D524F46204C414E494620415255534B414D2046454C4120485449572044414420455255544147494C20434942415241202020202020206F4C2023202020202020393436302036333630203B46435F434B464E203B2020202020202020202033324446,
  0x4D524F46204C414E49462048455920485449572044414420455255544147494C20434942415241202020202020206F4C2023202020202020413436302036333630203B46435F434B464E203B2020202020202020202034324446,
  0x4D524F46204C414E4946204D45454A2048544957204E4545485320455255544147494C20434942415241202020202020206F4C2023202020202020433236302034333630203B46435F434B464E203B2020202020202020202035324446,
  0x4D524F46204C414E4946204841482048544957204E4545485320455255544147494C20434942415241202020202020206F4C2023202020202020443236302034333630203B46435F434B464E203B2020202020202020202036324446,
  0x4D524F46204C414E4946204841484B2048544957204E4545485320455255544147494C20434942415241202020202020206F4C2023202020202020453236302034333630203B46435F434B464E203B2020202020202020202037324446,
  0x4D524F46204C414E4946204D45454D2048544957204E4545485320455255544147494C20434942415241202020202020206F4C2023202020202020353436302034333630203B46435F434B464E203B2020202020202020202038324446,
  0x4D524F46204C414E4946204845522048544957204E4545485320455255544147494C20434942415241202020202020206F4C2023202020202020313336302034333630203B46435F434B464E203B2020202020202020202039324446,
  0x4D524F46204C414E4946204845522048544957204E45455320455255544147494C20434942415241202020202020206F4C2023202020202020313336302033333630203B46435F434B464E203B2020202020202020202041324446,
  0x4D524F46204C414E49462048455220485449572044415320455255544147494C20434942415241202020202020206F4C2023202020202020313336302035333630203B46435F434B464E203B2020202020202020202042324446,
  0x4D524F46204C414E49462048455220485449572044414420455255544147494C20434942415241202020202020206F4C2023202020202020313336302036333630203B46435F434B464E203B2020202020202020202043324446,
  0x4D524F46204C414954494E49204D45454A2048544957204E4545485320455255544147494C20434942415241202020202020206F4C2023202020202020433236302034333630203B46435F434B464E203B2020202020202020202044324446,
  0x4D524F46204C414954494E49204841482048544957204E4545485320455255544147494C20434942415241202020202020206F4C2023202020202020443236302034333630203B46435F434B464E203B2020202020202020202045324446,
  0x4D524F46204C414954494E49204841484B2048544957204E4545485320455255544147494C20434942415241202020202020206F4C2023202020202020453236302034333630203B46435F434B464E203B2020202020202020202046324446,
  0x4D524F46204C414954494E49204D45454D2048544957204E4545485320455255544147494C20434942415241202020202020206F4C2023202020202020353436302034333630203B46435F434B464E203B2020202020202020202030334446,
  0x4D524F46204C414954494E49204845482048544957204E45455320455255544147494C20434942415241202020202020206F4C2023202020202020373436302033333630203B46435F434B464E203B2020202020202020202031334446,
  0x4D524F46204C414954494E49204845482048544957204E4545485320455255544147494C20434942415241202020202020206F4C2023202020202020373436302034333630203B46435F434B464E203B2020202020202020202032334446,
  0x4D524F46204C414954494E49204D45454D20485449572048415420455255544147494C20434942415241202020202020206F4C2023202020202020353436302037333630203B46435F434B464E203B2020202020202020202033334446,
  0x4D524F46204C414944454D204D45454A2048544957204E45455320455255544147494C20434942415241202020202020206F4C2023202020202020433236302033333630203B46435F434B464E203B2020202020202020202034334446,
  0x4D524F46204C414944454D204841482048544957204E45455320455255544147494C20434942415241202020202020206F4C2023202020202020443236302033333630203B46435F434B464E203B2020202020202020202035334446,
  0x4D524F46204C414944454D204841484B2048544957204E45455320455255544147494C20434942415241202020202020206F4C2023202020202020453236302033333630203B46435F434B464E203B2020202020202020202036334446,
  0x4D524F46204C414944454D204D45454A2048544957204E4545485320455255544147494C20434942415241202020202020206F4C2023202020202020433236302034333630203B46435F434B464E203B2020202020202020202037334446,
  0x4D524F46204C414944454D204841482048544957204E4545485320455255544147494C20434942415241202020202020206F4C2023202020202020443236302034333630203B46435F434B464E203B2020202020202020202038334446,
  0x4D524F46204C414944454D204841484B2048544957204E4545485320455255544147494C20434942415241202020202020206F4C2023202020202020453236302034333630203B46435F434B464E203B2020202020202020202039334446,
  0x4D524F46204C414944454D204D45454D20485449572048415420455255544147494C20434942415241202020202020206F4C2023202020202020353436302037333630203B46435F434B464E203B2020202020202020202041334446,
  0x4D524F46204C414944454D204D45454D20485449572048415A20455255544147494C20434942415241202020202020206F4C2023202020202020353436302038333630203B46435F434B464E203B2020202020202020202042334446,
  0x4D524F4620444554414C4F5349204E4154414854414620485449572046454C4120455255544147494C204349424152412E2E4D524F46204C414E4946204E4154414854414620485449572046454C4120455255544147494C20434942415241205D325B2020206F4C2023202020202020423436302037323630203B46435F434B464E203B20202020443344462E2E43334446,
  0x4D524F46204C414954494E49204D45454D2048544957204D45454A20485449572048455420455255544147494C20434942415241202020202020206F4C2023203534363020433236302041323630203B46435F434B464E203B2020202020202020202030354446,
  0x4D524F46204C414954494E49204D45454A20485449572048414820485449572048455420455255544147494C204349424152412E2E4D524F46204C414E4946204D45454A20485449572048414820485449572048455420455255544147494C20434942415241205D325B2020206F4C2023204332363020443236302041323630203B46435F434B464E203B20202020323544462E2E31354446,
  0x4D524F46204C414954494E49204D45454D20485449572048414820485449572048455420455255544147494C20434942415241202020202020206F4C2023203534363020443236302041323630203B46435F434B464E203B2020202020202020202033354446,
  0x4D524F46204C414954494E49204D45454D2048544957204841484B20485449572048455420455255544147494C20434942415241202020202020206F4C2023203534363020453236302041323630203B46435F434B464E203B2020202020202020202034354446,
  0x4D524F46204C414954494E49204D45454A2048544957204D45454D20485449572048455420455255544147494C20434942415241202020202020206F4C2023204332363020353436302041323630203B46435F434B464E203B2020202020202020202035354446,
  0x4D524F46204C414954494E49204841482048544957204D45454D20485449572048455420455255544147494C20434942415241202020202020206F4C2023204432363020353436302041323630203B46435F434B464E203B2020202020202020202036354446,
  0x4D524F46204C414954494E49204841484B2048544957204D45454D20485449572048455420455255544147494C20434942415241202020202020206F4C2023204532363020353436302041323630203B46435F434B464E203B2020202020202020202037354446,
  0x4D524F46204C414954494E49204841482048544957204D45454D2048544957204D45454A20455255544147494C204349424152412E2E4D524F46204C414E4946204841482048544957204D45454D2048544957204D45454A20455255544147494C20434942415241205D325B2020206F4C2023204432363020353436302043323630203B46435F434B464E203B20202020393544462E2E38354446,
  0x4D524F46204C414E4946204845592048544957204D45454D20485449572048414820455255544147494C20434942415241202020202020206F4C2023204134363020353436302044323630203B46435F434B464E203B2020202020202020202041354446,
  0x4D524F46204C414E494620415255534B414D2046454C412048544957204D45454D20485449572048414820455255544147494C20434942415241202020202020206F4C2023203934363020353436302044323630203B46435F434B464E203B2020202020202020202042354446,
  0x4D524F46204C414954494E49204D45454A2048544957204841482048544957204E45455320455255544147494C20434942415241202020202020206F4C2023204332363020443236302033333630203B46435F434B464E203B2020202020202020202043354446,
  0x4D524F46204C414954494E49204841482048544957204D45454A2048544957204E45455320455255544147494C20434942415241202020202020206F4C2023204432363020433236302033333630203B46435F434B464E203B2020202020202020202044354446,
  0x4D524F46204C414E494620415255534B414D2046454C412048544957204D45454A2048544957204E45455320455255544147494C20434942415241202020202020206F4C2023203934363020433236302033333630203B46435F434B464E203B2020202020202020202045354446,
  0x4D524F46204C414954494E49204841482048544957204D45454D2048544957204E45455320455255544147494C204349424152412E2E4D524F46204C414E4946204841482048544957204D45454D2048544957204E45455320455255544147494C20434942415241205D325B2020206F4C2023204432363020353436302033333630203B46435F434B464E203B20202020303644462E2E46354446,
  0x4D524F46204C414954494E49204D45454A2048544957204D45454D2048544957204E45455320455255544147494C20434942415241202020202020206F4C2023204332363020353436302033333630203B46435F434B464E203B2020202020202020202031364446,
  0x4D524F46204C414954494E49204D45454D2048544957204D45454D2048544957204E45455320455255544147494C204349424152412E2E4D524F46204C414E4946204D45454D2048544957204D45454D2048544957204E45455320455255544147494C20434942415241205D325B2020206F4C2023203534363020353436302033333630203B46435F434B464E203B20202020333644462E2E32364446,
  0x4D524F46204C414954494E492048414820485449572048414820485449572044415320455255544147494C204349424152412E2E4D524F46204C414E49462048414820485449572048414820485449572044415320455255544147494C20434942415241205D325B2020206F4C2023204432363020443236302035333630203B46435F434B464E203B20202020353644462E2E34364446,
  0x4D524F46204C414E4946204D45454D2048544957204D45454D20485449572044415320455255544147494C20434942415241202020202020206F4C2023203534363020353436302035333630203B46435F434B464E203B2020202020202020202036364446,
  0x4D524F46204C414954494E49204D45454D2048544957204841482048544957204E4545485320455255544147494C204349424152412E2E4D524F46204C414E4946204D45454D2048544957204841482048544957204E4545485320455255544147494C20434942415241205D325B2020206F4C2023203534363020443236302034333630203B46435F434B464E203B20202020383644462E2E37364446,
  0x4D524F46204C414E4946204845592048544957204D45454A2048544957204E4545485320455255544147494C20434942415241202020202020206F4C2023204134363020433236302034333630203B46435F434B464E203B2020202020202020202039364446,
  0x4D524F46204C414954494E49204841484B2048544957204D45454D2048544957204E4545485320455255544147494C204349424152412E2E4D524F46204C414E4946204841484B2048544957204D45454D2048544957204E4545485320455255544147494C20434942415241205D325B2020206F4C2023204532363020353436302034333630203B46435F434B464E203B20202020423644462E2E41364446,
  0x4D524F46204C414954494E49204D45454D2048544957204D45454D2048544957204E4545485320455255544147494C204349424152412E2E4D524F46204C414E4946204D45454D2048544957204D45454D2048544957204E4545485320455255544147494C20434942415241205D325B2020206F4C2023203534363020353436302034333630203B46435F434B464E203B20202020443644462E2E43364446,
  0x4D524F46204C414E494620415255534B414D2046454C4120485449572048414820485449572044414420455255544147494C20434942415241202020202020206F4C2023203934363020443236302036333630203B46435F434B464E203B2020202020202020202045364446,
  0x4D524F46204C414954494E49204D45454D2048544957204841484B20485449572044414420455255544147494C204349424152412E2E4D524F46204C414E4946204D45454D2048544957204841484B20485449572044414420455255544147494C20434942415241205D325B2020206F4C2023203534363020453236302036333630203B46435F434B464E203B20202020303744462E2E46364446,
  0x4D524F46204C414954494E49204841482048544957204D45454D20485449572048415420455255544147494C204349424152412E2E4D524F46204C414E4946204841482048544957204D45454D20485449572048415420455255544147494C20434942415241205D325B2020206F4C2023204432363020353436302037333630203B46435F434B464E203B20202020323744462E2E31374446,
  0x4D524F46204C414954494E49204D45454D2048544957204D45454D20485449572048415420455255544147494C20434942415241202020202020206F4C2023203534363020353436302037333630203B46435F434B464E203B2020202020202020202033374446,
  0x4D524F46204C414E4946204845592048544957204D45454D20485449572048415420455255544147494C20434942415241202020202020206F4C2023204134363020353436302037333630203B46435F434B464E203B2020202020202020202034374446,
  0x4D524F46204C414E4946204D45454D2048544957204D45454A2048544957204E494120455255544147494C20434942415241202020202020206F4C2023203534363020433236302039333630203B46435F434B464E203B2020202020202020202035374446,
  0x4D524F46204C414954494E49204D45454D2048544957204D45454D2048544957204E494120455255544147494C204349424152412E2E4D524F46204C414E4946204D45454D2048544957204D45454D2048544957204E494120455255544147494C20434942415241205D325B2020206F4C2023203534363020353436302039333630203B46435F434B464E203B20202020373744462E2E36374446,
  0x4D524F46204C414E494620415255534B414D2046454C412048544957204D45454D2048544957204E494120455255544147494C20434942415241202020202020206F4C2023203934363020353436302039333630203B46435F434B464E203B2020202020202020202038374446,
  0x4D524F46204C414E4946204D45454D2048544957204D45454D2048544957204E4941484720455255544147494C20434942415241202020202020206F4C2023203534363020353436302041333630203B46435F434B464E203B2020202020202020202039374446,
  0x4D524F46204C414E4946204845592048544957204D45454D2048544957204E4941484720455255544147494C20434942415241202020202020206F4C2023204134363020353436302041333630203B46435F434B464E203B2020202020202020202041374446,
  0x4D524F46204C414E494620415255534B414D2046454C412048544957204D45454D2048544957204E4941484720455255544147494C20434942415241202020202020206F4C2023203934363020353436302041333630203B46435F434B464E203B2020202020202020202042374446,
  0x4D524F46204C414954494E49204D45454D2048544957204841484B20485449572048454620455255544147494C204349424152412E2E4D524F46204C414E4946204D45454D2048544957204841484B20485449572048454620455255544147494C20434942415241205D325B2020206F4C2023203534363020453236302031343630203B46435F434B464E203B20202020443744462E2E43374446,
  0x4D524F46204C414E4946204841482048544957204D45454D20485449572046415120455255544147494C20434942415241202020202020206F4C2023204432363020353436302032343630203B46435F434B464E203B2020202020202020202045374446,
  0x4D524F46204C414E4946204D45454D2048544957204D45454D20485449572046415120455255544147494C20434942415241202020202020206F4C2023203534363020353436302032343630203B46435F434B464E203B2020202020202020202046374446,
  0x4D524F46204C414E4946204D45454D2048544957204841482048544957204D414C20455255544147494C20434942415241202020202020206F4C2023203534363020443236302034343630203B46435F434B464E203B2020202020202020202030384446,
  0x4D524F46204C414E4946204845592048544957204841482048544957204D414C20455255544147494C20434942415241202020202020206F4C2023204134363020443236302034343630203B46435F434B464E203B2020202020202020202031384446,
  0x4D524F46204C414E494620415255534B414D2046454C412048544957204841482048544957204D414C20455255544147494C20434942415241202020202020206F4C2023203934363020443236302034343630203B46435F434B464E203B2020202020202020202032384446,
  0x4D524F46204C414E4946204D45454A2048544957204D45454A2048544957204D414C20455255544147494C204349424152412E2E4D524F46204C414954494E49204D45454A2048544957204D45454A2048544957204D414C20455255544147494C20434942415241205D325B2020206F4C2023204332363020433236302034343630203B46435F434B464E203B20202020343844462E2E33384446,
  0x4D524F46204C414954494E49204D45454D2048544957204841484B2048544957204D414C20455255544147494C204349424152412E2E4D524F46204C414E4946204D45454D2048544957204841484B2048544957204D414C20455255544147494C20434942415241205D325B2020206F4C2023203534363020453236302034343630203B46435F434B464E203B20202020363844462E2E35384446,
  0x4D524F46204C414954494E49204841482048544957204D45454D2048544957204D414C20455255544147494C204349424152412E2E4D524F46204C414E4946204841482048544957204D45454D2048544957204D414C20455255544147494C20434942415241205D325B2020206F4C2023204432363020353436302034343630203B46435F434B464E203B20202020383844462E2E37384446,
  0x4D524F46204C414954494E49204D45454A2048544957204841482048544957204D45454D20455255544147494C20434942415241202020202020206F4C2023204332363020443236302035343630203B46435F434B464E203B2020202020202020202039384446,
  0x4D524F46204C414954494E49204D45454D2048544957204841482048544957204D45454D20455255544147494C20434942415241202020202020206F4C2023203534363020443236302035343630203B46435F434B464E203B2020202020202020202041384446,
  0x4D524F46204C414E4946204845592048544957204841482048544957204D45454D20455255544147494C20434942415241202020202020206F4C2023204134363020443236302035343630203B46435F434B464E203B2020202020202020202042384446,
  0x4D524F46204C414954494E49204841482048544957204D45454A2048544957204D45454D20455255544147494C20434942415241202020202020206F4C2023204432363020433236302035343630203B46435F434B464E203B2020202020202020202043384446,
  0x4D524F46204C414954494E49204D45454D2048544957204D45454A2048544957204D45454D20455255544147494C20434942415241202020202020206F4C2023203534363020433236302035343630203B46435F434B464E203B2020202020202020202044384446,
  0x4D524F46204C414954494E49204D45454A2048544957204841484B2048544957204D45454D20455255544147494C20434942415241202020202020206F4C2023204332363020453236302035343630203B46435F434B464E203B2020202020202020202045384446,
  0x4D524F46204C414954494E49204D45454D2048544957204841484B2048544957204D45454D20455255544147494C20434942415241202020202020206F4C2023203534363020453236302035343630203B46435F434B464E203B2020202020202020202046384446,
  0x4D524F46204C414954494E49204841484B2048544957204D45454A2048544957204D45454D20455255544147494C20434942415241202020202020206F4C2023204532363020433236302035343630203B46435F434B464E203B2020202020202020202032394446,
  0x4D524F46204C414954494E49204D45454A2048544957204D45454D20485449572048454820455255544147494C20434942415241202020202020206F4C2023204332363020353436302037343630203B46435F434B464E203B2020202020202020202033394446,
  0x4D524F46204C414954494E49204D45454D2048544957204D45454D20485449572048454820455255544147494C20434942415241202020202020206F4C2023203534363020353436302037343630203B46435F434B464E203B2020202020202020202034394446,
  0x4D524F46204C414954494E49204D45454D2048544957204841482048544957204E4F4F4E20455255544147494C20434942415241202020202020206F4C2023203534363020443236302036343630203B46435F434B464E203B2020202020202020202035394446,
  0x4D524F46204C414E494620415255534B414D2046454C412048544957204841482048544957204E4F4F4E20455255544147494C20434942415241202020202020206F4C2023203934363020443236302036343630203B46435F434B464E203B2020202020202020202036394446,
  0x4D524F46204C414954494E49204D45454D2048544957204D45454A2048544957204E4F4F4E20455255544147494C204349424152412E2E4D524F46204C414E4946204D45454D2048544957204D45454A2048544957204E4F4F4E20455255544147494C20434942415241205D325B2020206F4C2023203534363020433236302036343630203B46435F434B464E203B20202020383944462E2E37394446,
  0x4D524F46204C414E494620415255534B414D2046454C412048544957204D45454A2048544957204E4F4F4E20455255544147494C20434942415241202020202020206F4C2023203934363020433236302036343630203B46435F434B464E203B2020202020202020202039394446,
  0x4D524F46204C414E4946204845592048544957204D45454D2048544957204E4F4F4E20455255544147494C20434942415241202020202020206F4C2023204134363020353436302036343630203B46435F434B464E203B2020202020202020202041394446,
  0x4D524F46204C414E494620415255534B414D2046454C412048544957204D45454D2048544957204E4F4F4E20455255544147494C20434942415241202020202020206F4C2023203934363020353436302036343630203B46435F434B464E203B2020202020202020202042394446,
  0x4D524F46204C414954494E49204D45454D2048544957204D45454D20485449572048455920455255544147494C204349424152412E2E4D524F46204C414E4946204D45454D2048544957204D45454D20485449572048455920455255544147494C20434942415241205D325B2020206F4C2023203534363020353436302041343630203B46435F434B464E203B20202020443944462E2E43394446,
  0x4D524F46204C414E4946204845592048544957204841484B20485449572048454220455255544147494C20434942415241202020202020206F4C2023204134363020453236302038323630203B46435F434B464E203B2020202020202020202045394446,
  0x4D524F46204C414E4946204845592048544957204D45454A20485449572048455420455255544147494C20434942415241202020202020206F4C2023204134363020433236302041323630203B46435F434B464E203B2020202020202020202046394446,
  0x4D524F46204C414E494620415255534B414D2046454C412048544957204D45454A20485449572048455420455255544147494C20434942415241202020202020206F4C2023203934363020433236302041323630203B46435F434B464E203B2020202020202020202030414446,
  0x4D524F46204C414E4946204845592048544957204841484B20485449572048455420455255544147494C20434942415241202020202020206F4C2023204134363020453236302041323630203B46435F434B464E203B2020202020202020202031414446,
  0x4D524F46204C414E494620415255534B414D2046454C412048544957204841484B20485449572048455420455255544147494C20434942415241202020202020206F4C2023203934363020453236302041323630203B46435F434B464E203B2020202020202020202032414446,
  0x4D524F46204C414E4946204845592048544957204D45454D20485449572048455420455255544147494C20434942415241202020202020206F4C2023204134363020353436302041323630203B46435F434B464E203B2020202020202020202033414446,
  0x4D524F46204C414E494620415255534B414D2046454C412048544957204D45454D20485449572048455420455255544147494C20434942415241202020202020206F4C2023203934363020353436302041323630203B46435F434B464E203B2020202020202020202034414446,
  0x4D524F46204C414E4946204845592048544957204D45454D2048544957204D45454A20455255544147494C20434942415241202020202020206F4C2023204134363020353436302043323630203B46435F434B464E203B2020202020202020202035414446,
  0x4D524F46204C414E494620415255534B414D2046454C412048544957204841482048544957204D45454A20455255544147494C20434942415241202020202020206F4C2023203934363020443236302043323630203B46435F434B464E203B2020202020202020202036414446,
  0x4D524F46204C414E494620415255534B414D2046454C412048544957204D45454D2048544957204D45454A20455255544147494C20434942415241202020202020206F4C2023203934363020353436302043323630203B46435F434B464E203B2020202020202020202037414446,
  0x4D524F46204C414E494620415255534B414D2046454C412048544957204841484B2048544957204E45455320455255544147494C20434942415241202020202020206F4C2023203934363020453236302033333630203B46435F434B464E203B2020202020202020202038414446,
  0x4D524F46204C414E49462048455920485449572048414820485449572044415320455255544147494C20434942415241202020202020206F4C2023204134363020443236302035333630203B46435F434B464E203B2020202020202020202039414446,
  0x4D524F46204C414E4946204845592048544957204841482048544957204E4545485320455255544147494C20434942415241202020202020206F4C2023204134363020443236302034333630203B46435F434B464E203B2020202020202020202041414446,
  0x4D524F46204C414E49462048455920485449572048414820485449572044414420455255544147494C20434942415241202020202020206F4C2023204134363020443236302036333630203B46435F434B464E203B2020202020202020202042414446,
  0x4D524F46204C414E4946204845592048544957204D45454A2048544957204D414C20455255544147494C20434942415241202020202020206F4C2023204134363020433236302034343630203B46435F434B464E203B2020202020202020202043414446,
  0x4D524F46204C414E4946204845592048544957204D45454D2048544957204D414C20455255544147494C20434942415241202020202020206F4C2023204134363020353436302034343630203B46435F434B464E203B2020202020202020202044414446,
  0x4D524F46204C414E49462048455920485449572048414820485449572048455920455255544147494C20434942415241202020202020206F4C2023204134363020443236302041343630203B46435F434B464E203B2020202020202020202045414446,
  0x4D524F46204C414E4946204845592048544957204D45454A20485449572048455920455255544147494C20434942415241202020202020206F4C2023204134363020433236302041343630203B46435F434B464E203B2020202020202020202046414446,
  0x4D524F46204C414E4946204845592048544957204D45454D20485449572048455920455255544147494C20434942415241202020202020206F4C2023204134363020353436302041343630203B46435F434B464E203B2020202020202020202030424446,
  0x4D524F46204C414E4946204845592048544957204D45454D2048544957204D45454D20455255544147494C20434942415241202020202020206F4C2023204134363020353436302035343630203B46435F434B464E203B2020202020202020202031424446,
  0x4D524F46204C414E4946204845592048544957204D45454D20485449572046415120455255544147494C20434942415241202020202020206F4C2023204134363020353436302032343630203B46435F434B464E203B2020202020202020202032424446,
  0x4D524F46204C414E4946204845592048544957204841482048544957204E4F4F4E20455255544147494C20434942415241202020202020206F4C2023204134363020443236302036343630203B46435F434B464E203B2020202020202020202033424446,
  0x4D524F46204C414954494E49204841482048544957204D45454D20485449572046415120455255544147494C20434942415241202020202020206F4C2023204432363020353436302032343630203B46435F434B464E203B2020202020202020202034424446,
  0x4D524F46204C414954494E49204D45454D2048544957204841482048544957204D414C20455255544147494C20434942415241202020202020206F4C2023203534363020443236302034343630203B46435F434B464E203B2020202020202020202035424446,
  0x4D524F46204C414E4946204845592048544957204D45454D2048544957204E494120455255544147494C20434942415241202020202020206F4C2023204134363020353436302039333630203B46435F434B464E203B2020202020202020202036424446,
  0x4D524F46204C414E4946204845592048544957204D45454D20485449572046414B20455255544147494C20434942415241202020202020206F4C2023204134363020353436302033343630203B46435F434B464E203B2020202020202020202037424446,
  0x4D524F46204C414954494E49204841482048544957204D45454A2048544957204E4F4F4E20455255544147494C20434942415241202020202020206F4C2023204432363020433236302036343630203B46435F434B464E203B2020202020202020202038424446,
  0x4D524F46204C414E4946204845592048544957204841484B2048544957204D45454D20455255544147494C20434942415241202020202020206F4C2023204134363020453236302035343630203B46435F434B464E203B2020202020202020202039424446,
  0x4D524F46204C414954494E49204D45454D2048544957204D45454A2048544957204D414C20455255544147494C20434942415241202020202020206F4C2023203534363020433236302034343630203B46435F434B464E203B2020202020202020202041424446,
  0x4D524F46204C414E4946204D45454D2048544957204D45454D20485449572046414B20455255544147494C20434942415241202020202020206F4C2023203534363020353436302033343630203B46435F434B464E203B2020202020202020202042424446,
  0x4D524F46204C414E4946204D45454D2048544957204D45454A2048544957204D414C20455255544147494C20434942415241202020202020206F4C2023203534363020433236302034343630203B46435F434B464E203B2020202020202020202043424446,
  0x4D524F46204C414E4946204841482048544957204D45454A2048544957204E4F4F4E20455255544147494C20434942415241202020202020206F4C2023204432363020433236302036343630203B46435F434B464E203B2020202020202020202044424446,
  0x4D524F46204C414E4946204845592048544957204841482048544957204D45454A20455255544147494C20434942415241202020202020206F4C2023204134363020443236302043323630203B46435F434B464E203B2020202020202020202045424446,
  0x4D524F46204C414E4946204845592048544957204D45454A20485449572048414820455255544147494C20434942415241202020202020206F4C2023204134363020433236302044323630203B46435F434B464E203B2020202020202020202046424446,
  0x4D524F46204C414E4946204845592048544957204D45454A2048544957204D45454D20455255544147494C20434942415241202020202020206F4C2023204134363020433236302035343630203B46435F434B464E203B2020202020202020202030434446,
  0x4D524F46204C414E4946204845592048544957204D45454D20485449572048454620455255544147494C20434942415241202020202020206F4C2023204134363020353436302031343630203B46435F434B464E203B2020202020202020202031434446,
  0x4D524F46204C414E49462048455920485449572048414820485449572048454220455255544147494C20434942415241202020202020206F4C2023204134363020443236302038323630203B46435F434B464E203B2020202020202020202032434446,
  0x4D524F46204C414954494E49204D45454D2048544957204D45454D20485449572046414B20455255544147494C20434942415241202020202020206F4C2023203534363020353436302033343630203B46435F434B464E203B2020202020202020202033434446,
  0x4D524F46204C414954494E49204D45454D2048544957204D45454A2048544957204E494120455255544147494C20434942415241202020202020206F4C2023203534363020433236302039333630203B46435F434B464E203B2020202020202020202034434446,
  0x4D524F46204C414954494E49204D45454D2048544957204D45454D20485449572044415320455255544147494C20434942415241202020202020206F4C2023203534363020353436302035333630203B46435F434B464E203B2020202020202020202035434446,
  0x4D524F46204C414E4946204845592048544957204841484B2048544957204E45455320455255544147494C20434942415241202020202020206F4C2023204134363020453236302033333630203B46435F434B464E203B2020202020202020202036434446,
  0x4D524F46204C414E4946204845592048544957204D45454A2048544957204E4F4F4E20455255544147494C20434942415241202020202020206F4C2023204134363020433236302036343630203B46435F434B464E203B2020202020202020202037434446,
  0x4D524F4620444554414C4F5349204E47495320504F54532043494E41524F4B205341204445535520414C4C415320455255544147494C20434942415241202020202020206F4C2023203244363020343436302035333630203B46435F434B464E203B2020202020202020202030464446,
  0x4D524F4620444554414C4F5349204E47495320504F54532043494E41524F4B205341204445535520414C415120455255544147494C20434942415241202020202020206F4C2023203244363020343436302032343630203B46435F434B464E203B2020202020202020202031464446,
  0x4D524F4620444554414C4F53492048414C4C4120455255544147494C204349424152412020206F4C232037343630203434363020343436302037323630203B46435F434B464E203B2020202020202020202032464446,
  0x4D524F4620444554414C4F5349205241424B4120455255544147494C204349424152412020206F4C232031333630203832363020333436302037323630203B46435F434B464E203B2020202020202020202033464446,
  0x4D524F4620444554414C4F53492044414D4D41484F4D20455255544147494C204349424152412020206F4C232046323630203534363020443236302035343630203B46435F434B464E203B2020202020202020202034464446,
  0x4D524F4620444554414C4F5349204D414C415320455255544147494C204349424152412020206F4C232035343630203933363020343436302035333630203B46435F434B464E203B2020202020202020202035464446,
  0x4D524F4620444554414C4F5349204C554F53415220455255544147494C204349424152412020206F4C232034343630203834363020333336302031333630203B46435F434B464E203B2020202020202020202036464446,
  0x4D524F4620444554414C4F534920454859414C4120455255544147494C204349424152412020206F4C232037343630204134363020343436302039333630203B46435F434B464E203B2020202020202020202037464446,
  0x4D524F4620444554414C4F5349204D414C4C4153415720455255544147494C204349424152412020206F4C232035343630203434363020333336302038343630203B46435F434B464E203B2020202020202020202038464446,
  0x4D524F4620444554414C4F534920414C4C415320455255544147494C20434942415241202020202020206F4C2023203934363020343436302035333630203B46435F434B464E203B2020202020202020202039464446,
  0x4D414C4C4153415720454859414C4120554F48414C4C414C4C415320455255544147494C20434942415241206F4C23203534363020343436302033333630203834363020303230302037343630204134363020343436302039333630203032303020373436302034343630203434363020373236302030323030203934363020343436302035333630203B46435F434B464E203B2020202020202020202041464446,
  0x554F48554F4C414C414A414C4C414A20455255544147494C20434942415241206F4C2320373436302034343630203732363020343436302043323630203032303020343436302043323630203B46435F434B464E203B2020202020202020202042464446,
  0x4E474953204C4149522020206353232034343630203732363020434336302031333630203B46435F434B464E203B2020202020202020202043464446,
  0x36312D524F5443454C4553204E4F495441495241562E2E312D524F5443454C4553204E4F49544149524156205D36315B20206E4D2023202020202020202020202020202020203B46435F434B464E203B20202020463045462E2E30304546,
  0x414D4D4F43204C4143495452455620524F46204D524F46204E4F495441544E4553455250202020202020206F502023202020202020202020202043323030203B46435F434B464E203B2020202020202020202030314546,
  0x414D4D4F4320434948504152474F454449204C4143495452455620524F46204D524F46204E4F495441544E4553455250202020202020206F502023202020202020202020202031303033203B46435F434B464E203B2020202020202020202031314546,
  0x504F5453204C4C554620434948504152474F454449204C4143495452455620524F46204D524F46204E4F495441544E4553455250202020202020206F502023202020202020202020202032303033203B46435F434B464E203B2020202020202020202032314546,
  0x4E4F4C4F43204C4143495452455620524F46204D524F46204E4F495441544E4553455250202020202020206F502023202020202020202020202041333030203B46435F434B464E203B2020202020202020202033314546,
  0x4E4F4C4F43494D4553204C4143495452455620524F46204D524F46204E4F495441544E4553455250202020202020206F502023202020202020202020202042333030203B46435F434B464E203B2020202020202020202034314546,
  0x4B52414D204E4F4954414D414C435845204C4143495452455620524F46204D524F46204E4F495441544E4553455250202020202020206F502023202020202020202020202031323030203B46435F434B464E203B2020202020202020202035314546,
  0x4B52414D204E4F495453455551204C4143495452455620524F46204D524F46204E4F495441544E4553455250202020202020206F502023202020202020202020202046333030203B46435F434B464E203B2020202020202020202036314546,
  0x54454B434152422052414C554349544E454C204554494857205446454C204C4143495452455620524F46204D524F46204E4F495441544E45534552502020202020202073502023202020202020202020202036313033203B46435F434B464E203B2020202020202020202037314546,
  0x5445434B4152422052414C554349544E454C204554494857205448474952204C4143495452455620524F46204D524F46204E4F495441544E45534552502020202020202065502023202020202020202020202037313033203B46435F434B464E203B2020202020202020202038314546,
  0x53495350494C4C45204C41544E4F5A49524F48204C4143495452455620524F46204D524F46204E4F495441544E4553455250202020202020206F502023204532303020453230302045323030203B46435F434B464E203B2020202020202020202039314546,
  0x52454441454C20544F44204F5754204C4143495452455620524F46204D524F46204E4F495441544E4553455250202020202020206F502023202020202020453230302045323030203B46435F434B464E203B2020202020202020202030334546,
  0x48534144204D45204C4143495452455620524F46204D524F46204E4F495441544E45534552502020202020202064502023202020202020202020202034313032203B46435F434B464E203B2020202020202020202031334546,
  0x48534144204E45204C4143495452455620524F46204D524F46204E4F495441544E45534552502020202020202064502023202020202020202020202033313032203B46435F434B464E203B2020202020202020202032334546,
  0x454E494C20574F4C2059564157204C4143495452455620524F46204D524F46204E4F495441544E45534552502E2E454E494C20574F4C204C4143495452455620524F46204D524F46204E4F495441544E4553455250205D325B20202063502023202020202020202020202046353030203B46435F434B464E203B20202020343345462E2E33334546,
  0x5349534548544E45524150205446454C204C4143495452455620524F46204D524F46204E4F495441544E45534552502020202020202073502023202020202020202020202038323030203B46435F434B464E203B2020202020202020202035334546,
  0x5349534548544E45524150205448474952204C4143495452455620524F46204D524F46204E4F495441544E45534552502020202020202065502023202020202020202020202039323030203B46435F434B464E203B2020202020202020202036334546,
  0x54454B4341524220594C525543205446454C204C4143495452455620524F46204D524F46204E4F495441544E45534552502020202020202073502023202020202020202020202042373030203B46435F434B464E203B2020202020202020202037334546,
  0x54454B4341524220594C525543205448474952204C4143495452455620524F46204D524F46204E4F495441544E45534552502020202020202065502023202020202020202020202044373030203B46435F434B464E203B2020202020202020202038334546,
  0x54454B43415242204C4C454853204553494F54524F54205446454C204C4143495452455620524F46204D524F46204E4F495441544E45534552502020202020202073502023202020202020202020202034313033203B46435F434B464E203B2020202020202020202039334546,
  0x54454B43415242204C4C454853204553494F54524F54205448474952204C4143495452455620524F46204D524F46204E4F495441544E45534552502020202020202065502023202020202020202020202035313033203B46435F434B464E203B2020202020202020202041334546,
  0x54454B434152422052414C554349544E454C204B43414C42205446454C204C4143495452455620524F46204D524F46204E4F495441544E45534552502020202020202073502023202020202020202020202030313033203B46435F434B464E203B2020202020202020202042334546,
  0x54454B434152422052414C554349544E454C204B43414C42205448474952204C4143495452455620524F46204D524F46204E4F495441544E45534552502020202020202065502023202020202020202020202031313033203B46435F434B464E203B2020202020202020202043334546,
  0x54454B4341524220454C474E4120454C42554F44205446454C204C4143495452455620524F46204D524F46204E4F495441544E45534552502020202020202073502023202020202020202020202041303033203B46435F434B464E203B2020202020202020202044334546,
  0x54454B4341524220454C474E4120454C42554F44205448474952204C4143495452455620524F46204D524F46204E4F495441544E45534552502020202020202065502023202020202020202020202042303033203B46435F434B464E203B2020202020202020202045334546,
  0x54454B4341524220454C474E41205446454C204C4143495452455620524F46204D524F46204E4F495441544E45534552502020202020202073502023202020202020202020202038303033203B46435F434B464E203B2020202020202020202046334546,
  0x54454B4341524220454C474E41205448474952204C4143495452455620524F46204D524F46204E4F495441544E45534552502020202020202065502023202020202020202020202039303033203B46435F434B464E203B2020202020202020202030344546,
  0x54454B434152422052454E524F43205446454C204C4143495452455620524F46204D524F46204E4F495441544E45534552502020202020202073502023202020202020202020202043303033203B46435F434B464E203B2020202020202020202031344546,
  0x54454B434152422052454E524F43205448474952204C4143495452455620524F46204D524F46204E4F495441544E45534552502020202020202065502023202020202020202020202044303033203B46435F434B464E203B2020202020202020202032344546,
  0x54454B434152422052454E524F43204554494857205446454C204C4143495452455620524F46204D524F46204E4F495441544E45534552502020202020202073502023202020202020202020202045303033203B46435F434B464E203B2020202020202020202033344546,
  0x54454B434152422052454E524F43204554494857205448474952204C4143495452455620524F46204D524F46204E4F495441544E45534552502020202020202065502023202020202020202020202046303033203B46435F434B464E203B2020202020202020202034344546,
  0x54454B4341524220455241555153205446454C204C4143495452455620524F46204D524F46204E4F495441544E45534552502020202020202073502023202020202020202020202042353030203B46435F434B464E203B2020202020202020202037344546,
  0x54454B4341524220455241555153205448474952204C4143495452455620524F46204D524F46204E4F495441544E45534552502020202020202065502023202020202020202020202044353030203B46435F434B464E203B2020202020202020202038344546,
  0x454E494C5245564F205956415720454C42554F442E2E454E494C5245564F20444548534144205D345B2020206F502023202020202020353033302030323030203B46435F434B464E203B20202020433445462E2E39344546,
  0x454E494C20574F4C20595641572E2E454E494C20574F4C20444548534144205D335B20202063502023202020202020202020202046353030203B46435F434B464E203B20202020463445462E2E44344546,
  0x414D4D4F43204C4C414D53202020202020206F502023202020202020202020202043323030203B46435F434B464E203B2020202020202020202030354546,
  0x414D4D4F4320434948504152474F454449204C4C414D53202020202020206F502023202020202020202020202031303033203B46435F434B464E203B2020202020202020202031354546,
  0x504F5453204C4C5546204C4C414D53202020202020206F502023202020202020202020202045323030203B46435F434B464E203B2020202020202020202032354546,
  0x4E4F4C4F43494D4553204C4C414D53202020202020206F502023202020202020202020202042333030203B46435F434B464E203B2020202020202020202034354546,
  0x4E4F4C4F43204C4C414D53202020202020206F502023202020202020202020202041333030203B46435F434B464E203B2020202020202020202035354546,
  0x4B52414D204E4F495453455551204C4C414D53202020202020206F502023202020202020202020202046333030203B46435F434B464E203B2020202020202020202036354546,
  0x4B52414D204E4F4954414D414C435845204C4C414D53202020202020206F502023202020202020202020202031323030203B46435F434B464E203B2020202020202020202037354546,
  0x48534144204D45204C4C414D532020202020202064502023202020202020202020202034313032203B46435F434B464E203B2020202020202020202038354546,
  0x5349534548544E45524150205446454C204C4C414D532020202020202073502023202020202020202020202038323030203B46435F434B464E203B2020202020202020202039354546,
  0x5349534548544E45524150205448474952204C4C414D532020202020202065502023202020202020202020202039323030203B46435F434B464E203B2020202020202020202041354546,
  0x54454B4341524220594C525543205446454C204C4C414D532020202020202073502023202020202020202020202042373030203B46435F434B464E203B2020202020202020202042354546,
  0x54454B4341524220594C525543205448474952204C4C414D532020202020202065502023202020202020202020202044373030203B46435F434B464E203B2020202020202020202043354546,
  0x54454B43415242204C4C454853204553494F54524F54205446454C204C4C414D532020202020202073502023202020202020202020202034313033203B46435F434B464E203B2020202020202020202044354546,
  0x54454B43415242204C4C454853204553494F54524F54205448474952204C4C414D532020202020202065502023202020202020202020202035313033203B46435F434B464E203B2020202020202020202045354546,
  0x4E474953205245424D554E204C4C414D53202020202020206F502023202020202020202020202033323030203B46435F434B464E203B2020202020202020202046354546,
  0x444E41535245504D41204C4C414D53202020202020206F502023202020202020202020202036323030203B46435F434B464E203B2020202020202020202030364546,
  0x4B53495245545341204C4C414D53202020202020206F502023202020202020202020202041323030203B46435F434B464E203B2020202020202020202031364546,
  0x4E4749532053554C50204C4C414D53202020202020206D532023202020202020202020202042323030203B46435F434B464E203B2020202020202020202032364546,
  0x53554E494D2D4E4548505948204C4C414D532020202020202064502023202020202020202020202044323030203B46435F434B464E203B2020202020202020202033364546,
  0x4E474953204E4148542D5353454C204C4C414D53202020202020206D532023202020202020202020202043333030203B46435F434B464E203B2020202020202020202034364546,
  0x4E474953204E4148542D52455441455247204C4C414D53202020202020206D532023202020202020202020202045333030203B46435F434B464E203B2020202020202020202035364546,
  0x4E47495320534C41555145204C4C414D53202020202020206D532023202020202020202020202044333030203B46435F434B464E203B2020202020202020202036364546,
  0x535544494C4F532045535245564552204C4C414D53202020202020206F502023202020202020202020202043353030203B46435F434B464E203B2020202020202020202038364546,
  0x4E4749532052414C4C4F44204C4C414D532020202020202063532023202020202020202020202034323030203B46435F434B464E203B2020202020202020202039364546,
  0x4E47495320544E4543524550204C4C414D53202020202020206F502023202020202020202020202035323030203B46435F434B464E203B2020202020202020202041364546,
  0x5441204C41494352454D4D4F43204C4C414D53202020202020206F502023202020202020202020202030343030203B46435F434B464E203B2020202020202020202042364546,
  0x4D524F4620444554414C4F5349204E4154414854414620434942415241202020202020206F4C2023202020202020423436302030323030203B46435F434B464E203B2020202020202020202030374546,
  0x45564F4241204E415441485441462048544957204C45455754415420434942415241202020202020206F4C2023202020202020423436302030343630203B46435F434B464E203B2020202020202020202031374546,
  0x4D524F4620444554414C4F5349204E4154414D4D414420434942415241202020202020206F4C2023202020202020433436302030323030203B46435F434B464E203B2020202020202020202032374546,
  0x4D524F4620444554414C4F5349204E4154415253414B20434942415241202020202020206F4C2023202020202020443436302030323030203B46435F434B464E203B2020202020202020202034374546,
  0x4D524F4620444554414C4F534920414854414620434942415241202020202020206F4C2023202020202020453436302030323030203B46435F434B464E203B2020202020202020202036374546,
  0x4D524F46204C414944454D20414854414620434942415241202020202020206F4C2023202020202020453436302030343630203B46435F434B464E203B2020202020202020202037374546,
  0x4D524F4620444554414C4F534920414D4D414420434942415241202020202020206F4C2023202020202020463436302030323030203B46435F434B464E203B2020202020202020202038374546,
  0x4D524F46204C414944454D20414D4D414420434942415241202020202020206F4C2023202020202020463436302030343630203B46435F434B464E203B2020202020202020202039374546,
  0x4D524F4620444554414C4F534920415253414B20434942415241202020202020206F4C2023202020202020303536302030323030203B46435F434B464E203B2020202020202020202041374546,
  0x4D524F46204C414944454D20415253414B20434942415241202020202020206F4C2023202020202020303536302030343630203B46435F434B464E203B2020202020202020202042374546]

def qcText26 : List Nat := [
  0x4D524F4620444554414C4F53492041444441485320434942415241202020202020206F4C2023202020202020313536302030323030203B46435F434B464E203B2020202020202020202043374546,
  0x4D524F46204C414944454D2041444441485320434942415241202020202020206F4C2023202020202020313536302030343630203B46435F434B464E203B2020202020202020202044374546,
  0x4D524F4620444554414C4F5349204E554B555320434942415241202020202020206F4C2023202020202020323536302030323030203B46435F434B464E203B2020202020202020202045374546,
  0x4D524F46204C414944454D204E554B555320434942415241202020202020206F4C2023202020202020323536302030343630203B46435F434B464E203B2020202020202020202046374546,
  0x4D524F4620444554414C4F534920415A4D41482052455454454C20434942415241202020202020206F4C2023202020202020202020202031323630203B46435F434B464E203B2020202020202020202030384546,
  0x4D524F46204C414E49462045564F424120414444414D20485449572046454C412052455454454C204349424152412E2E4D524F4620444554414C4F53492045564F424120414444414D20485449572046454C412052455454454C20434942415241205D325B2020206F4C2023202020202020202020202032323630203B46435F434B464E203B20202020323845462E2E31384546,
  0x4D524F46204C414E49462045564F424120415A4D414820485449572046454C412052455454454C204349424152412E2E4D524F4620444554414C4F53492045564F424120415A4D414820485449572046454C412052455454454C20434942415241205D325B2020206F4C2023202020202020202020202033323630203B46435F434B464E203B20202020343845462E2E33384546,
  0x4D524F46204C414E49462045564F424120415A4D41482048544957205741572052455454454C204349424152412E2E4D524F4620444554414C4F53492045564F424120415A4D41482048544957205741572052455454454C20434942415241205D325B2020206F4C2023202020202020202020202034323630203B46435F434B464E203B20202020363845462E2E35384546,
  0x4D524F46204C414E494620574F4C454220415A4D414820485449572046454C412052455454454C204349424152412E2E4D524F4620444554414C4F534920574F4C454220415A4D414820485449572046454C412052455454454C20434942415241205D325B2020206F4C2023202020202020202020202035323630203B46435F434B464E203B20202020383845462E2E37384546,
  0x4D524F46204C414944454D2045564F424120415A4D41482048544957204845592052455454454C204349424152412E2E4D524F4620444554414C4F53492045564F424120415A4D41482048544957204845592052455454454C20434942415241205D345B2020206F4C2023202020202020202020202036323630203B46435F434B464E203B20202020433845462E2E39384546,
  0x4D524F46204C414E49462046454C412052455454454C204349424152412E2E4D524F4620444554414C4F53492046454C412052455454454C20434942415241205D325B2020206F4C2023202020202020202020202037323630203B46435F434B464E203B20202020453845462E2E44384546,
  0x4D524F46204C414944454D204845422052455454454C204349424152412E2E4D524F4620444554414C4F5349204845422052455454454C20434942415241205D345B2020206F4C2023202020202020202020202038323630203B46435F434B464E203B20202020323945462E2E46384546,
  0x4D524F46204C414E4946204154554252414D204845542052455454454C204349424152412E2E4D524F4620444554414C4F5349204154554252414D204845542052455454454C20434942415241205D325B2020206F4C2023202020202020202020202039323630203B46435F434B464E203B20202020343945462E2E33394546,
  0x4D524F46204C414944454D204845542052455454454C204349424152412E2E4D524F4620444554414C4F5349204845542052455454454C20434942415241205D345B2020206F4C2023202020202020202020202041323630203B46435F434B464E203B20202020383945462E2E35394546,
  0x4D524F46204C414944454D20484548542052455454454C204349424152412E2E4D524F4620444554414C4F534920484548542052455454454C20434942415241205D345B2020206F4C2023202020202020202020202042323630203B46435F434B464E203B20202020433945462E2E39394546,
  0x4D524F46204C414944454D204D45454A2052455454454C204349424152412E2E4D524F4620444554414C4F5349204D45454A2052455454454C20434942415241205D345B2020206F4C2023202020202020202020202043323630203B46435F434B464E203B20202020304145462E2E44394546,
  0x4D524F46204C414944454D204841482052455454454C204349424152412E2E4D524F4620444554414C4F5349204841482052455454454C20434942415241205D345B2020206F4C2023202020202020202020202044323630203B46435F434B464E203B20202020344145462E2E31414546,
  0x4D524F46204C414944454D204841484B2052455454454C204349424152412E2E4D524F4620444554414C4F5349204841484B2052455454454C20434942415241205D345B2020206F4C2023202020202020202020202045323630203B46435F434B464E203B20202020384145462E2E35414546,
  0x4D524F46204C414E4946204C41442052455454454C204349424152412E2E4D524F4620444554414C4F5349204C41442052455454454C20434942415241205D325B2020206F4C2023202020202020202020202046323630203B46435F434B464E203B20202020414145462E2E39414546,
  0x4D524F46204C414E4946204C4148542052455454454C204349424152412E2E4D524F4620444554414C4F5349204C4148542052455454454C20434942415241205D325B2020206F4C2023202020202020202020202030333630203B46435F434B464E203B20202020434145462E2E42414546,
  0x4D524F46204C414E4946204845522052455454454C204349424152412E2E4D524F4620444554414C4F5349204845522052455454454C20434942415241205D325B2020206F4C2023202020202020202020202031333630203B46435F434B464E203B20202020454145462E2E44414546,
  0x4D524F46204C414E4946204E49415A2052455454454C204349424152412E2E4D524F4620444554414C4F5349204E49415A2052455454454C20434942415241205D325B2020206F4C2023202020202020202020202032333630203B46435F434B464E203B20202020304245462E2E46414546,
  0x4D524F46204C414944454D204E4545532052455454454C204349424152412E2E4D524F4620444554414C4F5349204E4545532052455454454C20434942415241205D345B2020206F4C2023202020202020202020202033333630203B46435F434B464E203B20202020344245462E2E31424546,
  0x4D524F46204C414944454D204E454548532052455454454C204349424152412E2E4D524F4620444554414C4F5349204E454548532052455454454C20434942415241205D345B2020206F4C2023202020202020202020202034333630203B46435F434B464E203B20202020384245462E2E35424546,
  0x4D524F46204C414944454D204441532052455454454C204349424152412E2E4D524F4620444554414C4F5349204441532052455454454C20434942415241205D345B2020206F4C2023202020202020202020202035333630203B46435F434B464E203B20202020434245462E2E39424546,
  0x4D524F46204C414944454D204441442052455454454C204349424152412E2E4D524F4620444554414C4F5349204441442052455454454C20434942415241205D345B2020206F4C2023202020202020202020202036333630203B46435F434B464E203B20202020304345462E2E44424546,
  0x4D524F46204C414944454D204841542052455454454C204349424152412E2E4D524F4620444554414C4F5349204841542052455454454C20434942415241205D345B2020206F4C2023202020202020202020202037333630203B46435F434B464E203B20202020344345462E2E31434546,
  0x4D524F46204C414944454D2048415A2052455454454C204349424152412E2E4D524F4620444554414C4F53492048415A2052455454454C20434942415241205D345B2020206F4C2023202020202020202020202038333630203B46435F434B464E203B20202020384345462E2E35434546,
  0x4D524F46204C414944454D204E49412052455454454C204349424152412E2E4D524F4620444554414C4F5349204E49412052455454454C20434942415241205D345B2020206F4C2023202020202020202020202039333630203B46435F434B464E203B20202020434345462E2E39434546,
  0x4D524F46204C414944454D204E494148472052455454454C204349424152412E2E4D524F4620444554414C4F5349204E494148472052455454454C20434942415241205D345B2020206F4C2023202020202020202020202041333630203B46435F434B464E203B20202020304445462E2E44434546,
  0x4D524F46204C414944454D204845462052455454454C204349424152412E2E4D524F4620444554414C4F5349204845462052455454454C20434942415241205D345B2020206F4C2023202020202020202020202031343630203B46435F434B464E203B20202020344445462E2E31444546,
  0x4D524F46204C414944454D204641512052455454454C204349424152412E2E4D524F4620444554414C4F5349204641512052455454454C20434942415241205D345B2020206F4C2023202020202020202020202032343630203B46435F434B464E203B20202020384445462E2E35444546,
  0x4D524F46204C414944454D2046414B2052455454454C204349424152412E2E4D524F4620444554414C4F53492046414B2052455454454C20434942415241205D345B2020206F4C2023202020202020202020202033343630203B46435F434B464E203B20202020434445462E2E39444546,
  0x4D524F46204C414944454D204D414C2052455454454C204349424152412E2E4D524F4620444554414C4F5349204D414C2052455454454C20434942415241205D345B2020206F4C2023202020202020202020202034343630203B46435F434B464E203B20202020304545462E2E44444546,
  0x4D524F46204C414944454D204D45454D2052455454454C204349424152412E2E4D524F4620444554414C4F5349204D45454D2052455454454C20434942415241205D345B2020206F4C2023202020202020202020202035343630203B46435F434B464E203B20202020344545462E2E31454546,
  0x4D524F46204C414944454D204E4F4F4E2052455454454C204349424152412E2E4D524F4620444554414C4F5349204E4F4F4E2052455454454C20434942415241205D345B2020206F4C2023202020202020202020202036343630203B46435F434B464E203B20202020384545462E2E35454546,
  0x4D524F46204C414944454D204845482052455454454C204349424152412E2E4D524F4620444554414C4F5349204845482052455454454C20434942415241205D345B2020206F4C2023202020202020202020202037343630203B46435F434B464E203B20202020434545462E2E39454546,
  0x4D524F46204C414E4946205741572052455454454C204349424152412E2E4D524F4620444554414C4F5349205741572052455454454C20434942415241205D325B2020206F4C2023202020202020202020202038343630203B46435F434B464E203B20202020454545462E2E44454546,
  0x4D524F46204C414E494620415255534B414D2046454C412052455454454C204349424152412E2E4D524F4620444554414C4F534920415255534B414D2046454C412052455454454C20434942415241205D325B2020206F4C2023202020202020202020202039343630203B46435F434B464E203B20202020304645462E2E46454546,
  0x4D524F46204C414944454D204845592052455454454C204349424152412E2E4D524F4620444554414C4F5349204845592052455454454C20434942415241205D345B2020206F4C2023202020202020202020202041343630203B46435F434B464E203B20202020344645462E2E31464546,
  0x4D524F46204C414E49462045564F424120414444414D20485449572046454C412048544957204D414C20455255544147494C204349424152412E2E4D524F4620444554414C4F53492045564F424120414444414D20485449572046454C412048544957204D414C20455255544147494C20434942415241205D325B2020206F4C2023202020202020323236302034343630203B46435F434B464E203B20202020364645462E2E35464546,
  0x4D524F46204C414E49462045564F424120415A4D414820485449572046454C412048544957204D414C20455255544147494C204349424152412E2E4D524F4620444554414C4F53492045564F424120415A4D414820485449572046454C412048544957204D414C20455255544147494C20434942415241205D325B2020206F4C2023202020202020333236302034343630203B46435F434B464E203B20202020384645462E2E37464546,
  0x4D524F46204C414E494620574F4C454220415A4D414820485449572046454C412048544957204D414C20455255544147494C204349424152412E2E4D524F4620444554414C4F534920574F4C454220415A4D414820485449572046454C412048544957204D414C20455255544147494C20434942415241205D325B2020206F4C2023202020202020353236302034343630203B46435F434B464E203B20202020414645462E2E39464546,
  0x4D524F46204C414E49462046454C412048544957204D414C20455255544147494C204349424152412E2E4D524F4620444554414C4F53492046454C412048544957204D414C20455255544147494C20434942415241205D325B2020206F4C2023202020202020373236302034343630203B46435F434B464E203B20202020434645462E2E42464546,
  0x4543415053204B414552422D4F4E204854444957204F52455A2020202020202066432023202020202020202020202020202020203B46435F434B464E203B2020202020202020202046464546,
  0x4B52414D204E4F4954414D414C4358452048544449574C4C5546202020202020206F502023202020202020202020202031323030203B46435F434B464E203B2020202020202020202031304646,
  0x4B52414D204E4F495441544F55512048544449574C4C5546202020202020206F502023202020202020202020202032323030203B46435F434B464E203B2020202020202020202032304646,
  0x4E474953205245424D554E2048544449574C4C5546202020202020206F502023202020202020202020202033323030203B46435F434B464E203B2020202020202020202033304646,
  0x4E4749532052414C4C4F442048544449574C4C55462020202020202063532023202020202020202020202034323030203B46435F434B464E203B2020202020202020202034304646,
  0x4E47495320544E45435245502048544449574C4C5546202020202020206F502023202020202020202020202035323030203B46435F434B464E203B2020202020202020202035304646,
  0x444E41535245504D412048544449574C4C5546202020202020206F502023202020202020202020202036323030203B46435F434B464E203B2020202020202020202036304646,
  0x4548504F5254534F50412048544449574C4C5546202020202020206F502023202020202020202020202037323030203B46435F434B464E203B2020202020202020202037304646,
  0x5349534548544E45524150205446454C2048544449574C4C55462020202020202073502023202020202020202020202038323030203B46435F434B464E203B2020202020202020202038304646,
  0x5349534548544E455241502054484749522048544449574C4C55462020202020202065502023202020202020202020202039323030203B46435F434B464E203B2020202020202020202039304646,
  0x4B534952455453412048544449574C4C5546202020202020206F502023202020202020202020202041323030203B46435F434B464E203B2020202020202020202041304646,
  0x4E4749532053554C502048544449574C4C5546202020202020206D532023202020202020202020202042323030203B46435F434B464E203B2020202020202020202042304646,
  0x414D4D4F432048544449574C4C5546202020202020206F502023202020202020202020202043323030203B46435F434B464E203B2020202020202020202043304646,
  0x53554E494D2D4E45485059482048544449574C4C55462020202020202064502023202020202020202020202044323030203B46435F434B464E203B2020202020202020202044304646,
  0x504F5453204C4C55462048544449574C4C5546202020202020206F502023202020202020202020202045323030203B46435F434B464E203B2020202020202020202045304646,
  0x535544494C4F532048544449574C4C5546202020202020206F502023202020202020202020202046323030203B46435F434B464E203B2020202020202020202046304646,
  0x4F52455A2054494749442048544449574C4C554620202020202020644E2023202020202020202020202030333030203B46435F434B464E203B2020202020202020202030314646,
  0x454E4F2054494749442048544449574C4C554620202020202020644E2023202020202020202020202031333030203B46435F434B464E203B2020202020202020202031314646,
  0x4F57542054494749442048544449574C4C554620202020202020644E2023202020202020202020202032333030203B46435F434B464E203B2020202020202020202032314646,
  0x45455248542054494749442048544449574C4C554620202020202020644E2023202020202020202020202033333030203B46435F434B464E203B2020202020202020202033314646,
  0x52554F462054494749442048544449574C4C554620202020202020644E2023202020202020202020202034333030203B46435F434B464E203B2020202020202020202034314646,
  0x455649462054494749442048544449574C4C554620202020202020644E2023202020202020202020202035333030203B46435F434B464E203B2020202020202020202035314646,
  0x5849532054494749442048544449574C4C554620202020202020644E2023202020202020202020202036333030203B46435F434B464E203B2020202020202020202036314646,
  0x4E455645532054494749442048544449574C4C554620202020202020644E2023202020202020202020202037333030203B46435F434B464E203B2020202020202020202037314646,
  0x54484749452054494749442048544449574C4C554620202020202020644E2023202020202020202020202038333030203B46435F434B464E203B2020202020202020202038314646,
  0x454E494E2054494749442048544449574C4C554620202020202020644E2023202020202020202020202039333030203B46435F434B464E203B2020202020202020202039314646,
  0x4E4F4C4F432048544449574C4C5546202020202020206F502023202020202020202020202041333030203B46435F434B464E203B2020202020202020202041314646,
  0x4E4F4C4F43494D45532048544449574C4C5546202020202020206F502023202020202020202020202042333030203B46435F434B464E203B2020202020202020202042314646,
  0x4E474953204E4148542D5353454C2048544449574C4C5546202020202020206D532023202020202020202020202043333030203B46435F434B464E203B2020202020202020202043314646,
  0x4E47495320534C415551452048544449574C4C5546202020202020206D532023202020202020202020202044333030203B46435F434B464E203B2020202020202020202044314646,
  0x4E474953204E4148542D524554414552472048544449574C4C5546202020202020206D532023202020202020202020202045333030203B46435F434B464E203B2020202020202020202045314646,
  0x4B52414D204E4F4954534555512048544449574C4C5546202020202020206F502023202020202020202020202046333030203B46435F434B464E203B2020202020202020202046314646,
  0x5441204C41494352454D4D4F432048544449574C4C5546202020202020206F502023202020202020202020202030343030203B46435F434B464E203B2020202020202020202030324646,
  0x412052455454454C204C415449504143204E4954414C2048544449574C4C554620202020202020264C2023202020202020202020202031363030203B46435F434B464E203B2020202020202020202031324646,
  0x422052455454454C204C415449504143204E4954414C2048544449574C4C554620202020202020264C2023202020202020202020202032363030203B46435F434B464E203B2020202020202020202032324646,
  0x432052455454454C204C415449504143204E4954414C2048544449574C4C554620202020202020264C2023202020202020202020202033363030203B46435F434B464E203B2020202020202020202033324646,
  0x442052455454454C204C415449504143204E4954414C2048544449574C4C554620202020202020264C2023202020202020202020202034363030203B46435F434B464E203B2020202020202020202034324646,
  0x452052455454454C204C415449504143204E4954414C2048544449574C4C554620202020202020264C2023202020202020202020202035363030203B46435F434B464E203B2020202020202020202035324646,
  0x462052455454454C204C415449504143204E4954414C2048544449574C4C554620202020202020264C2023202020202020202020202036363030203B46435F434B464E203B2020202020202020202036324646,
  0x472052455454454C204C415449504143204E4954414C2048544449574C4C554620202020202020264C2023202020202020202020202037363030203B46435F434B464E203B2020202020202020202037324646,
  0x482052455454454C204C415449504143204E4954414C2048544449574C4C554620202020202020264C2023202020202020202020202038363030203B46435F434B464E203B2020202020202020202038324646,
  0x492052455454454C204C415449504143204E4954414C2048544449574C4C554620202020202020264C2023202020202020202020202039363030203B46435F434B464E203B2020202020202020202039324646,
  0x4A2052455454454C204C415449504143204E4954414C2048544449574C4C554620202020202020264C2023202020202020202020202041363030203B46435F434B464E203B2020202020202020202041324646,
  0x4B2052455454454C204C415449504143204E4954414C2048544449574C4C554620202020202020264C2023202020202020202020202042363030203B46435F434B464E203B2020202020202020202042324646,
  0x4C2052455454454C204C415449504143204E4954414C2048544449574C4C554620202020202020264C2023202020202020202020202043363030203B46435F434B464E203B2020202020202020202043324646,
  0x4D2052455454454C204C415449504143204E4954414C2048544449574C4C554620202020202020264C2023202020202020202020202044363030203B46435F434B464E203B2020202020202020202044324646,
  0x4E2052455454454C204C415449504143204E4954414C2048544449574C4C554620202020202020264C2023202020202020202020202045363030203B46435F434B464E203B2020202020202020202045324646,
  0x4F2052455454454C204C415449504143204E4954414C2048544449574C4C554620202020202020264C2023202020202020202020202046363030203B46435F434B464E203B2020202020202020202046324646,
  0x502052455454454C204C415449504143204E4954414C2048544449574C4C554620202020202020264C2023202020202020202020202030373030203B46435F434B464E203B2020202020202020202030334646,
  0x512052455454454C204C415449504143204E4954414C2048544449574C4C554620202020202020264C2023202020202020202020202031373030203B46435F434B464E203B2020202020202020202031334646,
  0x522052455454454C204C415449504143204E4954414C2048544449574C4C554620202020202020264C2023202020202020202020202032373030203B46435F434B464E203B2020202020202020202032334646,
  0x532052455454454C204C415449504143204E4954414C2048544449574C4C554620202020202020264C2023202020202020202020202033373030203B46435F434B464E203B2020202020202020202033334646,
  0x542052455454454C204C415449504143204E4954414C2048544449574C4C554620202020202020264C2023202020202020202020202034373030203B46435F434B464E203B2020202020202020202034334646,
  0x552052455454454C204C415449504143204E4954414C2048544449574C4C554620202020202020264C2023202020202020202020202035373030203B46435F434B464E203B2020202020202020202035334646,
  0x562052455454454C204C415449504143204E4954414C2048544449574C4C554620202020202020264C2023202020202020202020202036373030203B46435F434B464E203B2020202020202020202036334646,
  0x572052455454454C204C415449504143204E4954414C2048544449574C4C554620202020202020264C2023202020202020202020202037373030203B46435F434B464E203B2020202020202020202037334646,
  0x582052455454454C204C415449504143204E4954414C2048544449574C4C554620202020202020264C2023202020202020202020202038373030203B46435F434B464E203B2020202020202020202038334646,
  0x592052455454454C204C415449504143204E4954414C2048544449574C4C554620202020202020264C2023202020202020202020202039373030203B46435F434B464E203B2020202020202020202039334646,
  0x5A2052455454454C204C415449504143204E4954414C2048544449574C4C554620202020202020264C2023202020202020202020202041373030203B46435F434B464E203B2020202020202020202041334646,
  0x54454B4341524220455241555153205446454C2048544449574C4C55462020202020202073502023202020202020202020202042353030203B46435F434B464E203B2020202020202020202042334646,
  0x535544494C4F5320455352455645522048544449574C4C5546202020202020206F502023202020202020202020202043353030203B46435F434B464E203B2020202020202020202043334646,
  0x54454B43415242204552415551532054484749522048544449574C4C55462020202020202065502023202020202020202020202044353030203B46435F434B464E203B2020202020202020202044334646,
  0x544E454343412058454C464D55435249432048544449574C4C5546202020202020206B532023202020202020202020202045353030203B46435F434B464E203B2020202020202020202045334646,
  0x454E494C20574F4C2048544449574C4C55462020202020202063502023202020202020202020202046353030203B46435F434B464E203B2020202020202020202046334646,
  0x544E454343412045564152472048544449574C4C5546202020202020206B532023202020202020202020202030363030203B46435F434B464E203B2020202020202020202030344646,
  0x412052455454454C204C4C414D53204E4954414C2048544449574C4C554620202020202020264C2023202020202020202020202031363030203B46435F434B464E203B2020202020202020202031344646,
  0x422052455454454C204C4C414D53204E4954414C2048544449574C4C554620202020202020264C2023202020202020202020202032363030203B46435F434B464E203B2020202020202020202032344646,
  0x432052455454454C204C4C414D53204E4954414C2048544449574C4C554620202020202020264C2023202020202020202020202033363030203B46435F434B464E203B2020202020202020202033344646,
  0x442052455454454C204C4C414D53204E4954414C2048544449574C4C554620202020202020264C2023202020202020202020202034363030203B46435F434B464E203B2020202020202020202034344646,
  0x452052455454454C204C4C414D53204E4954414C2048544449574C4C554620202020202020264C2023202020202020202020202035363030203B46435F434B464E203B2020202020202020202035344646,
  0x462052455454454C204C4C414D53204E4954414C2048544449574C4C554620202020202020264C2023202020202020202020202036363030203B46435F434B464E203B2020202020202020202036344646,
  0x472052455454454C204C4C414D53204E4954414C2048544449574C4C554620202020202020264C2023202020202020202020202037363030203B46435F434B464E203B2020202020202020202037344646,
  0x482052455454454C204C4C414D53204E4954414C2048544449574C4C554620202020202020264C2023202020202020202020202038363030203B46435F434B464E203B2020202020202020202038344646,
  0x492052455454454C204C4C414D53204E4954414C2048544449574C4C554620202020202020264C2023202020202020202020202039363030203B46435F434B464E203B2020202020202020202039344646,
  0x4A2052455454454C204C4C414D53204E4954414C2048544449574C4C554620202020202020264C2023202020202020202020202041363030203B46435F434B464E203B2020202020202020202041344646,
  0x4B2052455454454C204C4C414D53204E4954414C2048544449574C4C554620202020202020264C2023202020202020202020202042363030203B46435F434B464E203B2020202020202020202042344646,
  0x4C2052455454454C204C4C414D53204E4954414C2048544449574C4C554620202020202020264C2023202020202020202020202043363030203B46435F434B464E203B2020202020202020202043344646,
  0x4D2052455454454C204C4C414D53204E4954414C2048544449574C4C554620202020202020264C2023202020202020202020202044363030203B46435F434B464E203B2020202020202020202044344646,
  0x4E2052455454454C204C4C414D53204E4954414C2048544449574C4C554620202020202020264C2023202020202020202020202045363030203B46435F434B464E203B2020202020202020202045344646,
  0x4F2052455454454C204C4C414D53204E4954414C2048544449574C4C554620202020202020264C2023202020202020202020202046363030203B46435F434B464E203B2020202020202020202046344646,
  0x502052455454454C204C4C414D53204E4954414C2048544449574C4C554620202020202020264C2023202020202020202020202030373030203B46435F434B464E203B2020202020202020202030354646,
  0x512052455454454C204C4C414D53204E4954414C2048544449574C4C554620202020202020264C2023202020202020202020202031373030203B46435F434B464E203B2020202020202020202031354646,
  0x522052455454454C204C4C414D53204E4954414C2048544449574C4C554620202020202020264C2023202020202020202020202032373030203B46435F434B464E203B2020202020202020202032354646,
  0x532052455454454C204C4C414D53204E4954414C2048544449574C4C554620202020202020264C2023202020202020202020202033373030203B46435F434B464E203B2020202020202020202033354646,
  0x542052455454454C204C4C414D53204E4954414C2048544449574C4C554620202020202020264C2023202020202020202020202034373030203B46435F434B464E203B2020202020202020202034354646,
  0x552052455454454C204C4C414D53204E4954414C2048544449574C4C554620202020202020264C2023202020202020202020202035373030203B46435F434B464E203B2020202020202020202035354646,
  0x562052455454454C204C4C414D53204E4954414C2048544449574C4C554620202020202020264C2023202020202020202020202036373030203B46435F434B464E203B2020202020202020202036354646,
  0x572052455454454C204C4C414D53204E4954414C2048544449574C4C554620202020202020264C2023202020202020202020202037373030203B46435F434B464E203B2020202020202020202037354646,
  0x582052455454454C204C4C414D53204E4954414C2048544449574C4C554620202020202020264C2023202020202020202020202038373030203B46435F434B464E203B2020202020202020202038354646,
  0x592052455454454C204C4C414D53204E4954414C2048544449574C4C554620202020202020264C2023202020202020202020202039373030203B46435F434B464E203B2020202020202020202039354646,
  0x5A2052455454454C204C4C414D53204E4954414C2048544449574C4C554620202020202020264C2023202020202020202020202041373030203B46435F434B464E203B2020202020202020202041354646,
  0x54454B4341524220594C525543205446454C2048544449574C4C55462020202020202073502023202020202020202020202042373030203B46435F434B464E203B2020202020202020202042354646,
  0x454E494C204C414349545245562048544449574C4C5546202020202020206D532023202020202020202020202043373030203B46435F434B464E203B2020202020202020202043354646,
  0x54454B4341524220594C5255432054484749522048544449574C4C55462020202020202065502023202020202020202020202044373030203B46435F434B464E203B2020202020202020202044354646,
  0x45444C49542048544449574C4C5546202020202020206D532023202020202020202020202045373030203B46435F434B464E203B2020202020202020202045354646,
  0x5349534548544E45524150204554494857205446454C2048544449574C4C55462020202020202073502023202020202020202020202035383932203B46435F434B464E203B2020202020202020202046354646,
  0x5349534548544E455241502045544948572054484749522048544449574C4C55462020202020202065502023202020202020202020202036383932203B46435F434B464E203B2020202020202020202030364646,
  0x504F5453204C4C554620434948504152474F454449204854444957464C4148202020202020206F502023202020202020202020202032303033203B46435F434B464E203B2020202020202020202031364646,
  0x54454B434152422052454E524F43205446454C204854444957464C41482020202020202073502023202020202020202020202043303033203B46435F434B464E203B2020202020202020202032364646,
  0x54454B434152422052454E524F43205448474952204854444957464C41482020202020202065502023202020202020202020202044303033203B46435F434B464E203B2020202020202020202033364646,
  0x414D4D4F4320434948504152474F454449204854444957464C4148202020202020206F502023202020202020202020202031303033203B46435F434B464E203B2020202020202020202034364646,
  0x544F4420454C4444494D20414E414B4154414B204854444957464C4148202020202020206F502023202020202020202020202042463033203B46435F434B464E203B2020202020202020202035364646,
  0x4F572052455454454C20414E414B4154414B204854444957464C4148202020202020206F4C2023202020202020202020202032463033203B46435F434B464E203B2020202020202020202036364646,
  0x41204C4C414D532052455454454C20414E414B4154414B204854444957464C4148202020202020206F4C2023202020202020202020202031413033203B46435F434B464E203B2020202020202020202037364646,
  0x49204C4C414D532052455454454C20414E414B4154414B204854444957464C4148202020202020206F4C2023202020202020202020202033413033203B46435F434B464E203B2020202020202020202038364646,
  0x55204C4C414D532052455454454C20414E414B4154414B204854444957464C4148202020202020206F4C2023202020202020202020202035413033203B46435F434B464E203B2020202020202020202039364646,
  0x45204C4C414D532052455454454C20414E414B4154414B204854444957464C4148202020202020206F4C2023202020202020202020202037413033203B46435F434B464E203B2020202020202020202041364646,
  0x4F204C4C414D532052455454454C20414E414B4154414B204854444957464C4148202020202020206F4C2023202020202020202020202039413033203B46435F434B464E203B2020202020202020202042364646,
  0x4159204C4C414D532052455454454C20414E414B4154414B204854444957464C4148202020202020206F4C2023202020202020202020202033453033203B46435F434B464E203B2020202020202020202043364646,
  0x5559204C4C414D532052455454454C20414E414B4154414B204854444957464C4148202020202020206F4C2023202020202020202020202035453033203B46435F434B464E203B2020202020202020202044364646,
  0x4F59204C4C414D532052455454454C20414E414B4154414B204854444957464C4148202020202020206F4C2023202020202020202020202037453033203B46435F434B464E203B2020202020202020202045364646,
  0x5554204C4C414D532052455454454C20414E414B4154414B204854444957464C4148202020202020206F4C2023202020202020202020202033433033203B46435F434B464E203B2020202020202020202046364646,
  0x4B52414D20444E554F53204445474E4F4C4F525020414E4147415249482D414E414B4154414B204854444957464C4148202020202020206D4C2023202020202020202020202043463033203B46435F434B464E203B2020202020202020202030374646,
  0x412052455454454C20414E414B4154414B204854444957464C4148202020202020206F4C2023202020202020202020202032413033203B46435F434B464E203B2020202020202020202031374646,
  0x492052455454454C20414E414B4154414B204854444957464C4148202020202020206F4C2023202020202020202020202034413033203B46435F434B464E203B2020202020202020202032374646,
  0x552052455454454C20414E414B4154414B204854444957464C4148202020202020206F4C2023202020202020202020202036413033203B46435F434B464E203B2020202020202020202033374646,
  0x452052455454454C20414E414B4154414B204854444957464C4148202020202020206F4C2023202020202020202020202038413033203B46435F434B464E203B2020202020202020202034374646,
  0x4F2052455454454C20414E414B4154414B204854444957464C4148202020202020206F4C2023202020202020202020202041413033203B46435F434B464E203B2020202020202020202035374646,
  0x414B2052455454454C20414E414B4154414B204854444957464C4148202020202020206F4C2023202020202020202020202042413033203B46435F434B464E203B2020202020202020202036374646,
  0x494B2052455454454C20414E414B4154414B204854444957464C4148202020202020206F4C2023202020202020202020202044413033203B46435F434B464E203B2020202020202020202037374646,
  0x554B2052455454454C20414E414B4154414B204854444957464C4148202020202020206F4C2023202020202020202020202046413033203B46435F434B464E203B2020202020202020202038374646,
  0x454B2052455454454C20414E414B4154414B204854444957464C4148202020202020206F4C2023202020202020202020202031423033203B46435F434B464E203B2020202020202020202039374646,
  0x4F4B2052455454454C20414E414B4154414B204854444957464C4148202020202020206F4C2023202020202020202020202033423033203B46435F434B464E203B2020202020202020202041374646,
  0x41532052455454454C20414E414B4154414B204854444957464C4148202020202020206F4C2023202020202020202020202035423033203B46435F434B464E203B2020202020202020202042374646,
  0x49532052455454454C20414E414B4154414B204854444957464C4148202020202020206F4C2023202020202020202020202037423033203B46435F434B464E203B2020202020202020202043374646,
  0x55532052455454454C20414E414B4154414B204854444957464C4148202020202020206F4C2023202020202020202020202039423033203B46435F434B464E203B2020202020202020202044374646,
  0x45532052455454454C20414E414B4154414B204854444957464C4148202020202020206F4C2023202020202020202020202042423033203B46435F434B464E203B2020202020202020202045374646,
  0x4F532052455454454C20414E414B4154414B204854444957464C4148202020202020206F4C2023202020202020202020202044423033203B46435F434B464E203B2020202020202020202046374646,
  0x41542052455454454C20414E414B4154414B204854444957464C4148202020202020206F4C2023202020202020202020202046423033203B46435F434B464E203B2020202020202020202030384646,
  0x49542052455454454C20414E414B4154414B204854444957464C4148202020202020206F4C2023202020202020202020202031433033203B46435F434B464E203B2020202020202020202031384646,
  0x55542052455454454C20414E414B4154414B204854444957464C4148202020202020206F4C2023202020202020202020202034433033203B46435F434B464E203B2020202020202020202032384646,
  0x45542052455454454C20414E414B4154414B204854444957464C4148202020202020206F4C2023202020202020202020202036433033203B46435F434B464E203B2020202020202020202033384646,
  0x4F542052455454454C20414E414B4154414B204854444957464C4148202020202020206F4C2023202020202020202020202038433033203B46435F434B464E203B2020202020202020202034384646,
  0x414E2052455454454C20414E414B4154414B204854444957464C4148202020202020206F4C2023202020202020202020202041433033203B46435F434B464E203B2020202020202020202035384646,
  0x494E2052455454454C20414E414B4154414B204854444957464C4148202020202020206F4C2023202020202020202020202042433033203B46435F434B464E203B2020202020202020202036384646,
  0x554E2052455454454C20414E414B4154414B204854444957464C4148202020202020206F4C2023202020202020202020202043433033203B46435F434B464E203B2020202020202020202037384646,
  0x454E2052455454454C20414E414B4154414B204854444957464C4148202020202020206F4C2023202020202020202020202044433033203B46435F434B464E203B2020202020202020202038384646,
  0x4F4E2052455454454C20414E414B4154414B204854444957464C4148202020202020206F4C2023202020202020202020202045433033203B46435F434B464E203B2020202020202020202039384646,
  0x41482052455454454C20414E414B4154414B204854444957464C4148202020202020206F4C2023202020202020202020202046433033203B46435F434B464E203B2020202020202020202041384646,
  0x49482052455454454C20414E414B4154414B204854444957464C4148202020202020206F4C2023202020202020202020202032443033203B46435F434B464E203B2020202020202020202042384646,
  0x55482052455454454C20414E414B4154414B204854444957464C4148202020202020206F4C2023202020202020202020202035443033203B46435F434B464E203B2020202020202020202043384646,
  0x45482052455454454C20414E414B4154414B204854444957464C4148202020202020206F4C2023202020202020202020202038443033203B46435F434B464E203B2020202020202020202044384646,
  0x4F482052455454454C20414E414B4154414B204854444957464C4148202020202020206F4C2023202020202020202020202042443033203B46435F434B464E203B2020202020202020202045384646,
  0x414D2052455454454C20414E414B4154414B204854444957464C4148202020202020206F4C2023202020202020202020202045443033203B46435F434B464E203B2020202020202020202046384646,
  0x494D2052455454454C20414E414B4154414B204854444957464C4148202020202020206F4C2023202020202020202020202046443033203B46435F434B464E203B2020202020202020202030394646,
  0x554D2052455454454C20414E414B4154414B204854444957464C4148202020202020206F4C2023202020202020202020202030453033203B46435F434B464E203B2020202020202020202031394646,
  0x454D2052455454454C20414E414B4154414B204854444957464C4148202020202020206F4C2023202020202020202020202031453033203B46435F434B464E203B2020202020202020202032394646,
  0x4F4D2052455454454C20414E414B4154414B204854444957464C4148202020202020206F4C2023202020202020202020202032453033203B46435F434B464E203B2020202020202020202033394646,
  0x41592052455454454C20414E414B4154414B204854444957464C4148202020202020206F4C2023202020202020202020202034453033203B46435F434B464E203B2020202020202020202034394646,
  0x55592052455454454C20414E414B4154414B204854444957464C4148202020202020206F4C2023202020202020202020202036453033203B46435F434B464E203B2020202020202020202035394646,
  0x4F592052455454454C20414E414B4154414B204854444957464C4148202020202020206F4C2023202020202020202020202038453033203B46435F434B464E203B2020202020202020202036394646,
  0x41522052455454454C20414E414B4154414B204854444957464C4148202020202020206F4C2023202020202020202020202039453033203B46435F434B464E203B2020202020202020202037394646,
  0x49522052455454454C20414E414B4154414B204854444957464C4148202020202020206F4C2023202020202020202020202041453033203B46435F434B464E203B2020202020202020202038394646,
  0x55522052455454454C20414E414B4154414B204854444957464C4148202020202020206F4C2023202020202020202020202042453033203B46435F434B464E203B2020202020202020202039394646,
  0x45522052455454454C20414E414B4154414B204854444957464C4148202020202020206F4C2023202020202020202020202043453033203B46435F434B464E203B2020202020202020202041394646,
  0x4F522052455454454C20414E414B4154414B204854444957464C4148202020202020206F4C2023202020202020202020202044453033203B46435F434B464E203B2020202020202020202042394646,
  0x41572052455454454C20414E414B4154414B204854444957464C4148202020202020206F4C2023202020202020202020202046453033203B46435F434B464E203B2020202020202020202043394646,
  0x4E2052455454454C20414E414B4154414B204854444957464C4148202020202020206F4C2023202020202020202020202033463033203B46435F434B464E203B2020202020202020202044394646,
  0x4B52414D20444E554F5320444543494F5620414E414B4154414B204854444957464C4148202020202020206D4C2023202020202020202020202039393033203B46435F434B464E203B2020202020202020202045394646,
  0x4B52414D20444E554F5320444543494F562D494D455320414E414B4154414B204854444957464C4148202020202020206D4C2023202020202020202020202041393033203B46435F434B464E203B2020202020202020202046394646,
  0x52454C4C4946204C55474E4148204854444957464C4148202020202020206F4C2023202020202020202020202020202020203B46435F434B464E203B2020202020202020202030414646,
  0x4B4F4559494B2052455454454C204C55474E4148204854444957464C4148202020202020206F4C2023202020202020202020202030303131203B46435F434B464E203B2020202020202020202031414646,
  0x4B4F4559494B474E4153532052455454454C204C55474E4148204854444957464C4148202020202020206F4C2023202020202020202020202031303131203B46435F434B464E203B2020202020202020202032414646,
  0x534F49532D4B4F4559494B2052455454454C204C55474E4148204854444957464C4148202020202020206F4C2023202020202020202020202041413131203B46435F434B464E203B2020202020202020202033414646,
  0x4E5545494E2052455454454C204C55474E4148204854444957464C4148202020202020206F4C2023202020202020202020202032303131203B46435F434B464E203B2020202020202020202034414646,
  0x43554549432D4E5545494E2052455454454C204C55474E4148204854444957464C4148202020202020206F4C2023202020202020202020202043413131203B46435F434B464E203B2020202020202020202035414646,
  0x48554549482D4E5545494E2052455454454C204C55474E4148204854444957464C4148202020202020206F4C2023202020202020202020202044413131203B46435F434B464E203B2020202020202020202036414646,
  0x5455454B49542052455454454C204C55474E4148204854444957464C4148202020202020206F4C2023202020202020202020202033303131203B46435F434B464E203B2020202020202020202037414646,
  0x5455454B4954474E4153532052455454454C204C55474E4148204854444957464C4148202020202020206F4C2023202020202020202020202034303131203B46435F434B464E203B2020202020202020202038414646,
  0x4C554549522052455454454C204C55474E4148204854444957464C4148202020202020206F4C2023202020202020202020202035303131203B46435F434B464E203B2020202020202020202039414646,
  0x4B4F4559494B2D4C554549522052455454454C204C55474E4148204854444957464C4148202020202020206F4C2023202020202020202020202030423131203B46435F434B464E203B2020202020202020202041414646,
  0x4D5545494D2D4C554549522052455454454C204C55474E4148204854444957464C4148202020202020206F4C2023202020202020202020202031423131203B46435F434B464E203B2020202020202020202042414646,
  0x50554549502D4C554549522052455454454C204C55474E4148204854444957464C4148202020202020206F4C2023202020202020202020202032423131203B46435F434B464E203B2020202020202020202043414646,
  0x534F49532D4C554549522052455454454C204C55474E4148204854444957464C4148202020202020206F4C2023202020202020202020202033423131203B46435F434B464E203B2020202020202020202044414646,
  0x485455454948542D4C554549522052455454454C204C55474E4148204854444957464C4148202020202020206F4C2023202020202020202020202034423131203B46435F434B464E203B2020202020202020202045414646,
  0x485055454948502D4C554549522052455454454C204C55474E4148204854444957464C4148202020202020206F4C2023202020202020202020202035423131203B46435F434B464E203B2020202020202020202046414646,
  0x48554549482D4C554549522052455454454C204C55474E4148204854444957464C4148202020202020206F4C2023202020202020202020202041313131203B46435F434B464E203B2020202020202020202030424646,
  0x4D5545494D2052455454454C204C55474E4148204854444957464C4148202020202020206F4C2023202020202020202020202036303131203B46435F434B464E203B2020202020202020202031424646,
  0x50554549502052455454454C204C55474E4148204854444957464C4148202020202020206F4C2023202020202020202020202037303131203B46435F434B464E203B2020202020202020202032424646,
  0x5055454950474E4153532052455454454C204C55474E4148204854444957464C4148202020202020206F4C2023202020202020202020202038303131203B46435F434B464E203B2020202020202020202033424646,
  0x534F49532D50554549502052455454454C204C55474E4148204854444957464C4148202020202020206F4C2023202020202020202020202031323131203B46435F434B464E203B2020202020202020202034424646,
  0x534F49532052455454454C204C55474E4148204854444957464C4148202020202020206F4C2023202020202020202020202039303131203B46435F434B464E203B2020202020202020202035424646,
  0x534F4953474E4153532052455454454C204C55474E4148204854444957464C4148202020202020206F4C2023202020202020202020202041303131203B46435F434B464E203B2020202020202020202036424646,
  0x474E5545492052455454454C204C55474E4148204854444957464C4148202020202020206F4C2023202020202020202020202042303131203B46435F434B464E203B2020202020202020202037424646,
  0x43554549432052455454454C204C55474E4148204854444957464C4148202020202020206F4C2023202020202020202020202043303131203B46435F434B464E203B2020202020202020202038424646,
  0x4355454943474E4153532052455454454C204C55474E4148204854444957464C4148202020202020206F4C2023202020202020202020202044303131203B46435F434B464E203B2020202020202020202039424646,
  0x484355454948432052455454454C204C55474E4148204854444957464C4148202020202020206F4C2023202020202020202020202045303131203B46435F434B464E203B2020202020202020202041424646,
  0x484B554549484B2052455454454C204C55474E4148204854444957464C4148202020202020206F4C2023202020202020202020202046303131203B46435F434B464E203B2020202020202020202042424646,
  0x485455454948542052455454454C204C55474E4148204854444957464C4148202020202020206F4C2023202020202020202020202030313131203B46435F434B464E203B2020202020202020202043424646,
  0x485055454948502052455454454C204C55474E4148204854444957464C4148202020202020206F4C2023202020202020202020202031313131203B46435F434B464E203B2020202020202020202044424646,
  0x48554549482052455454454C204C55474E4148204854444957464C4148202020202020206F4C2023202020202020202020202032313131203B46435F434B464E203B2020202020202020202045424646,
  0x412052455454454C204C55474E4148204854444957464C4148202020202020206F4C2023202020202020202020202031363131203B46435F434B464E203B2020202020202020202032434646,
  0x45412052455454454C204C55474E4148204854444957464C4148202020202020206F4C2023202020202020202020202032363131203B46435F434B464E203B2020202020202020202033434646,
  0x41592052455454454C204C55474E4148204854444957464C4148202020202020206F4C2023202020202020202020202033363131203B46435F434B464E203B2020202020202020202034434646,
  0x4541592052455454454C204C55474E4148204854444957464C4148202020202020206F4C2023202020202020202020202034363131203B46435F434B464E203B2020202020202020202035434646,
  0x4F452052455454454C204C55474E4148204854444957464C4148202020202020206F4C2023202020202020202020202035363131203B46435F434B464E203B2020202020202020202036434646,
  0x452052455454454C204C55474E4148204854444957464C4148202020202020206F4C2023202020202020202020202036363131203B46435F434B464E203B2020202020202020202037434646,
  0x4F45592052455454454C204C55474E4148204854444957464C4148202020202020206F4C2023202020202020202020202037363131203B46435F434B464E203B2020202020202020202041434646,
  0x45592052455454454C204C55474E4148204854444957464C4148202020202020206F4C2023202020202020202020202038363131203B46435F434B464E203B2020202020202020202042434646,
  0x4F2052455454454C204C55474E4148204854444957464C4148202020202020206F4C2023202020202020202020202039363131203B46435F434B464E203B2020202020202020202043434646,
  0x41572052455454454C204C55474E4148204854444957464C4148202020202020206F4C2023202020202020202020202041363131203B46435F434B464E203B2020202020202020202044434646,
  0x4541572052455454454C204C55474E4148204854444957464C4148202020202020206F4C2023202020202020202020202042363131203B46435F434B464E203B2020202020202020202045434646,
  0x454F2052455454454C204C55474E4148204854444957464C4148202020202020206F4C2023202020202020202020202043363131203B46435F434B464E203B2020202020202020202046434646,
  0x4F592052455454454C204C55474E4148204854444957464C4148202020202020206F4C2023202020202020202020202044363131203B46435F434B464E203B2020202020202020202032444646,
  0x552052455454454C204C55474E4148204854444957464C4148202020202020206F4C2023202020202020202020202045363131203B46435F434B464E203B2020202020202020202033444646,
  0x4F45572052455454454C204C55474E4148204854444957464C4148202020202020206F4C2023202020202020202020202046363131203B46435F434B464E203B2020202020202020202034444646]

def qcText27 : List Nat := [
  0x45572052455454454C204C55474E4148204854444957464C4148202020202020206F4C2023202020202020202020202030373131203B46435F434B464E203B2020202020202020202035444646,
  0x49572052455454454C204C55474E4148204854444957464C4148202020202020206F4C2023202020202020202020202031373131203B46435F434B464E203B2020202020202020202036444646,
  0x55592052455454454C204C55474E4148204854444957464C4148202020202020206F4C2023202020202020202020202032373131203B46435F434B464E203B2020202020202020202037444646,
  0x55452052455454454C204C55474E4148204854444957464C4148202020202020206F4C2023202020202020202020202033373131203B46435F434B464E203B2020202020202020202041444646,
  0x49592052455454454C204C55474E4148204854444957464C4148202020202020206F4C2023202020202020202020202034373131203B46435F434B464E203B2020202020202020202042444646,
  0x492052455454454C204C55474E4148204854444957464C4148202020202020206F4C2023202020202020202020202035373131203B46435F434B464E203B2020202020202020202043444646,
  0x4E47495320544E45432048544449574C4C55462020202020202063532023202020202020202020202032413030203B46435F434B464E203B2020202020202020202030454646,
  0x4E47495320444E554F502048544449574C4C55462020202020202063532023202020202020202020202033413030203B46435F434B464E203B2020202020202020202031454646,
  0x4E47495320544F4E2048544449574C4C5546202020202020206D532023202020202020202020202043413030203B46435F434B464E203B2020202020202020202032454646,
  0x4E4F5243414D2048544449574C4C5546202020202020206B532023202020202020343033302030323030203B46435F434B464E203B2020202020202020202033454646,
  0x524142204E454B4F52422048544449574C4C5546202020202020206F532023202020202020202020202036413030203B46435F434B464E203B2020202020202020202034454646,
  0x4E474953204E45592048544449574C4C55462020202020202063532023202020202020202020202035413030203B46435F434B464E203B2020202020202020202035454646,
  0x4E474953204E4F572048544449574C4C55462020202020202063532023202020202020202020202039413032203B46435F434B464E203B2020202020202020202036454646,
  0x4C4143495452455620544847494C20534D524F46204854444957464C4148202020202020206F532023202020202020202020202032303532203B46435F434B464E203B2020202020202020202038454646,
  0x574F5252412053445241575446454C204854444957464C4148202020202020206D532023202020202020202020202030393132203B46435F434B464E203B2020202020202020202039454646,
  0x574F5252412053445241575055204854444957464C4148202020202020206D532023202020202020202020202031393132203B46435F434B464E203B2020202020202020202041454646,
  0x574F5252412053445241575448474952204854444957464C4148202020202020206D532023202020202020202020202032393132203B46435F434B464E203B2020202020202020202042454646,
  0x574F5252412053445241574E574F44204854444957464C4148202020202020206D532023202020202020202020202033393132203B46435F434B464E203B2020202020202020202043454646,
  0x455241555153204B43414C42204854444957464C4148202020202020206F532023202020202020202020202030413532203B46435F434B464E203B2020202020202020202044454646,
  0x454C43524943204554494857204854444957464C4148202020202020206F532023202020202020202020202042433532203B46435F434B464E203B2020202020202020202045454646,
  0x3E384646462D64657672657365723C2E2E3E304646462D64657672657365723C205D395B2020206E432023202020202020202020202020202020203B46435F434B464E203B20202020384646462E2E30464646,
  0x4920474E4F4C2052455454454C204C415449504143205445524553454420202020202020264C2023202020202020202020203832343031203B46435F434B464E203B2020202020202020203030343031,
  0x4520474E4F4C2052455454454C204C415449504143205445524553454420202020202020264C2023202020202020202020203932343031203B46435F434B464E203B2020202020202020203130343031,
  0x4120474E4F4C2052455454454C204C415449504143205445524553454420202020202020264C2023202020202020202020204132343031203B46435F434B464E203B2020202020202020203230343031,
  0x484120474E4F4C2052455454454C204C415449504143205445524553454420202020202020264C2023202020202020202020204232343031203B46435F434B464E203B2020202020202020203330343031,
  0x4F20474E4F4C2052455454454C204C415449504143205445524553454420202020202020264C2023202020202020202020204332343031203B46435F434B464E203B2020202020202020203430343031,
  0x4F4F20474E4F4C2052455454454C204C415449504143205445524553454420202020202020264C2023202020202020202020204432343031203B46435F434B464E203B2020202020202020203530343031,
  0x492054524F48532052455454454C204C415449504143205445524553454420202020202020264C2023202020202020202020204532343031203B46435F434B464E203B2020202020202020203630343031,
  0x452054524F48532052455454454C204C415449504143205445524553454420202020202020264C2023202020202020202020204632343031203B46435F434B464E203B2020202020202020203730343031,
  0x412054524F48532052455454454C204C415449504143205445524553454420202020202020264C2023202020202020202020203033343031203B46435F434B464E203B2020202020202020203830343031,
  0x48412054524F48532052455454454C204C415449504143205445524553454420202020202020264C2023202020202020202020203133343031203B46435F434B464E203B2020202020202020203930343031,
  0x4F2054524F48532052455454454C204C415449504143205445524553454420202020202020264C2023202020202020202020203233343031203B46435F434B464E203B2020202020202020204130343031,
  0x4F4F2054524F48532052455454454C204C415449504143205445524553454420202020202020264C2023202020202020202020203333343031203B46435F434B464E203B2020202020202020204230343031,
  0x59412052455454454C204C415449504143205445524553454420202020202020264C2023202020202020202020203433343031203B46435F434B464E203B2020202020202020204330343031,
  0x574F2052455454454C204C415449504143205445524553454420202020202020264C2023202020202020202020203533343031203B46435F434B464E203B2020202020202020204430343031,
  0x55572052455454454C204C415449504143205445524553454420202020202020264C2023202020202020202020203633343031203B46435F434B464E203B2020202020202020204530343031,
  0x4545592052455454454C204C415449504143205445524553454420202020202020264C2023202020202020202020203733343031203B46435F434B464E203B2020202020202020204630343031,
  0x482052455454454C204C415449504143205445524553454420202020202020264C2023202020202020202020203833343031203B46435F434B464E203B2020202020202020203031343031,
  0x4545502052455454454C204C415449504143205445524553454420202020202020264C2023202020202020202020203933343031203B46435F434B464E203B2020202020202020203131343031,
  0x4545422052455454454C204C415449504143205445524553454420202020202020264C2023202020202020202020204133343031203B46435F434B464E203B2020202020202020203231343031,
  0x4545542052455454454C204C415449504143205445524553454420202020202020264C2023202020202020202020204233343031203B46435F434B464E203B2020202020202020203331343031,
  0x4545442052455454454C204C415449504143205445524553454420202020202020264C2023202020202020202020204333343031203B46435F434B464E203B2020202020202020203431343031,
  0x454548432052455454454C204C415449504143205445524553454420202020202020264C2023202020202020202020204433343031203B46435F434B464E203B2020202020202020203531343031,
  0x45454A2052455454454C204C415449504143205445524553454420202020202020264C2023202020202020202020204533343031203B46435F434B464E203B2020202020202020203631343031,
  0x59414B2052455454454C204C415449504143205445524553454420202020202020264C2023202020202020202020204633343031203B46435F434B464E203B2020202020202020203731343031,
  0x5941472052455454454C204C415449504143205445524553454420202020202020264C2023202020202020202020203034343031203B46435F434B464E203B2020202020202020203831343031,
  0x46452052455454454C204C415449504143205445524553454420202020202020264C2023202020202020202020203134343031203B46435F434B464E203B2020202020202020203931343031,
  0x4545562052455454454C204C415449504143205445524553454420202020202020264C2023202020202020202020203234343031203B46435F434B464E203B2020202020202020204131343031,
  0x4854452052455454454C204C415449504143205445524553454420202020202020264C2023202020202020202020203334343031203B46435F434B464E203B2020202020202020204231343031,
  0x454548542052455454454C204C415449504143205445524553454420202020202020264C2023202020202020202020203434343031203B46435F434B464E203B2020202020202020204331343031,
  0x53452052455454454C204C415449504143205445524553454420202020202020264C2023202020202020202020203534343031203B46435F434B464E203B2020202020202020204431343031,
  0x45455A2052455454454C204C415449504143205445524553454420202020202020264C2023202020202020202020203634343031203B46435F434B464E203B2020202020202020204531343031,
  0x4853452052455454454C204C415449504143205445524553454420202020202020264C2023202020202020202020203734343031203B46435F434B464E203B2020202020202020204631343031,
  0x4545485A2052455454454C204C415449504143205445524553454420202020202020264C2023202020202020202020203834343031203B46435F434B464E203B2020202020202020203032343031,
  0x52452052455454454C204C415449504143205445524553454420202020202020264C2023202020202020202020203934343031203B46435F434B464E203B2020202020202020203132343031,
  0x4C452052455454454C204C415449504143205445524553454420202020202020264C2023202020202020202020204134343031203B46435F434B464E203B2020202020202020203232343031,
  0x4D452052455454454C204C415449504143205445524553454420202020202020264C2023202020202020202020204234343031203B46435F434B464E203B2020202020202020203332343031,
  0x4E452052455454454C204C415449504143205445524553454420202020202020264C2023202020202020202020204334343031203B46435F434B464E203B2020202020202020203432343031,
  0x474E452052455454454C204C415449504143205445524553454420202020202020264C2023202020202020202020204434343031203B46435F434B464E203B2020202020202020203532343031,
  0x494F2052455454454C204C415449504143205445524553454420202020202020264C2023202020202020202020204534343031203B46435F434B464E203B2020202020202020203632343031,
  0x57452052455454454C204C415449504143205445524553454420202020202020264C2023202020202020202020204634343031203B46435F434B464E203B2020202020202020203732343031,
  0x412052455454454C204C41544950414320454741534F20202020202020264C2023202020202020202020203844343031203B46435F434B464E203B2020202020202020203042343031,
  0x49412052455454454C204C41544950414320454741534F20202020202020264C2023202020202020202020203944343031203B46435F434B464E203B2020202020202020203142343031,
  0x4E49412052455454454C204C41544950414320454741534F20202020202020264C2023202020202020202020204144343031203B46435F434B464E203B2020202020202020203242343031,
  0x48412052455454454C204C41544950414320454741534F20202020202020264C2023202020202020202020204244343031203B46435F434B464E203B2020202020202020203342343031,
  0x4152422052455454454C204C41544950414320454741534F20202020202020264C2023202020202020202020204344343031203B46435F434B464E203B2020202020202020203442343031,
  0x4148432052455454454C204C41544950414320454741534F20202020202020264C2023202020202020202020204444343031203B46435F434B464E203B2020202020202020203542343031,
  0x41484348452052455454454C204C41544950414320454741534F20202020202020264C2023202020202020202020204544343031203B46435F434B464E203B2020202020202020203642343031,
  0x452052455454454C204C41544950414320454741534F20202020202020264C2023202020202020202020204644343031203B46435F434B464E203B2020202020202020203742343031,
  0x4E49452052455454454C204C41544950414320454741534F20202020202020264C2023202020202020202020203045343031203B46435F434B464E203B2020202020202020203842343031,
  0x41482052455454454C204C41544950414320454741534F20202020202020264C2023202020202020202020203145343031203B46435F434B464E203B2020202020202020203942343031,
  0x4159482052455454454C204C41544950414320454741534F20202020202020264C2023202020202020202020203245343031203B46435F434B464E203B2020202020202020204142343031,
  0x492052455454454C204C41544950414320454741534F20202020202020264C2023202020202020202020203345343031203B46435F434B464E203B2020202020202020204242343031,
  0x414B2052455454454C204C41544950414320454741534F20202020202020264C2023202020202020202020203445343031203B46435F434B464E203B2020202020202020204342343031,
  0x414B48452052455454454C204C41544950414320454741534F20202020202020264C2023202020202020202020203545343031203B46435F434B464E203B2020202020202020204442343031,
  0x41594B2052455454454C204C41544950414320454741534F20202020202020264C2023202020202020202020203645343031203B46435F434B464E203B2020202020202020204542343031,
  0x414C2052455454454C204C41544950414320454741534F20202020202020264C2023202020202020202020203745343031203B46435F434B464E203B2020202020202020204642343031,
  0x414D2052455454454C204C41544950414320454741534F20202020202020264C2023202020202020202020203845343031203B46435F434B464E203B2020202020202020203043343031,
  0x414E2052455454454C204C41544950414320454741534F20202020202020264C2023202020202020202020203945343031203B46435F434B464E203B2020202020202020203143343031,
  0x4F2052455454454C204C41544950414320454741534F20202020202020264C2023202020202020202020204145343031203B46435F434B464E203B2020202020202020203243343031,
  0x4E494F2052455454454C204C41544950414320454741534F20202020202020264C2023202020202020202020204245343031203B46435F434B464E203B2020202020202020203343343031,
  0x41502052455454454C204C41544950414320454741534F20202020202020264C2023202020202020202020204345343031203B46435F434B464E203B2020202020202020203443343031,
  0x415048452052455454454C204C41544950414320454741534F20202020202020264C2023202020202020202020204445343031203B46435F434B464E203B2020202020202020203543343031,
  0x41532052455454454C204C41544950414320454741534F20202020202020264C2023202020202020202020204545343031203B46435F434B464E203B2020202020202020203643343031,
  0x4148532052455454454C204C41544950414320454741534F20202020202020264C2023202020202020202020204645343031203B46435F434B464E203B2020202020202020203743343031,
  0x41542052455454454C204C41544950414320454741534F20202020202020264C2023202020202020202020203046343031203B46435F434B464E203B2020202020202020203843343031,
  0x415448452052455454454C204C41544950414320454741534F20202020202020264C2023202020202020202020203146343031203B46435F434B464E203B2020202020202020203943343031,
  0x4153542052455454454C204C41544950414320454741534F20202020202020264C2023202020202020202020203246343031203B46435F434B464E203B2020202020202020204143343031,
  0x41535448452052455454454C204C41544950414320454741534F20202020202020264C2023202020202020202020203346343031203B46435F434B464E203B2020202020202020204243343031,
  0x414853542052455454454C204C41544950414320454741534F20202020202020264C2023202020202020202020203446343031203B46435F434B464E203B2020202020202020204343343031,
  0x4148442052455454454C204C41544950414320454741534F20202020202020264C2023202020202020202020203546343031203B46435F434B464E203B2020202020202020204443343031,
  0x552052455454454C204C41544950414320454741534F20202020202020264C2023202020202020202020203646343031203B46435F434B464E203B2020202020202020204543343031,
  0x41572052455454454C204C41544950414320454741534F20202020202020264C2023202020202020202020203746343031203B46435F434B464E203B2020202020202020204643343031,
  0x41484B2052455454454C204C41544950414320454741534F20202020202020264C2023202020202020202020203846343031203B46435F434B464E203B2020202020202020203044343031,
  0x4148472052455454454C204C41544950414320454741534F20202020202020264C2023202020202020202020203946343031203B46435F434B464E203B2020202020202020203144343031,
  0x415A2052455454454C204C41544950414320454741534F20202020202020264C2023202020202020202020204146343031203B46435F434B464E203B2020202020202020203244343031,
  0x41485A2052455454454C204C41544950414320454741534F20202020202020264C2023202020202020202020204246343031203B46435F434B464E203B2020202020202020203344343031,
  0x412052455454454C204C415449504143204E41495241474E554820444C4F20202020202020264C2023202020202020202020203043433031203B46435F434B464E203B2020202020202020203038433031,
  0x41412052455454454C204C415449504143204E41495241474E554820444C4F20202020202020264C2023202020202020202020203143433031203B46435F434B464E203B2020202020202020203138433031,
  0x42452052455454454C204C415449504143204E41495241474E554820444C4F20202020202020264C2023202020202020202020203243433031203B46435F434B464E203B2020202020202020203238433031,
  0x424D412052455454454C204C415449504143204E41495241474E554820444C4F20202020202020264C2023202020202020202020203343433031203B46435F434B464E203B2020202020202020203338433031,
  0x43452052455454454C204C415449504143204E41495241474E554820444C4F20202020202020264C2023202020202020202020203443433031203B46435F434B464E203B2020202020202020203438433031,
  0x434E452052455454454C204C415449504143204E41495241474E554820444C4F20202020202020264C2023202020202020202020203543433031203B46435F434B464E203B2020202020202020203538433031,
  0x5343452052455454454C204C415449504143204E41495241474E554820444C4F20202020202020264C2023202020202020202020203643433031203B46435F434B464E203B2020202020202020203638433031,
  0x44452052455454454C204C415449504143204E41495241474E554820444C4F20202020202020264C2023202020202020202020203743433031203B46435F434B464E203B2020202020202020203738433031,
  0x444E412052455454454C204C415449504143204E41495241474E554820444C4F20202020202020264C2023202020202020202020203843433031203B46435F434B464E203B2020202020202020203838433031,
  0x452052455454454C204C415449504143204E41495241474E554820444C4F20202020202020264C2023202020202020202020203943433031203B46435F434B464E203B2020202020202020203938433031,
  0x452045534F4C432052455454454C204C415449504143204E41495241474E554820444C4F20202020202020264C2023202020202020202020204143433031203B46435F434B464E203B2020202020202020204138433031,
  0x45452052455454454C204C415449504143204E41495241474E554820444C4F20202020202020264C2023202020202020202020204243433031203B46435F434B464E203B2020202020202020204238433031,
  0x46452052455454454C204C415449504143204E41495241474E554820444C4F20202020202020264C2023202020202020202020204343433031203B46435F434B464E203B2020202020202020204338433031,
  0x47452052455454454C204C415449504143204E41495241474E554820444C4F20202020202020264C2023202020202020202020204443433031203B46435F434B464E203B2020202020202020204438433031,
  0x5947452052455454454C204C415449504143204E41495241474E554820444C4F20202020202020264C2023202020202020202020204543433031203B46435F434B464E203B2020202020202020204538433031,
  0x48452052455454454C204C415449504143204E41495241474E554820444C4F20202020202020264C2023202020202020202020204643433031203B46435F434B464E203B2020202020202020204638433031,
  0x492052455454454C204C415449504143204E41495241474E554820444C4F20202020202020264C2023202020202020202020203044433031203B46435F434B464E203B2020202020202020203039433031,
  0x49492052455454454C204C415449504143204E41495241474E554820444C4F20202020202020264C2023202020202020202020203144433031203B46435F434B464E203B2020202020202020203139433031,
  0x4A452052455454454C204C415449504143204E41495241474E554820444C4F20202020202020264C2023202020202020202020203244433031203B46435F434B464E203B2020202020202020203239433031,
  0x4B452052455454454C204C415449504143204E41495241474E554820444C4F20202020202020264C2023202020202020202020203344433031203B46435F434B464E203B2020202020202020203339433031,
  0x4B412052455454454C204C415449504143204E41495241474E554820444C4F20202020202020264C2023202020202020202020203444433031203B46435F434B464E203B2020202020202020203439433031,
  0x4B4E552052455454454C204C415449504143204E41495241474E554820444C4F20202020202020264C2023202020202020202020203544433031203B46435F434B464E203B2020202020202020203539433031,
  0x4C452052455454454C204C415449504143204E41495241474E554820444C4F20202020202020264C2023202020202020202020203644433031203B46435F434B464E203B2020202020202020203639433031,
  0x594C452052455454454C204C415449504143204E41495241474E554820444C4F20202020202020264C2023202020202020202020203744433031203B46435F434B464E203B2020202020202020203739433031,
  0x4D452052455454454C204C415449504143204E41495241474E554820444C4F20202020202020264C2023202020202020202020203844433031203B46435F434B464E203B2020202020202020203839433031,
  0x4E452052455454454C204C415449504143204E41495241474E554820444C4F20202020202020264C2023202020202020202020203944433031203B46435F434B464E203B2020202020202020203939433031,
  0x594E452052455454454C204C415449504143204E41495241474E554820444C4F20202020202020264C2023202020202020202020204144433031203B46435F434B464E203B2020202020202020204139433031,
  0x4F2052455454454C204C415449504143204E41495241474E554820444C4F20202020202020264C2023202020202020202020204244433031203B46435F434B464E203B2020202020202020204239433031,
  0x4F4F2052455454454C204C415449504143204E41495241474E554820444C4F20202020202020264C2023202020202020202020204344433031203B46435F434B464E203B2020202020202020204339433031,
  0x454F2047525542534C4F4B494E2052455454454C204C415449504143204E41495241474E554820444C4F20202020202020264C2023202020202020202020204444433031203B46435F434B464E203B2020202020202020204439433031,
  0x454F2041544E454D494455522052455454454C204C415449504143204E41495241474E554820444C4F20202020202020264C2023202020202020202020204544433031203B46435F434B464E203B2020202020202020204539433031,
  0x45454F2052455454454C204C415449504143204E41495241474E554820444C4F20202020202020264C2023202020202020202020204644433031203B46435F434B464E203B2020202020202020204639433031,
  0x50452052455454454C204C415449504143204E41495241474E554820444C4F20202020202020264C2023202020202020202020203045433031203B46435F434B464E203B2020202020202020203041433031,
  0x504D452052455454454C204C415449504143204E41495241474E554820444C4F20202020202020264C2023202020202020202020203145433031203B46435F434B464E203B2020202020202020203141433031,
  0x52452052455454454C204C415449504143204E41495241474E554820444C4F20202020202020264C2023202020202020202020203245433031203B46435F434B464E203B2020202020202020203241433031,
  0x52452054524F48532052455454454C204C415449504143204E41495241474E554820444C4F20202020202020264C2023202020202020202020203345433031203B46435F434B464E203B2020202020202020203341433031,
  0x53452052455454454C204C415449504143204E41495241474E554820444C4F20202020202020264C2023202020202020202020203445433031203B46435F434B464E203B2020202020202020203441433031,
  0x5A53452052455454454C204C415449504143204E41495241474E554820444C4F20202020202020264C2023202020202020202020203545433031203B46435F434B464E203B2020202020202020203541433031,
  0x54452052455454454C204C415449504143204E41495241474E554820444C4F20202020202020264C2023202020202020202020203645433031203B46435F434B464E203B2020202020202020203641433031,
  0x544E452052455454454C204C415449504143204E41495241474E554820444C4F20202020202020264C2023202020202020202020203745433031203B46435F434B464E203B2020202020202020203741433031,
  0x5954452052455454454C204C415449504143204E41495241474E554820444C4F20202020202020264C2023202020202020202020203845433031203B46435F434B464E203B2020202020202020203841433031,
  0x4843452052455454454C204C415449504143204E41495241474E554820444C4F20202020202020264C2023202020202020202020203945433031203B46435F434B464E203B2020202020202020203941433031,
  0x552052455454454C204C415449504143204E41495241474E554820444C4F20202020202020264C2023202020202020202020204145433031203B46435F434B464E203B2020202020202020204141433031,
  0x55552052455454454C204C415449504143204E41495241474E554820444C4F20202020202020264C2023202020202020202020204245433031203B46435F434B464E203B2020202020202020204241433031,
  0x45552047525542534C4F4B494E2052455454454C204C415449504143204E41495241474E554820444C4F20202020202020264C2023202020202020202020204345433031203B46435F434B464E203B2020202020202020204341433031,
  0x45552041544E454D494455522052455454454C204C415449504143204E41495241474E554820444C4F20202020202020264C2023202020202020202020204445433031203B46435F434B464E203B2020202020202020204441433031,
  0x56452052455454454C204C415449504143204E41495241474E554820444C4F20202020202020264C2023202020202020202020204545433031203B46435F434B464E203B2020202020202020204541433031,
  0x5A452052455454454C204C415449504143204E41495241474E554820444C4F20202020202020264C2023202020202020202020204645433031203B46435F434B464E203B2020202020202020204641433031,
  0x535A452052455454454C204C415449504143204E41495241474E554820444C4F20202020202020264C2023202020202020202020203046433031203B46435F434B464E203B2020202020202020203042433031,
  0x4E474953204445504148532D544E452052455454454C204C415449504143204E41495241474E554820444C4F20202020202020264C2023202020202020202020203146433031203B46435F434B464E203B2020202020202020203142433031,
  0x53552052455454454C204C415449504143204E41495241474E554820444C4F20202020202020264C2023202020202020202020203246433031203B46435F434B464E203B2020202020202020203242433031,
  0x4141474E2052455454454C204C415449504143204954494320474E4152415720202020202020264C2023202020202020202020203043383131203B46435F434B464E203B2020202020202020203041383131,
  0x412052455454454C204C415449504143204954494320474E4152415720202020202020264C2023202020202020202020203143383131203B46435F434B464E203B2020202020202020203141383131,
  0x49572052455454454C204C415449504143204954494320474E4152415720202020202020264C2023202020202020202020203243383131203B46435F434B464E203B2020202020202020203241383131,
  0x55592052455454454C204C415449504143204954494320474E4152415720202020202020264C2023202020202020202020203343383131203B46435F434B464E203B2020202020202020203341383131,
  0x41592052455454454C204C415449504143204954494320474E4152415720202020202020264C2023202020202020202020203443383131203B46435F434B464E203B2020202020202020203441383131,
  0x4F592052455454454C204C415449504143204954494320474E4152415720202020202020264C2023202020202020202020203543383131203B46435F434B464E203B2020202020202020203541383131,
  0x49492052455454454C204C415449504143204954494320474E4152415720202020202020264C2023202020202020202020203643383131203B46435F434B464E203B2020202020202020203641383131,
  0x55552052455454454C204C415449504143204954494320474E4152415720202020202020264C2023202020202020202020203743383131203B46435F434B464E203B2020202020202020203741383131,
  0x452052455454454C204C415449504143204954494320474E4152415720202020202020264C2023202020202020202020203843383131203B46435F434B464E203B2020202020202020203841383131,
  0x4F2052455454454C204C415449504143204954494320474E4152415720202020202020264C2023202020202020202020203943383131203B46435F434B464E203B2020202020202020203941383131,
  0x474E412052455454454C204C415449504143204954494320474E4152415720202020202020264C2023202020202020202020204143383131203B46435F434B464E203B2020202020202020204141383131,
  0x41472052455454454C204C415449504143204954494320474E4152415720202020202020264C2023202020202020202020204243383131203B46435F434B464E203B2020202020202020204241383131,
  0x4F4B2052455454454C204C415449504143204954494320474E4152415720202020202020264C2023202020202020202020204343383131203B46435F434B464E203B2020202020202020204341383131,
  0x594E452052455454454C204C415449504143204954494320474E4152415720202020202020264C2023202020202020202020204443383131203B46435F434B464E203B2020202020202020204441383131,
  0x4A55592052455454454C204C415449504143204954494320474E4152415720202020202020264C2023202020202020202020204543383131203B46435F434B464E203B2020202020202020204541383131,
  0x43552052455454454C204C415449504143204954494320474E4152415720202020202020264C2023202020202020202020204643383131203B46435F434B464E203B2020202020202020204641383131,
  0x4E4E452052455454454C204C415449504143204954494320474E4152415720202020202020264C2023202020202020202020203044383131203B46435F434B464E203B2020202020202020203042383131,
  0x44444F2052455454454C204C415449504143204954494320474E4152415720202020202020264C2023202020202020202020203144383131203B46435F434B464E203B2020202020202020203142383131,
  0x4554542052455454454C204C415449504143204954494320474E4152415720202020202020264C2023202020202020202020203244383131203B46435F434B464E203B2020202020202020203242383131,
  0x474E554E2052455454454C204C415449504143204954494320474E4152415720202020202020264C2023202020202020202020203344383131203B46435F434B464E203B2020202020202020203342383131,
  0x41442052455454454C204C415449504143204954494320474E4152415720202020202020264C2023202020202020202020203444383131203B46435F434B464E203B2020202020202020203442383131,
  0x54412052455454454C204C415449504143204954494320474E4152415720202020202020264C2023202020202020202020203544383131203B46435F434B464E203B2020202020202020203542383131,
  0x4D412052455454454C204C415449504143204954494320474E4152415720202020202020264C2023202020202020202020203644383131203B46435F434B464E203B2020202020202020203642383131,
  0x55422052455454454C204C415449504143204954494320474E4152415720202020202020264C2023202020202020202020203744383131203B46435F434B464E203B2020202020202020203742383131,
  0x55502052455454454C204C415449504143204954494320474E4152415720202020202020264C2023202020202020202020203844383131203B46435F434B464E203B2020202020202020203842383131,
  0x4F5949482052455454454C204C415449504143204954494320474E4152415720202020202020264C2023202020202020202020203944383131203B46435F434B464E203B2020202020202020203942383131,
  0x4F4C4F482052455454454C204C415449504143204954494320474E4152415720202020202020264C2023202020202020202020204144383131203B46435F434B464E203B2020202020202020204142383131,
  0x52524F482052455454454C204C415449504143204954494320474E4152415720202020202020264C2023202020202020202020204244383131203B46435F434B464E203B2020202020202020204242383131,
  0x5241482052455454454C204C415449504143204954494320474E4152415720202020202020264C2023202020202020202020204344383131203B46435F434B464E203B2020202020202020204342383131,
  0x555553532052455454454C204C415449504143204954494320474E4152415720202020202020264C2023202020202020202020204444383131203B46435F434B464E203B2020202020202020204442383131,
  0x4949532052455454454C204C415449504143204954494320474E4152415720202020202020264C2023202020202020202020204544383131203B46435F434B464E203B2020202020202020204542383131,
  0x4F5949562052455454454C204C415449504143204954494320474E4152415720202020202020264C2023202020202020202020204644383131203B46435F434B464E203B2020202020202020204642383131,
  0x4D2052455454454C204C415449504143204E4952444941464544454D20202020202020264C2023202020202020202020203036453631203B46435F434B464E203B2020202020202020203034453631,
  0x532052455454454C204C415449504143204E4952444941464544454D20202020202020264C2023202020202020202020203136453631203B46435F434B464E203B2020202020202020203134453631,
  0x562052455454454C204C415449504143204E4952444941464544454D20202020202020264C2023202020202020202020203236453631203B46435F434B464E203B2020202020202020203234453631,
  0x572052455454454C204C415449504143204E4952444941464544454D20202020202020264C2023202020202020202020203336453631203B46435F434B464E203B2020202020202020203334453631,
  0x554954412052455454454C204C415449504143204E4952444941464544454D20202020202020264C2023202020202020202020203436453631203B46435F434B464E203B2020202020202020203434453631,
  0x5A2052455454454C204C415449504143204E4952444941464544454D20202020202020264C2023202020202020202020203536453631203B46435F434B464E203B2020202020202020203534453631,
  0x504B2052455454454C204C415449504143204E4952444941464544454D20202020202020264C2023202020202020202020203636453631203B46435F434B464E203B2020202020202020203634453631,
  0x502052455454454C204C415449504143204E4952444941464544454D20202020202020264C2023202020202020202020203736453631203B46435F434B464E203B2020202020202020203734453631,
  0x542052455454454C204C415449504143204E4952444941464544454D20202020202020264C2023202020202020202020203836453631203B46435F434B464E203B2020202020202020203834453631,
  0x472052455454454C204C415449504143204E4952444941464544454D20202020202020264C2023202020202020202020203936453631203B46435F434B464E203B2020202020202020203934453631,
  0x462052455454454C204C415449504143204E4952444941464544454D20202020202020264C2023202020202020202020204136453631203B46435F434B464E203B2020202020202020204134453631,
  0x492052455454454C204C415449504143204E4952444941464544454D20202020202020264C2023202020202020202020204236453631203B46435F434B464E203B2020202020202020204234453631,
  0x4B2052455454454C204C415449504143204E4952444941464544454D20202020202020264C2023202020202020202020204336453631203B46435F434B464E203B2020202020202020204334453631,
  0x412052455454454C204C415449504143204E4952444941464544454D20202020202020264C2023202020202020202020204436453631203B46435F434B464E203B2020202020202020204434453631,
  0x4A2052455454454C204C415449504143204E4952444941464544454D20202020202020264C2023202020202020202020204536453631203B46435F434B464E203B2020202020202020204534453631,
  0x452052455454454C204C415449504143204E4952444941464544454D20202020202020264C2023202020202020202020204636453631203B46435F434B464E203B2020202020202020204634453631,
  0x422052455454454C204C415449504143204E4952444941464544454D20202020202020264C2023202020202020202020203037453631203B46435F434B464E203B2020202020202020203035453631,
  0x432052455454454C204C415449504143204E4952444941464544454D20202020202020264C2023202020202020202020203137453631203B46435F434B464E203B2020202020202020203135453631,
  0x552052455454454C204C415449504143204E4952444941464544454D20202020202020264C2023202020202020202020203237453631203B46435F434B464E203B2020202020202020203235453631,
  0x55592052455454454C204C415449504143204E4952444941464544454D20202020202020264C2023202020202020202020203337453631203B46435F434B464E203B2020202020202020203335453631,
  0x4C2052455454454C204C415449504143204E4952444941464544454D20202020202020264C2023202020202020202020203437453631203B46435F434B464E203B2020202020202020203435453631,
  0x512052455454454C204C415449504143204E4952444941464544454D20202020202020264C2023202020202020202020203537453631203B46435F434B464E203B2020202020202020203535453631,
  0x50482052455454454C204C415449504143204E4952444941464544454D20202020202020264C2023202020202020202020203637453631203B46435F434B464E203B2020202020202020203635453631,
  0x594E2052455454454C204C415449504143204E4952444941464544454D20202020202020264C2023202020202020202020203737453631203B46435F434B464E203B2020202020202020203735453631,
  0x582052455454454C204C415449504143204E4952444941464544454D20202020202020264C2023202020202020202020203837453631203B46435F434B464E203B2020202020202020203835453631,
  0x442052455454454C204C415449504143204E4952444941464544454D20202020202020264C2023202020202020202020203937453631203B46435F434B464E203B2020202020202020203935453631,
  0x454F2052455454454C204C415449504143204E4952444941464544454D20202020202020264C2023202020202020202020204137453631203B46435F434B464E203B2020202020202020204135453631,
  0x4E2052455454454C204C415449504143204E4952444941464544454D20202020202020264C2023202020202020202020204237453631203B46435F434B464E203B2020202020202020204235453631,
  0x522052455454454C204C415449504143204E4952444941464544454D20202020202020264C2023202020202020202020204337453631203B46435F434B464E203B2020202020202020204335453631,
  0x4F2052455454454C204C415449504143204E4952444941464544454D20202020202020264C2023202020202020202020204437453631203B46435F434B464E203B2020202020202020204435453631,
  0x49412052455454454C204C415449504143204E4952444941464544454D20202020202020264C2023202020202020202020204537453631203B46435F434B464E203B2020202020202020204535453631,
  0x592052455454454C204C415449504143204E4952444941464544454D20202020202020264C2023202020202020202020204637453631203B46435F434B464E203B2020202020202020204635453631,
  0x504554532050552054414D524F4620444E414854524F48532E2E50414C5245564F2052455454454C2054414D524F4620444E414854524F4853205D345B20202066432023202020202020202020202020202020203B46435F434B464E203B202033414342312E2E3041434231,
  0x45544F4E20464C4148204C4F424D5953204C41434953554D202020202020206F532023202020203536314431203735314431203B46435F434B464E203B2020202020202020204535314431,
  0x45544F4E2052455452415551204C4F424D5953204C41434953554D202020202020206F532023202020203536314431203835314431203B46435F434B464E203B2020202020202020204635314431,
  0x45544F4E20485448474945204C4F424D5953204C41434953554D20202020206F5323204536314431203536314431203835314431203B46435F434B464E203B2020202020202020203036314431,
  0x45544F4E2048544E454554584953204C4F424D5953204C41434953554D20202020206F5323204636314431203536314431203835314431203B46435F434B464E203B2020202020202020203136314431,
  0x45544F4E20444E4F4345532D595452494854204C4F424D5953204C41434953554D20202020206F5323203037314431203536314431203835314431203B46435F434B464E203B2020202020202020203236314431,
  0x45544F4E20485452554F462D5954584953204C4F424D5953204C41434953554D20202020206F5323203137314431203536314431203835314431203B46435F434B464E203B2020202020202020203336314431,
  0x45544F4E204854484749452D59544E45575420444552444E554820454E4F204C4F424D5953204C41434953554D20202020206F5323203237314431203536314431203835314431203B46435F434B464E203B2020202020202020203436314431,
  0x45534152485020444E45204C4F424D5953204C41434953554D2E2E4D414542204E49474542204C4F424D5953204C41434953554D205D385B20202066432023202020202020202020202020202020203B46435F434B464E203B202041373144312E2E3337314431,
  0x414D494E494D204C4F424D5953204C41434953554D202020202020206F532023202020203536314431203942314431203B46435F434B464E203B2020202020202020204242314431,
  0x4B43414C4220414D494E494D204C4F424D5953204C41434953554D202020202020206F532023202020203536314431204142314431203B46435F434B464E203B2020202020202020204342314431,
  0x455449485720414D494E494D494D4553204C4F424D5953204C41434953554D20202020206F5323204536314431203536314431203942314431203B46435F434B464E203B2020202020202020204442314431,
  0x4B43414C4220414D494E494D494D4553204C4F424D5953204C41434953554D20202020206F5323204536314431203536314431204142314431203B46435F434B464E203B2020202020202020204542314431,
  0x45544948572041535546204C4F424D5953204C41434953554D20202020206F5323204636314431203536314431203942314431203B46435F434B464E203B2020202020202020204642314431,
  0x4B43414C422041535546204C4F424D5953204C41434953554D20202020206F5323204636314431203536314431204142314431203B46435F434B464E203B2020202020202020203043314431,
  0x41204C41544950414320444C4F42204C41434954414D454854414D20202020202020264C2023202020202020202020202031363030203B46435F434B464E203B2020202020202020203030344431,
  0x42204C41544950414320444C4F42204C41434954414D454854414D20202020202020264C2023202020202020202020202032363030203B46435F434B464E203B2020202020202020203130344431,
  0x43204C41544950414320444C4F42204C41434954414D454854414D20202020202020264C2023202020202020202020202033363030203B46435F434B464E203B2020202020202020203230344431,
  0x44204C41544950414320444C4F42204C41434954414D454854414D20202020202020264C2023202020202020202020202034363030203B46435F434B464E203B2020202020202020203330344431,
  0x45204C41544950414320444C4F42204C41434954414D454854414D20202020202020264C2023202020202020202020202035363030203B46435F434B464E203B2020202020202020203430344431,
  0x46204C41544950414320444C4F42204C41434954414D454854414D20202020202020264C2023202020202020202020202036363030203B46435F434B464E203B2020202020202020203530344431,
  0x47204C41544950414320444C4F42204C41434954414D454854414D20202020202020264C2023202020202020202020202037363030203B46435F434B464E203B2020202020202020203630344431,
  0x48204C41544950414320444C4F42204C41434954414D454854414D20202020202020264C2023202020202020202020202038363030203B46435F434B464E203B2020202020202020203730344431,
  0x49204C41544950414320444C4F42204C41434954414D454854414D20202020202020264C2023202020202020202020202039363030203B46435F434B464E203B2020202020202020203830344431,
  0x4A204C41544950414320444C4F42204C41434954414D454854414D20202020202020264C2023202020202020202020202041363030203B46435F434B464E203B2020202020202020203930344431,
  0x4B204C41544950414320444C4F42204C41434954414D454854414D20202020202020264C2023202020202020202020202042363030203B46435F434B464E203B2020202020202020204130344431,
  0x4C204C41544950414320444C4F42204C41434954414D454854414D20202020202020264C2023202020202020202020202043363030203B46435F434B464E203B2020202020202020204230344431,
  0x4D204C41544950414320444C4F42204C41434954414D454854414D20202020202020264C2023202020202020202020202044363030203B46435F434B464E203B2020202020202020204330344431,
  0x4E204C41544950414320444C4F42204C41434954414D454854414D20202020202020264C2023202020202020202020202045363030203B46435F434B464E203B2020202020202020204430344431,
  0x4F204C41544950414320444C4F42204C41434954414D454854414D20202020202020264C2023202020202020202020202046363030203B46435F434B464E203B2020202020202020204530344431,
  0x50204C41544950414320444C4F42204C41434954414D454854414D20202020202020264C2023202020202020202020202030373030203B46435F434B464E203B2020202020202020204630344431,
  0x51204C41544950414320444C4F42204C41434954414D454854414D20202020202020264C2023202020202020202020202031373030203B46435F434B464E203B2020202020202020203031344431,
  0x52204C41544950414320444C4F42204C41434954414D454854414D20202020202020264C2023202020202020202020202032373030203B46435F434B464E203B2020202020202020203131344431,
  0x53204C41544950414320444C4F42204C41434954414D454854414D20202020202020264C2023202020202020202020202033373030203B46435F434B464E203B2020202020202020203231344431,
  0x54204C41544950414320444C4F42204C41434954414D454854414D20202020202020264C2023202020202020202020202034373030203B46435F434B464E203B2020202020202020203331344431,
  0x55204C41544950414320444C4F42204C41434954414D454854414D20202020202020264C2023202020202020202020202035373030203B46435F434B464E203B2020202020202020203431344431,
  0x56204C41544950414320444C4F42204C41434954414D454854414D20202020202020264C2023202020202020202020202036373030203B46435F434B464E203B2020202020202020203531344431,
  0x57204C41544950414320444C4F42204C41434954414D454854414D20202020202020264C2023202020202020202020202037373030203B46435F434B464E203B2020202020202020203631344431]

def qcText28 : List Nat := [
  0x58204C41544950414320444C4F42204C41434954414D454854414D20202020202020264C2023202020202020202020202038373030203B46435F434B464E203B2020202020202020203731344431,
  0x59204C41544950414320444C4F42204C41434954414D454854414D20202020202020264C2023202020202020202020202039373030203B46435F434B464E203B2020202020202020203831344431,
  0x5A204C41544950414320444C4F42204C41434954414D454854414D20202020202020264C2023202020202020202020202041373030203B46435F434B464E203B2020202020202020203931344431,
  0x41204C4C414D5320444C4F42204C41434954414D454854414D20202020202020264C2023202020202020202020202031363030203B46435F434B464E203B2020202020202020204131344431,
  0x42204C4C414D5320444C4F42204C41434954414D454854414D20202020202020264C2023202020202020202020202032363030203B46435F434B464E203B2020202020202020204231344431,
  0x43204C4C414D5320444C4F42204C41434954414D454854414D20202020202020264C2023202020202020202020202033363030203B46435F434B464E203B2020202020202020204331344431,
  0x44204C4C414D5320444C4F42204C41434954414D454854414D20202020202020264C2023202020202020202020202034363030203B46435F434B464E203B2020202020202020204431344431,
  0x45204C4C414D5320444C4F42204C41434954414D454854414D20202020202020264C2023202020202020202020202035363030203B46435F434B464E203B2020202020202020204531344431,
  0x46204C4C414D5320444C4F42204C41434954414D454854414D20202020202020264C2023202020202020202020202036363030203B46435F434B464E203B2020202020202020204631344431,
  0x47204C4C414D5320444C4F42204C41434954414D454854414D20202020202020264C2023202020202020202020202037363030203B46435F434B464E203B2020202020202020203032344431,
  0x48204C4C414D5320444C4F42204C41434954414D454854414D20202020202020264C2023202020202020202020202038363030203B46435F434B464E203B2020202020202020203132344431,
  0x49204C4C414D5320444C4F42204C41434954414D454854414D20202020202020264C2023202020202020202020202039363030203B46435F434B464E203B2020202020202020203232344431,
  0x4A204C4C414D5320444C4F42204C41434954414D454854414D20202020202020264C2023202020202020202020202041363030203B46435F434B464E203B2020202020202020203332344431,
  0x4B204C4C414D5320444C4F42204C41434954414D454854414D20202020202020264C2023202020202020202020202042363030203B46435F434B464E203B2020202020202020203432344431,
  0x4C204C4C414D5320444C4F42204C41434954414D454854414D20202020202020264C2023202020202020202020202043363030203B46435F434B464E203B2020202020202020203532344431,
  0x4D204C4C414D5320444C4F42204C41434954414D454854414D20202020202020264C2023202020202020202020202044363030203B46435F434B464E203B2020202020202020203632344431,
  0x4E204C4C414D5320444C4F42204C41434954414D454854414D20202020202020264C2023202020202020202020202045363030203B46435F434B464E203B2020202020202020203732344431,
  0x4F204C4C414D5320444C4F42204C41434954414D454854414D20202020202020264C2023202020202020202020202046363030203B46435F434B464E203B2020202020202020203832344431,
  0x50204C4C414D5320444C4F42204C41434954414D454854414D20202020202020264C2023202020202020202020202030373030203B46435F434B464E203B2020202020202020203932344431,
  0x51204C4C414D5320444C4F42204C41434954414D454854414D20202020202020264C2023202020202020202020202031373030203B46435F434B464E203B2020202020202020204132344431,
  0x52204C4C414D5320444C4F42204C41434954414D454854414D20202020202020264C2023202020202020202020202032373030203B46435F434B464E203B2020202020202020204232344431,
  0x53204C4C414D5320444C4F42204C41434954414D454854414D20202020202020264C2023202020202020202020202033373030203B46435F434B464E203B2020202020202020204332344431,
  0x54204C4C414D5320444C4F42204C41434954414D454854414D20202020202020264C2023202020202020202020202034373030203B46435F434B464E203B2020202020202020204432344431,
  0x55204C4C414D5320444C4F42204C41434954414D454854414D20202020202020264C2023202020202020202020202035373030203B46435F434B464E203B2020202020202020204532344431,
  0x56204C4C414D5320444C4F42204C41434954414D454854414D20202020202020264C2023202020202020202020202036373030203B46435F434B464E203B2020202020202020204632344431,
  0x57204C4C414D5320444C4F42204C41434954414D454854414D20202020202020264C2023202020202020202020202037373030203B46435F434B464E203B2020202020202020203033344431,
  0x58204C4C414D5320444C4F42204C41434954414D454854414D20202020202020264C2023202020202020202020202038373030203B46435F434B464E203B2020202020202020203133344431,
  0x59204C4C414D5320444C4F42204C41434954414D454854414D20202020202020264C2023202020202020202020202039373030203B46435F434B464E203B2020202020202020203233344431,
  0x5A204C4C414D5320444C4F42204C41434954414D454854414D20202020202020264C2023202020202020202020202041373030203B46435F434B464E203B2020202020202020203333344431,
  0x41204C4154495041432043494C415449204C41434954414D454854414D20202020202020264C2023202020202020202020202031363030203B46435F434B464E203B2020202020202020203433344431,
  0x42204C4154495041432043494C415449204C41434954414D454854414D20202020202020264C2023202020202020202020202032363030203B46435F434B464E203B2020202020202020203533344431,
  0x43204C4154495041432043494C415449204C41434954414D454854414D20202020202020264C2023202020202020202020202033363030203B46435F434B464E203B2020202020202020203633344431,
  0x44204C4154495041432043494C415449204C41434954414D454854414D20202020202020264C2023202020202020202020202034363030203B46435F434B464E203B2020202020202020203733344431,
  0x45204C4154495041432043494C415449204C41434954414D454854414D20202020202020264C2023202020202020202020202035363030203B46435F434B464E203B2020202020202020203833344431,
  0x46204C4154495041432043494C415449204C41434954414D454854414D20202020202020264C2023202020202020202020202036363030203B46435F434B464E203B2020202020202020203933344431,
  0x47204C4154495041432043494C415449204C41434954414D454854414D20202020202020264C2023202020202020202020202037363030203B46435F434B464E203B2020202020202020204133344431,
  0x48204C4154495041432043494C415449204C41434954414D454854414D20202020202020264C2023202020202020202020202038363030203B46435F434B464E203B2020202020202020204233344431,
  0x49204C4154495041432043494C415449204C41434954414D454854414D20202020202020264C2023202020202020202020202039363030203B46435F434B464E203B2020202020202020204333344431,
  0x4A204C4154495041432043494C415449204C41434954414D454854414D20202020202020264C2023202020202020202020202041363030203B46435F434B464E203B2020202020202020204433344431,
  0x4B204C4154495041432043494C415449204C41434954414D454854414D20202020202020264C2023202020202020202020202042363030203B46435F434B464E203B2020202020202020204533344431,
  0x4C204C4154495041432043494C415449204C41434954414D454854414D20202020202020264C2023202020202020202020202043363030203B46435F434B464E203B2020202020202020204633344431,
  0x4D204C4154495041432043494C415449204C41434954414D454854414D20202020202020264C2023202020202020202020202044363030203B46435F434B464E203B2020202020202020203034344431,
  0x4E204C4154495041432043494C415449204C41434954414D454854414D20202020202020264C2023202020202020202020202045363030203B46435F434B464E203B2020202020202020203134344431,
  0x4F204C4154495041432043494C415449204C41434954414D454854414D20202020202020264C2023202020202020202020202046363030203B46435F434B464E203B2020202020202020203234344431,
  0x50204C4154495041432043494C415449204C41434954414D454854414D20202020202020264C2023202020202020202020202030373030203B46435F434B464E203B2020202020202020203334344431,
  0x51204C4154495041432043494C415449204C41434954414D454854414D20202020202020264C2023202020202020202020202031373030203B46435F434B464E203B2020202020202020203434344431,
  0x52204C4154495041432043494C415449204C41434954414D454854414D20202020202020264C2023202020202020202020202032373030203B46435F434B464E203B2020202020202020203534344431,
  0x53204C4154495041432043494C415449204C41434954414D454854414D20202020202020264C2023202020202020202020202033373030203B46435F434B464E203B2020202020202020203634344431,
  0x54204C4154495041432043494C415449204C41434954414D454854414D20202020202020264C2023202020202020202020202034373030203B46435F434B464E203B2020202020202020203734344431,
  0x55204C4154495041432043494C415449204C41434954414D454854414D20202020202020264C2023202020202020202020202035373030203B46435F434B464E203B2020202020202020203834344431,
  0x56204C4154495041432043494C415449204C41434954414D454854414D20202020202020264C2023202020202020202020202036373030203B46435F434B464E203B2020202020202020203934344431,
  0x57204C4154495041432043494C415449204C41434954414D454854414D20202020202020264C2023202020202020202020202037373030203B46435F434B464E203B2020202020202020204134344431,
  0x58204C4154495041432043494C415449204C41434954414D454854414D20202020202020264C2023202020202020202020202038373030203B46435F434B464E203B2020202020202020204234344431,
  0x59204C4154495041432043494C415449204C41434954414D454854414D20202020202020264C2023202020202020202020202039373030203B46435F434B464E203B2020202020202020204334344431,
  0x5A204C4154495041432043494C415449204C41434954414D454854414D20202020202020264C2023202020202020202020202041373030203B46435F434B464E203B2020202020202020204434344431,
  0x41204C4C414D532043494C415449204C41434954414D454854414D20202020202020264C2023202020202020202020202031363030203B46435F434B464E203B2020202020202020204534344431,
  0x42204C4C414D532043494C415449204C41434954414D454854414D20202020202020264C2023202020202020202020202032363030203B46435F434B464E203B2020202020202020204634344431,
  0x43204C4C414D532043494C415449204C41434954414D454854414D20202020202020264C2023202020202020202020202033363030203B46435F434B464E203B2020202020202020203035344431,
  0x44204C4C414D532043494C415449204C41434954414D454854414D20202020202020264C2023202020202020202020202034363030203B46435F434B464E203B2020202020202020203135344431,
  0x45204C4C414D532043494C415449204C41434954414D454854414D20202020202020264C2023202020202020202020202035363030203B46435F434B464E203B2020202020202020203235344431,
  0x46204C4C414D532043494C415449204C41434954414D454854414D20202020202020264C2023202020202020202020202036363030203B46435F434B464E203B2020202020202020203335344431,
  0x47204C4C414D532043494C415449204C41434954414D454854414D20202020202020264C2023202020202020202020202037363030203B46435F434B464E203B2020202020202020203435344431,
  0x49204C4C414D532043494C415449204C41434954414D454854414D20202020202020264C2023202020202020202020202039363030203B46435F434B464E203B2020202020202020203635344431,
  0x4A204C4C414D532043494C415449204C41434954414D454854414D20202020202020264C2023202020202020202020202041363030203B46435F434B464E203B2020202020202020203735344431,
  0x4B204C4C414D532043494C415449204C41434954414D454854414D20202020202020264C2023202020202020202020202042363030203B46435F434B464E203B2020202020202020203835344431,
  0x4C204C4C414D532043494C415449204C41434954414D454854414D20202020202020264C2023202020202020202020202043363030203B46435F434B464E203B2020202020202020203935344431,
  0x4D204C4C414D532043494C415449204C41434954414D454854414D20202020202020264C2023202020202020202020202044363030203B46435F434B464E203B2020202020202020204135344431,
  0x4E204C4C414D532043494C415449204C41434954414D454854414D20202020202020264C2023202020202020202020202045363030203B46435F434B464E203B2020202020202020204235344431,
  0x4F204C4C414D532043494C415449204C41434954414D454854414D20202020202020264C2023202020202020202020202046363030203B46435F434B464E203B2020202020202020204335344431,
  0x50204C4C414D532043494C415449204C41434954414D454854414D20202020202020264C2023202020202020202020202030373030203B46435F434B464E203B2020202020202020204435344431,
  0x51204C4C414D532043494C415449204C41434954414D454854414D20202020202020264C2023202020202020202020202031373030203B46435F434B464E203B2020202020202020204535344431,
  0x52204C4C414D532043494C415449204C41434954414D454854414D20202020202020264C2023202020202020202020202032373030203B46435F434B464E203B2020202020202020204635344431,
  0x53204C4C414D532043494C415449204C41434954414D454854414D20202020202020264C2023202020202020202020202033373030203B46435F434B464E203B2020202020202020203036344431,
  0x54204C4C414D532043494C415449204C41434954414D454854414D20202020202020264C2023202020202020202020202034373030203B46435F434B464E203B2020202020202020203136344431,
  0x55204C4C414D532043494C415449204C41434954414D454854414D20202020202020264C2023202020202020202020202035373030203B46435F434B464E203B2020202020202020203236344431,
  0x56204C4C414D532043494C415449204C41434954414D454854414D20202020202020264C2023202020202020202020202036373030203B46435F434B464E203B2020202020202020203336344431,
  0x57204C4C414D532043494C415449204C41434954414D454854414D20202020202020264C2023202020202020202020202037373030203B46435F434B464E203B2020202020202020203436344431,
  0x58204C4C414D532043494C415449204C41434954414D454854414D20202020202020264C2023202020202020202020202038373030203B46435F434B464E203B2020202020202020203536344431,
  0x59204C4C414D532043494C415449204C41434954414D454854414D20202020202020264C2023202020202020202020202039373030203B46435F434B464E203B2020202020202020203636344431,
  0x5A204C4C414D532043494C415449204C41434954414D454854414D20202020202020264C2023202020202020202020202041373030203B46435F434B464E203B2020202020202020203736344431,
  0x41204C4154495041432043494C41544920444C4F42204C41434954414D454854414D20202020202020264C2023202020202020202020202031363030203B46435F434B464E203B2020202020202020203836344431,
  0x42204C4154495041432043494C41544920444C4F42204C41434954414D454854414D20202020202020264C2023202020202020202020202032363030203B46435F434B464E203B2020202020202020203936344431,
  0x43204C4154495041432043494C41544920444C4F42204C41434954414D454854414D20202020202020264C2023202020202020202020202033363030203B46435F434B464E203B2020202020202020204136344431,
  0x44204C4154495041432043494C41544920444C4F42204C41434954414D454854414D20202020202020264C2023202020202020202020202034363030203B46435F434B464E203B2020202020202020204236344431,
  0x45204C4154495041432043494C41544920444C4F42204C41434954414D454854414D20202020202020264C2023202020202020202020202035363030203B46435F434B464E203B2020202020202020204336344431,
  0x46204C4154495041432043494C41544920444C4F42204C41434954414D454854414D20202020202020264C2023202020202020202020202036363030203B46435F434B464E203B2020202020202020204436344431,
  0x47204C4154495041432043494C41544920444C4F42204C41434954414D454854414D20202020202020264C2023202020202020202020202037363030203B46435F434B464E203B2020202020202020204536344431,
  0x48204C4154495041432043494C41544920444C4F42204C41434954414D454854414D20202020202020264C2023202020202020202020202038363030203B46435F434B464E203B2020202020202020204636344431,
  0x49204C4154495041432043494C41544920444C4F42204C41434954414D454854414D20202020202020264C2023202020202020202020202039363030203B46435F434B464E203B2020202020202020203037344431,
  0x4A204C4154495041432043494C41544920444C4F42204C41434954414D454854414D20202020202020264C2023202020202020202020202041363030203B46435F434B464E203B2020202020202020203137344431,
  0x4B204C4154495041432043494C41544920444C4F42204C41434954414D454854414D20202020202020264C2023202020202020202020202042363030203B46435F434B464E203B2020202020202020203237344431,
  0x4C204C4154495041432043494C41544920444C4F42204C41434954414D454854414D20202020202020264C2023202020202020202020202043363030203B46435F434B464E203B2020202020202020203337344431,
  0x4D204C4154495041432043494C41544920444C4F42204C41434954414D454854414D20202020202020264C2023202020202020202020202044363030203B46435F434B464E203B2020202020202020203437344431,
  0x4E204C4154495041432043494C41544920444C4F42204C41434954414D454854414D20202020202020264C2023202020202020202020202045363030203B46435F434B464E203B2020202020202020203537344431,
  0x4F204C4154495041432043494C41544920444C4F42204C41434954414D454854414D20202020202020264C2023202020202020202020202046363030203B46435F434B464E203B2020202020202020203637344431,
  0x50204C4154495041432043494C41544920444C4F42204C41434954414D454854414D20202020202020264C2023202020202020202020202030373030203B46435F434B464E203B2020202020202020203737344431,
  0x51204C4154495041432043494C41544920444C4F42204C41434954414D454854414D20202020202020264C2023202020202020202020202031373030203B46435F434B464E203B2020202020202020203837344431,
  0x52204C4154495041432043494C41544920444C4F42204C41434954414D454854414D20202020202020264C2023202020202020202020202032373030203B46435F434B464E203B2020202020202020203937344431,
  0x53204C4154495041432043494C41544920444C4F42204C41434954414D454854414D20202020202020264C2023202020202020202020202033373030203B46435F434B464E203B2020202020202020204137344431,
  0x54204C4154495041432043494C41544920444C4F42204C41434954414D454854414D20202020202020264C2023202020202020202020202034373030203B46435F434B464E203B2020202020202020204237344431,
  0x55204C4154495041432043494C41544920444C4F42204C41434954414D454854414D20202020202020264C2023202020202020202020202035373030203B46435F434B464E203B2020202020202020204337344431,
  0x56204C4154495041432043494C41544920444C4F42204C41434954414D454854414D20202020202020264C2023202020202020202020202036373030203B46435F434B464E203B2020202020202020204437344431,
  0x57204C4154495041432043494C41544920444C4F42204C41434954414D454854414D20202020202020264C2023202020202020202020202037373030203B46435F434B464E203B2020202020202020204537344431,
  0x58204C4154495041432043494C41544920444C4F42204C41434954414D454854414D20202020202020264C2023202020202020202020202038373030203B46435F434B464E203B2020202020202020204637344431,
  0x59204C4154495041432043494C41544920444C4F42204C41434954414D454854414D20202020202020264C2023202020202020202020202039373030203B46435F434B464E203B2020202020202020203038344431,
  0x5A204C4154495041432043494C41544920444C4F42204C41434954414D454854414D20202020202020264C2023202020202020202020202041373030203B46435F434B464E203B2020202020202020203138344431,
  0x41204C4C414D532043494C41544920444C4F42204C41434954414D454854414D20202020202020264C2023202020202020202020202031363030203B46435F434B464E203B2020202020202020203238344431,
  0x42204C4C414D532043494C41544920444C4F42204C41434954414D454854414D20202020202020264C2023202020202020202020202032363030203B46435F434B464E203B2020202020202020203338344431,
  0x43204C4C414D532043494C41544920444C4F42204C41434954414D454854414D20202020202020264C2023202020202020202020202033363030203B46435F434B464E203B2020202020202020203438344431,
  0x44204C4C414D532043494C41544920444C4F42204C41434954414D454854414D20202020202020264C2023202020202020202020202034363030203B46435F434B464E203B2020202020202020203538344431,
  0x45204C4C414D532043494C41544920444C4F42204C41434954414D454854414D20202020202020264C2023202020202020202020202035363030203B46435F434B464E203B2020202020202020203638344431,
  0x46204C4C414D532043494C41544920444C4F42204C41434954414D454854414D20202020202020264C2023202020202020202020202036363030203B46435F434B464E203B2020202020202020203738344431,
  0x47204C4C414D532043494C41544920444C4F42204C41434954414D454854414D20202020202020264C2023202020202020202020202037363030203B46435F434B464E203B2020202020202020203838344431,
  0x48204C4C414D532043494C41544920444C4F42204C41434954414D454854414D20202020202020264C2023202020202020202020202038363030203B46435F434B464E203B2020202020202020203938344431,
  0x49204C4C414D532043494C41544920444C4F42204C41434954414D454854414D20202020202020264C2023202020202020202020202039363030203B46435F434B464E203B2020202020202020204138344431,
  0x4A204C4C414D532043494C41544920444C4F42204C41434954414D454854414D20202020202020264C2023202020202020202020202041363030203B46435F434B464E203B2020202020202020204238344431,
  0x4B204C4C414D532043494C41544920444C4F42204C41434954414D454854414D20202020202020264C2023202020202020202020202042363030203B46435F434B464E203B2020202020202020204338344431,
  0x4C204C4C414D532043494C41544920444C4F42204C41434954414D454854414D20202020202020264C2023202020202020202020202043363030203B46435F434B464E203B2020202020202020204438344431,
  0x4D204C4C414D532043494C41544920444C4F42204C41434954414D454854414D20202020202020264C2023202020202020202020202044363030203B46435F434B464E203B2020202020202020204538344431,
  0x4E204C4C414D532043494C41544920444C4F42204C41434954414D454854414D20202020202020264C2023202020202020202020202045363030203B46435F434B464E203B2020202020202020204638344431,
  0x4F204C4C414D532043494C41544920444C4F42204C41434954414D454854414D20202020202020264C2023202020202020202020202046363030203B46435F434B464E203B2020202020202020203039344431,
  0x50204C4C414D532043494C41544920444C4F42204C41434954414D454854414D20202020202020264C2023202020202020202020202030373030203B46435F434B464E203B2020202020202020203139344431,
  0x51204C4C414D532043494C41544920444C4F42204C41434954414D454854414D20202020202020264C2023202020202020202020202031373030203B46435F434B464E203B2020202020202020203239344431,
  0x52204C4C414D532043494C41544920444C4F42204C41434954414D454854414D20202020202020264C2023202020202020202020202032373030203B46435F434B464E203B2020202020202020203339344431,
  0x53204C4C414D532043494C41544920444C4F42204C41434954414D454854414D20202020202020264C2023202020202020202020202033373030203B46435F434B464E203B2020202020202020203439344431,
  0x54204C4C414D532043494C41544920444C4F42204C41434954414D454854414D20202020202020264C2023202020202020202020202034373030203B46435F434B464E203B2020202020202020203539344431,
  0x55204C4C414D532043494C41544920444C4F42204C41434954414D454854414D20202020202020264C2023202020202020202020202035373030203B46435F434B464E203B2020202020202020203639344431,
  0x56204C4C414D532043494C41544920444C4F42204C41434954414D454854414D20202020202020264C2023202020202020202020202036373030203B46435F434B464E203B2020202020202020203739344431,
  0x57204C4C414D532043494C41544920444C4F42204C41434954414D454854414D20202020202020264C2023202020202020202020202037373030203B46435F434B464E203B2020202020202020203839344431,
  0x58204C4C414D532043494C41544920444C4F42204C41434954414D454854414D20202020202020264C2023202020202020202020202038373030203B46435F434B464E203B2020202020202020203939344431,
  0x59204C4C414D532043494C41544920444C4F42204C41434954414D454854414D20202020202020264C2023202020202020202020202039373030203B46435F434B464E203B2020202020202020204139344431,
  0x5A204C4C414D532043494C41544920444C4F42204C41434954414D454854414D20202020202020264C2023202020202020202020202041373030203B46435F434B464E203B2020202020202020204239344431,
  0x41204C41544950414320545049524353204C41434954414D454854414D20202020202020264C2023202020202020202020202031363030203B46435F434B464E203B2020202020202020204339344431,
  0x43204C41544950414320545049524353204C41434954414D454854414D20202020202020264C2023202020202020202020202033363030203B46435F434B464E203B2020202020202020204539344431,
  0x44204C41544950414320545049524353204C41434954414D454854414D20202020202020264C2023202020202020202020202034363030203B46435F434B464E203B2020202020202020204639344431,
  0x47204C41544950414320545049524353204C41434954414D454854414D20202020202020264C2023202020202020202020202037363030203B46435F434B464E203B2020202020202020203241344431,
  0x4A204C41544950414320545049524353204C41434954414D454854414D20202020202020264C2023202020202020202020202041363030203B46435F434B464E203B2020202020202020203541344431,
  0x4B204C41544950414320545049524353204C41434954414D454854414D20202020202020264C2023202020202020202020202042363030203B46435F434B464E203B2020202020202020203641344431,
  0x4E204C41544950414320545049524353204C41434954414D454854414D20202020202020264C2023202020202020202020202045363030203B46435F434B464E203B2020202020202020203941344431,
  0x4F204C41544950414320545049524353204C41434954414D454854414D20202020202020264C2023202020202020202020202046363030203B46435F434B464E203B2020202020202020204141344431,
  0x50204C41544950414320545049524353204C41434954414D454854414D20202020202020264C2023202020202020202020202030373030203B46435F434B464E203B2020202020202020204241344431,
  0x51204C41544950414320545049524353204C41434954414D454854414D20202020202020264C2023202020202020202020202031373030203B46435F434B464E203B2020202020202020204341344431,
  0x53204C41544950414320545049524353204C41434954414D454854414D20202020202020264C2023202020202020202020202033373030203B46435F434B464E203B2020202020202020204541344431,
  0x54204C41544950414320545049524353204C41434954414D454854414D20202020202020264C2023202020202020202020202034373030203B46435F434B464E203B2020202020202020204641344431,
  0x55204C41544950414320545049524353204C41434954414D454854414D20202020202020264C2023202020202020202020202035373030203B46435F434B464E203B2020202020202020203042344431,
  0x56204C41544950414320545049524353204C41434954414D454854414D20202020202020264C2023202020202020202020202036373030203B46435F434B464E203B2020202020202020203142344431,
  0x57204C41544950414320545049524353204C41434954414D454854414D20202020202020264C2023202020202020202020202037373030203B46435F434B464E203B2020202020202020203242344431,
  0x58204C41544950414320545049524353204C41434954414D454854414D20202020202020264C2023202020202020202020202038373030203B46435F434B464E203B2020202020202020203342344431,
  0x59204C41544950414320545049524353204C41434954414D454854414D20202020202020264C2023202020202020202020202039373030203B46435F434B464E203B2020202020202020203442344431,
  0x5A204C41544950414320545049524353204C41434954414D454854414D20202020202020264C2023202020202020202020202041373030203B46435F434B464E203B2020202020202020203542344431,
  0x41204C4C414D5320545049524353204C41434954414D454854414D20202020202020264C2023202020202020202020202031363030203B46435F434B464E203B2020202020202020203642344431,
  0x42204C4C414D5320545049524353204C41434954414D454854414D20202020202020264C2023202020202020202020202032363030203B46435F434B464E203B2020202020202020203742344431,
  0x43204C4C414D5320545049524353204C41434954414D454854414D20202020202020264C2023202020202020202020202033363030203B46435F434B464E203B2020202020202020203842344431,
  0x44204C4C414D5320545049524353204C41434954414D454854414D20202020202020264C2023202020202020202020202034363030203B46435F434B464E203B2020202020202020203942344431,
  0x46204C4C414D5320545049524353204C41434954414D454854414D20202020202020264C2023202020202020202020202036363030203B46435F434B464E203B2020202020202020204242344431,
  0x48204C4C414D5320545049524353204C41434954414D454854414D20202020202020264C2023202020202020202020202038363030203B46435F434B464E203B2020202020202020204442344431,
  0x49204C4C414D5320545049524353204C41434954414D454854414D20202020202020264C2023202020202020202020202039363030203B46435F434B464E203B2020202020202020204542344431,
  0x4A204C4C414D5320545049524353204C41434954414D454854414D20202020202020264C2023202020202020202020202041363030203B46435F434B464E203B2020202020202020204642344431,
  0x4B204C4C414D5320545049524353204C41434954414D454854414D20202020202020264C2023202020202020202020202042363030203B46435F434B464E203B2020202020202020203043344431,
  0x4C204C4C414D5320545049524353204C41434954414D454854414D20202020202020264C2023202020202020202020202043363030203B46435F434B464E203B2020202020202020203143344431,
  0x4D204C4C414D5320545049524353204C41434954414D454854414D20202020202020264C2023202020202020202020202044363030203B46435F434B464E203B2020202020202020203243344431,
  0x4E204C4C414D5320545049524353204C41434954414D454854414D20202020202020264C2023202020202020202020202045363030203B46435F434B464E203B2020202020202020203343344431,
  0x50204C4C414D5320545049524353204C41434954414D454854414D20202020202020264C2023202020202020202020202030373030203B46435F434B464E203B2020202020202020203543344431,
  0x51204C4C414D5320545049524353204C41434954414D454854414D20202020202020264C2023202020202020202020202031373030203B46435F434B464E203B2020202020202020203643344431,
  0x52204C4C414D5320545049524353204C41434954414D454854414D20202020202020264C2023202020202020202020202032373030203B46435F434B464E203B2020202020202020203743344431,
  0x53204C4C414D5320545049524353204C41434954414D454854414D20202020202020264C2023202020202020202020202033373030203B46435F434B464E203B2020202020202020203843344431,
  0x54204C4C414D5320545049524353204C41434954414D454854414D20202020202020264C2023202020202020202020202034373030203B46435F434B464E203B2020202020202020203943344431,
  0x55204C4C414D5320545049524353204C41434954414D454854414D20202020202020264C2023202020202020202020202035373030203B46435F434B464E203B2020202020202020204143344431,
  0x56204C4C414D5320545049524353204C41434954414D454854414D20202020202020264C2023202020202020202020202036373030203B46435F434B464E203B2020202020202020204243344431,
  0x57204C4C414D5320545049524353204C41434954414D454854414D20202020202020264C2023202020202020202020202037373030203B46435F434B464E203B2020202020202020204343344431,
  0x58204C4C414D5320545049524353204C41434954414D454854414D20202020202020264C2023202020202020202020202038373030203B46435F434B464E203B2020202020202020204443344431,
  0x59204C4C414D5320545049524353204C41434954414D454854414D20202020202020264C2023202020202020202020202039373030203B46435F434B464E203B2020202020202020204543344431,
  0x5A204C4C414D5320545049524353204C41434954414D454854414D20202020202020264C2023202020202020202020202041373030203B46435F434B464E203B2020202020202020204643344431,
  0x41204C4154495041432054504952435320444C4F42204C41434954414D454854414D20202020202020264C2023202020202020202020202031363030203B46435F434B464E203B2020202020202020203044344431,
  0x42204C4154495041432054504952435320444C4F42204C41434954414D454854414D20202020202020264C2023202020202020202020202032363030203B46435F434B464E203B2020202020202020203144344431,
  0x43204C4154495041432054504952435320444C4F42204C41434954414D454854414D20202020202020264C2023202020202020202020202033363030203B46435F434B464E203B2020202020202020203244344431,
  0x44204C4154495041432054504952435320444C4F42204C41434954414D454854414D20202020202020264C2023202020202020202020202034363030203B46435F434B464E203B2020202020202020203344344431,
  0x45204C4154495041432054504952435320444C4F42204C41434954414D454854414D20202020202020264C2023202020202020202020202035363030203B46435F434B464E203B2020202020202020203444344431,
  0x46204C4154495041432054504952435320444C4F42204C41434954414D454854414D20202020202020264C2023202020202020202020202036363030203B46435F434B464E203B2020202020202020203544344431,
  0x47204C4154495041432054504952435320444C4F42204C41434954414D454854414D20202020202020264C2023202020202020202020202037363030203B46435F434B464E203B2020202020202020203644344431,
  0x48204C4154495041432054504952435320444C4F42204C41434954414D454854414D20202020202020264C2023202020202020202020202038363030203B46435F434B464E203B2020202020202020203744344431,
  0x49204C4154495041432054504952435320444C4F42204C41434954414D454854414D20202020202020264C2023202020202020202020202039363030203B46435F434B464E203B2020202020202020203844344431,
  0x4A204C4154495041432054504952435320444C4F42204C41434954414D454854414D20202020202020264C2023202020202020202020202041363030203B46435F434B464E203B2020202020202020203944344431,
  0x4B204C4154495041432054504952435320444C4F42204C41434954414D454854414D20202020202020264C2023202020202020202020202042363030203B46435F434B464E203B2020202020202020204144344431,
  0x4C204C4154495041432054504952435320444C4F42204C41434954414D454854414D20202020202020264C2023202020202020202020202043363030203B46435F434B464E203B2020202020202020204244344431,
  0x4D204C4154495041432054504952435320444C4F42204C41434954414D454854414D20202020202020264C2023202020202020202020202044363030203B46435F434B464E203B2020202020202020204344344431,
  0x4E204C4154495041432054504952435320444C4F42204C41434954414D454854414D20202020202020264C2023202020202020202020202045363030203B46435F434B464E203B2020202020202020204444344431,
  0x4F204C4154495041432054504952435320444C4F42204C41434954414D454854414D20202020202020264C2023202020202020202020202046363030203B46435F434B464E203B2020202020202020204544344431,
  0x50204C4154495041432054504952435320444C4F42204C41434954414D454854414D20202020202020264C2023202020202020202020202030373030203B46435F434B464E203B2020202020202020204644344431,
  0x51204C4154495041432054504952435320444C4F42204C41434954414D454854414D20202020202020264C2023202020202020202020202031373030203B46435F434B464E203B2020202020202020203045344431,
  0x52204C4154495041432054504952435320444C4F42204C41434954414D454854414D20202020202020264C2023202020202020202020202032373030203B46435F434B464E203B2020202020202020203145344431,
  0x53204C4154495041432054504952435320444C4F42204C41434954414D454854414D20202020202020264C2023202020202020202020202033373030203B46435F434B464E203B2020202020202020203245344431,
  0x54204C4154495041432054504952435320444C4F42204C41434954414D454854414D20202020202020264C2023202020202020202020202034373030203B46435F434B464E203B2020202020202020203345344431,
  0x55204C4154495041432054504952435320444C4F42204C41434954414D454854414D20202020202020264C2023202020202020202020202035373030203B46435F434B464E203B2020202020202020203445344431,
  0x56204C4154495041432054504952435320444C4F42204C41434954414D454854414D20202020202020264C2023202020202020202020202036373030203B46435F434B464E203B2020202020202020203545344431,
  0x57204C4154495041432054504952435320444C4F42204C41434954414D454854414D20202020202020264C2023202020202020202020202037373030203B46435F434B464E203B2020202020202020203645344431,
  0x58204C4154495041432054504952435320444C4F42204C41434954414D454854414D20202020202020264C2023202020202020202020202038373030203B46435F434B464E203B2020202020202020203745344431,
  0x59204C4154495041432054504952435320444C4F42204C41434954414D454854414D20202020202020264C2023202020202020202020202039373030203B46435F434B464E203B2020202020202020203845344431,
  0x5A204C4154495041432054504952435320444C4F42204C41434954414D454854414D20202020202020264C2023202020202020202020202041373030203B46435F434B464E203B2020202020202020203945344431,
  0x41204C4C414D532054504952435320444C4F42204C41434954414D454854414D20202020202020264C2023202020202020202020202031363030203B46435F434B464E203B2020202020202020204145344431,
  0x42204C4C414D532054504952435320444C4F42204C41434954414D454854414D20202020202020264C2023202020202020202020202032363030203B46435F434B464E203B2020202020202020204245344431,
  0x43204C4C414D532054504952435320444C4F42204C41434954414D454854414D20202020202020264C2023202020202020202020202033363030203B46435F434B464E203B2020202020202020204345344431,
  0x44204C4C414D532054504952435320444C4F42204C41434954414D454854414D20202020202020264C2023202020202020202020202034363030203B46435F434B464E203B2020202020202020204445344431,
  0x45204C4C414D532054504952435320444C4F42204C41434954414D454854414D20202020202020264C2023202020202020202020202035363030203B46435F434B464E203B2020202020202020204545344431,
  0x46204C4C414D532054504952435320444C4F42204C41434954414D454854414D20202020202020264C2023202020202020202020202036363030203B46435F434B464E203B2020202020202020204645344431,
  0x47204C4C414D532054504952435320444C4F42204C41434954414D454854414D20202020202020264C2023202020202020202020202037363030203B46435F434B464E203B2020202020202020203046344431,
  0x48204C4C414D532054504952435320444C4F42204C41434954414D454854414D20202020202020264C2023202020202020202020202038363030203B46435F434B464E203B2020202020202020203146344431,
  0x49204C4C414D532054504952435320444C4F42204C41434954414D454854414D20202020202020264C2023202020202020202020202039363030203B46435F434B464E203B2020202020202020203246344431,
  0x4A204C4C414D532054504952435320444C4F42204C41434954414D454854414D20202020202020264C2023202020202020202020202041363030203B46435F434B464E203B2020202020202020203346344431,
  0x4B204C4C414D532054504952435320444C4F42204C41434954414D454854414D20202020202020264C2023202020202020202020202042363030203B46435F434B464E203B2020202020202020203446344431,
  0x4C204C4C414D532054504952435320444C4F42204C41434954414D454854414D20202020202020264C2023202020202020202020202043363030203B46435F434B464E203B2020202020202020203546344431,
  0x4D204C4C414D532054504952435320444C4F42204C41434954414D454854414D20202020202020264C2023202020202020202020202044363030203B46435F434B464E203B2020202020202020203646344431,
  0x4E204C4C414D532054504952435320444C4F42204C41434954414D454854414D20202020202020264C2023202020202020202020202045363030203B46435F434B464E203B2020202020202020203746344431,
  0x4F204C4C414D532054504952435320444C4F42204C41434954414D454854414D20202020202020264C2023202020202020202020202046363030203B46435F434B464E203B2020202020202020203846344431,
  0x50204C4C414D532054504952435320444C4F42204C41434954414D454854414D20202020202020264C2023202020202020202020202030373030203B46435F434B464E203B2020202020202020203946344431,
  0x51204C4C414D532054504952435320444C4F42204C41434954414D454854414D20202020202020264C2023202020202020202020202031373030203B46435F434B464E203B2020202020202020204146344431,
  0x52204C4C414D532054504952435320444C4F42204C41434954414D454854414D20202020202020264C2023202020202020202020202032373030203B46435F434B464E203B2020202020202020204246344431,
  0x53204C4C414D532054504952435320444C4F42204C41434954414D454854414D20202020202020264C2023202020202020202020202033373030203B46435F434B464E203B2020202020202020204346344431,
  0x54204C4C414D532054504952435320444C4F42204C41434954414D454854414D20202020202020264C2023202020202020202020202034373030203B46435F434B464E203B2020202020202020204446344431,
  0x55204C4C414D532054504952435320444C4F42204C41434954414D454854414D20202020202020264C2023202020202020202020202035373030203B46435F434B464E203B2020202020202020204546344431,
  0x56204C4C414D532054504952435320444C4F42204C41434954414D454854414D20202020202020264C2023202020202020202020202036373030203B46435F434B464E203B2020202020202020204646344431,
  0x57204C4C414D532054504952435320444C4F42204C41434954414D454854414D20202020202020264C2023202020202020202020202037373030203B46435F434B464E203B2020202020202020203030354431,
  0x58204C4C414D532054504952435320444C4F42204C41434954414D454854414D20202020202020264C2023202020202020202020202038373030203B46435F434B464E203B2020202020202020203130354431,
  0x59204C4C414D532054504952435320444C4F42204C41434954414D454854414D20202020202020264C2023202020202020202020202039373030203B46435F434B464E203B2020202020202020203230354431,
  0x5A204C4C414D532054504952435320444C4F42204C41434954414D454854414D20202020202020264C2023202020202020202020202041373030203B46435F434B464E203B2020202020202020203330354431,
  0x41204C415449504143205255544B415246204C41434954414D454854414D20202020202020264C2023202020202020202020202031363030203B46435F434B464E203B2020202020202020203430354431,
  0x42204C415449504143205255544B415246204C41434954414D454854414D20202020202020264C2023202020202020202020202032363030203B46435F434B464E203B2020202020202020203530354431,
  0x44204C415449504143205255544B415246204C41434954414D454854414D20202020202020264C2023202020202020202020202034363030203B46435F434B464E203B2020202020202020203730354431,
  0x45204C415449504143205255544B415246204C41434954414D454854414D20202020202020264C2023202020202020202020202035363030203B46435F434B464E203B2020202020202020203830354431,
  0x46204C415449504143205255544B415246204C41434954414D454854414D20202020202020264C2023202020202020202020202036363030203B46435F434B464E203B2020202020202020203930354431,
  0x47204C415449504143205255544B415246204C41434954414D454854414D20202020202020264C2023202020202020202020202037363030203B46435F434B464E203B2020202020202020204130354431,
  0x4A204C415449504143205255544B415246204C41434954414D454854414D20202020202020264C2023202020202020202020202041363030203B46435F434B464E203B2020202020202020204430354431,
  0x4B204C415449504143205255544B415246204C41434954414D454854414D20202020202020264C2023202020202020202020202042363030203B46435F434B464E203B2020202020202020204530354431,
  0x4C204C415449504143205255544B415246204C41434954414D454854414D20202020202020264C2023202020202020202020202043363030203B46435F434B464E203B2020202020202020204630354431,
  0x4D204C415449504143205255544B415246204C41434954414D454854414D20202020202020264C2023202020202020202020202044363030203B46435F434B464E203B2020202020202020203031354431,
  0x4E204C415449504143205255544B415246204C41434954414D454854414D20202020202020264C2023202020202020202020202045363030203B46435F434B464E203B2020202020202020203131354431,
  0x4F204C415449504143205255544B415246204C41434954414D454854414D20202020202020264C2023202020202020202020202046363030203B46435F434B464E203B2020202020202020203231354431,
  0x50204C415449504143205255544B415246204C41434954414D454854414D20202020202020264C2023202020202020202020202030373030203B46435F434B464E203B2020202020202020203331354431,
  0x51204C415449504143205255544B415246204C41434954414D454854414D20202020202020264C2023202020202020202020202031373030203B46435F434B464E203B2020202020202020203431354431,
  0x53204C415449504143205255544B415246204C41434954414D454854414D20202020202020264C2023202020202020202020202033373030203B46435F434B464E203B2020202020202020203631354431,
  0x54204C415449504143205255544B415246204C41434954414D454854414D20202020202020264C2023202020202020202020202034373030203B46435F434B464E203B2020202020202020203731354431,
  0x55204C415449504143205255544B415246204C41434954414D454854414D20202020202020264C2023202020202020202020202035373030203B46435F434B464E203B2020202020202020203831354431,
  0x56204C415449504143205255544B415246204C41434954414D454854414D20202020202020264C2023202020202020202020202036373030203B46435F434B464E203B2020202020202020203931354431,
  0x57204C415449504143205255544B415246204C41434954414D454854414D20202020202020264C2023202020202020202020202037373030203B46435F434B464E203B2020202020202020204131354431,
  0x58204C415449504143205255544B415246204C41434954414D454854414D20202020202020264C2023202020202020202020202038373030203B46435F434B464E203B2020202020202020204231354431,
  0x59204C415449504143205255544B415246204C41434954414D454854414D20202020202020264C2023202020202020202020202039373030203B46435F434B464E203B2020202020202020204331354431,
  0x41204C4C414D53205255544B415246204C41434954414D454854414D20202020202020264C2023202020202020202020202031363030203B46435F434B464E203B2020202020202020204531354431,
  0x42204C4C414D53205255544B415246204C41434954414D454854414D20202020202020264C2023202020202020202020202032363030203B46435F434B464E203B2020202020202020204631354431,
  0x43204C4C414D53205255544B415246204C41434954414D454854414D20202020202020264C2023202020202020202020202033363030203B46435F434B464E203B2020202020202020203032354431,
  0x44204C4C414D53205255544B415246204C41434954414D454854414D20202020202020264C2023202020202020202020202034363030203B46435F434B464E203B2020202020202020203132354431]

def qcText29 : List Nat := [
  0x45204C4C414D53205255544B415246204C41434954414D454854414D20202020202020264C2023202020202020202020202035363030203B46435F434B464E203B2020202020202020203232354431,
  0x46204C4C414D53205255544B415246204C41434954414D454854414D20202020202020264C2023202020202020202020202036363030203B46435F434B464E203B2020202020202020203332354431,
  0x47204C4C414D53205255544B415246204C41434954414D454854414D20202020202020264C2023202020202020202020202037363030203B46435F434B464E203B2020202020202020203432354431,
  0x48204C4C414D53205255544B415246204C41434954414D454854414D20202020202020264C2023202020202020202020202038363030203B46435F434B464E203B2020202020202020203532354431,
  0x49204C4C414D53205255544B415246204C41434954414D454854414D20202020202020264C2023202020202020202020202039363030203B46435F434B464E203B2020202020202020203632354431,
  0x4A204C4C414D53205255544B415246204C41434954414D454854414D20202020202020264C2023202020202020202020202041363030203B46435F434B464E203B2020202020202020203732354431,
  0x4B204C4C414D53205255544B415246204C41434954414D454854414D20202020202020264C2023202020202020202020202042363030203B46435F434B464E203B2020202020202020203832354431,
  0x4C204C4C414D53205255544B415246204C41434954414D454854414D20202020202020264C2023202020202020202020202043363030203B46435F434B464E203B2020202020202020203932354431,
  0x4D204C4C414D53205255544B415246204C41434954414D454854414D20202020202020264C2023202020202020202020202044363030203B46435F434B464E203B2020202020202020204132354431,
  0x4E204C4C414D53205255544B415246204C41434954414D454854414D20202020202020264C2023202020202020202020202045363030203B46435F434B464E203B2020202020202020204232354431,
  0x4F204C4C414D53205255544B415246204C41434954414D454854414D20202020202020264C2023202020202020202020202046363030203B46435F434B464E203B2020202020202020204332354431,
  0x50204C4C414D53205255544B415246204C41434954414D454854414D20202020202020264C2023202020202020202020202030373030203B46435F434B464E203B2020202020202020204432354431,
  0x51204C4C414D53205255544B415246204C41434954414D454854414D20202020202020264C2023202020202020202020202031373030203B46435F434B464E203B2020202020202020204532354431,
  0x52204C4C414D53205255544B415246204C41434954414D454854414D20202020202020264C2023202020202020202020202032373030203B46435F434B464E203B2020202020202020204632354431,
  0x53204C4C414D53205255544B415246204C41434954414D454854414D20202020202020264C2023202020202020202020202033373030203B46435F434B464E203B2020202020202020203033354431,
  0x54204C4C414D53205255544B415246204C41434954414D454854414D20202020202020264C2023202020202020202020202034373030203B46435F434B464E203B2020202020202020203133354431,
  0x55204C4C414D53205255544B415246204C41434954414D454854414D20202020202020264C2023202020202020202020202035373030203B46435F434B464E203B2020202020202020203233354431,
  0x56204C4C414D53205255544B415246204C41434954414D454854414D20202020202020264C2023202020202020202020202036373030203B46435F434B464E203B2020202020202020203333354431,
  0x57204C4C414D53205255544B415246204C41434954414D454854414D20202020202020264C2023202020202020202020202037373030203B46435F434B464E203B2020202020202020203433354431,
  0x58204C4C414D53205255544B415246204C41434954414D454854414D20202020202020264C2023202020202020202020202038373030203B46435F434B464E203B2020202020202020203533354431,
  0x59204C4C414D53205255544B415246204C41434954414D454854414D20202020202020264C2023202020202020202020202039373030203B46435F434B464E203B2020202020202020203633354431,
  0x5A204C4C414D53205255544B415246204C41434954414D454854414D20202020202020264C2023202020202020202020202041373030203B46435F434B464E203B2020202020202020203733354431,
  0x41204C415449504143204B43555254532D454C42554F44204C41434954414D454854414D20202020202020264C2023202020202020202020202031363030203B46435F434B464E203B2020202020202020203833354431,
  0x42204C415449504143204B43555254532D454C42554F44204C41434954414D454854414D20202020202020264C2023202020202020202020202032363030203B46435F434B464E203B2020202020202020203933354431,
  0x44204C415449504143204B43555254532D454C42554F44204C41434954414D454854414D20202020202020264C2023202020202020202020202034363030203B46435F434B464E203B2020202020202020204233354431,
  0x45204C415449504143204B43555254532D454C42554F44204C41434954414D454854414D20202020202020264C2023202020202020202020202035363030203B46435F434B464E203B2020202020202020204333354431,
  0x46204C415449504143204B43555254532D454C42554F44204C41434954414D454854414D20202020202020264C2023202020202020202020202036363030203B46435F434B464E203B2020202020202020204433354431,
  0x47204C415449504143204B43555254532D454C42554F44204C41434954414D454854414D20202020202020264C2023202020202020202020202037363030203B46435F434B464E203B2020202020202020204533354431,
  0x49204C415449504143204B43555254532D454C42554F44204C41434954414D454854414D20202020202020264C2023202020202020202020202039363030203B46435F434B464E203B2020202020202020203034354431,
  0x4A204C415449504143204B43555254532D454C42554F44204C41434954414D454854414D20202020202020264C2023202020202020202020202041363030203B46435F434B464E203B2020202020202020203134354431,
  0x4B204C415449504143204B43555254532D454C42554F44204C41434954414D454854414D20202020202020264C2023202020202020202020202042363030203B46435F434B464E203B2020202020202020203234354431,
  0x4C204C415449504143204B43555254532D454C42554F44204C41434954414D454854414D20202020202020264C2023202020202020202020202043363030203B46435F434B464E203B2020202020202020203334354431,
  0x4D204C415449504143204B43555254532D454C42554F44204C41434954414D454854414D20202020202020264C2023202020202020202020202044363030203B46435F434B464E203B2020202020202020203434354431,
  0x4F204C415449504143204B43555254532D454C42554F44204C41434954414D454854414D20202020202020264C2023202020202020202020202046363030203B46435F434B464E203B2020202020202020203634354431,
  0x53204C415449504143204B43555254532D454C42554F44204C41434954414D454854414D20202020202020264C2023202020202020202020202033373030203B46435F434B464E203B2020202020202020204134354431,
  0x54204C415449504143204B43555254532D454C42554F44204C41434954414D454854414D20202020202020264C2023202020202020202020202034373030203B46435F434B464E203B2020202020202020204234354431,
  0x55204C415449504143204B43555254532D454C42554F44204C41434954414D454854414D20202020202020264C2023202020202020202020202035373030203B46435F434B464E203B2020202020202020204334354431,
  0x56204C415449504143204B43555254532D454C42554F44204C41434954414D454854414D20202020202020264C2023202020202020202020202036373030203B46435F434B464E203B2020202020202020204434354431,
  0x57204C415449504143204B43555254532D454C42554F44204C41434954414D454854414D20202020202020264C2023202020202020202020202037373030203B46435F434B464E203B2020202020202020204534354431,
  0x58204C415449504143204B43555254532D454C42554F44204C41434954414D454854414D20202020202020264C2023202020202020202020202038373030203B46435F434B464E203B2020202020202020204634354431,
  0x59204C415449504143204B43555254532D454C42554F44204C41434954414D454854414D20202020202020264C2023202020202020202020202039373030203B46435F434B464E203B2020202020202020203035354431,
  0x41204C4C414D53204B43555254532D454C42554F44204C41434954414D454854414D20202020202020264C2023202020202020202020202031363030203B46435F434B464E203B2020202020202020203235354431,
  0x42204C4C414D53204B43555254532D454C42554F44204C41434954414D454854414D20202020202020264C2023202020202020202020202032363030203B46435F434B464E203B2020202020202020203335354431,
  0x43204C4C414D53204B43555254532D454C42554F44204C41434954414D454854414D20202020202020264C2023202020202020202020202033363030203B46435F434B464E203B2020202020202020203435354431,
  0x44204C4C414D53204B43555254532D454C42554F44204C41434954414D454854414D20202020202020264C2023202020202020202020202034363030203B46435F434B464E203B2020202020202020203535354431,
  0x45204C4C414D53204B43555254532D454C42554F44204C41434954414D454854414D20202020202020264C2023202020202020202020202035363030203B46435F434B464E203B2020202020202020203635354431,
  0x46204C4C414D53204B43555254532D454C42554F44204C41434954414D454854414D20202020202020264C2023202020202020202020202036363030203B46435F434B464E203B2020202020202020203735354431,
  0x47204C4C414D53204B43555254532D454C42554F44204C41434954414D454854414D20202020202020264C2023202020202020202020202037363030203B46435F434B464E203B2020202020202020203835354431,
  0x48204C4C414D53204B43555254532D454C42554F44204C41434954414D454854414D20202020202020264C2023202020202020202020202038363030203B46435F434B464E203B2020202020202020203935354431,
  0x49204C4C414D53204B43555254532D454C42554F44204C41434954414D454854414D20202020202020264C2023202020202020202020202039363030203B46435F434B464E203B2020202020202020204135354431,
  0x4A204C4C414D53204B43555254532D454C42554F44204C41434954414D454854414D20202020202020264C2023202020202020202020202041363030203B46435F434B464E203B2020202020202020204235354431,
  0x4B204C4C414D53204B43555254532D454C42554F44204C41434954414D454854414D20202020202020264C2023202020202020202020202042363030203B46435F434B464E203B2020202020202020204335354431,
  0x4C204C4C414D53204B43555254532D454C42554F44204C41434954414D454854414D20202020202020264C2023202020202020202020202043363030203B46435F434B464E203B2020202020202020204435354431,
  0x4D204C4C414D53204B43555254532D454C42554F44204C41434954414D454854414D20202020202020264C2023202020202020202020202044363030203B46435F434B464E203B2020202020202020204535354431,
  0x4E204C4C414D53204B43555254532D454C42554F44204C41434954414D454854414D20202020202020264C2023202020202020202020202045363030203B46435F434B464E203B2020202020202020204635354431,
  0x4F204C4C414D53204B43555254532D454C42554F44204C41434954414D454854414D20202020202020264C2023202020202020202020202046363030203B46435F434B464E203B2020202020202020203036354431,
  0x50204C4C414D53204B43555254532D454C42554F44204C41434954414D454854414D20202020202020264C2023202020202020202020202030373030203B46435F434B464E203B2020202020202020203136354431,
  0x51204C4C414D53204B43555254532D454C42554F44204C41434954414D454854414D20202020202020264C2023202020202020202020202031373030203B46435F434B464E203B2020202020202020203236354431,
  0x52204C4C414D53204B43555254532D454C42554F44204C41434954414D454854414D20202020202020264C2023202020202020202020202032373030203B46435F434B464E203B2020202020202020203336354431,
  0x53204C4C414D53204B43555254532D454C42554F44204C41434954414D454854414D20202020202020264C2023202020202020202020202033373030203B46435F434B464E203B2020202020202020203436354431,
  0x54204C4C414D53204B43555254532D454C42554F44204C41434954414D454854414D20202020202020264C2023202020202020202020202034373030203B46435F434B464E203B2020202020202020203536354431,
  0x55204C4C414D53204B43555254532D454C42554F44204C41434954414D454854414D20202020202020264C2023202020202020202020202035373030203B46435F434B464E203B2020202020202020203636354431,
  0x56204C4C414D53204B43555254532D454C42554F44204C41434954414D454854414D20202020202020264C2023202020202020202020202036373030203B46435F434B464E203B2020202020202020203736354431,
  0x57204C4C414D53204B43555254532D454C42554F44204C41434954414D454854414D20202020202020264C2023202020202020202020202037373030203B46435F434B464E203B2020202020202020203836354431,
  0x58204C4C414D53204B43555254532D454C42554F44204C41434954414D454854414D20202020202020264C2023202020202020202020202038373030203B46435F434B464E203B2020202020202020203936354431,
  0x59204C4C414D53204B43555254532D454C42554F44204C41434954414D454854414D20202020202020264C2023202020202020202020202039373030203B46435F434B464E203B2020202020202020204136354431,
  0x5A204C4C414D53204B43555254532D454C42554F44204C41434954414D454854414D20202020202020264C2023202020202020202020202041373030203B46435F434B464E203B2020202020202020204236354431,
  0x41204C415449504143205255544B41524620444C4F42204C41434954414D454854414D20202020202020264C2023202020202020202020202031363030203B46435F434B464E203B2020202020202020204336354431,
  0x42204C415449504143205255544B41524620444C4F42204C41434954414D454854414D20202020202020264C2023202020202020202020202032363030203B46435F434B464E203B2020202020202020204436354431,
  0x43204C415449504143205255544B41524620444C4F42204C41434954414D454854414D20202020202020264C2023202020202020202020202033363030203B46435F434B464E203B2020202020202020204536354431,
  0x44204C415449504143205255544B41524620444C4F42204C41434954414D454854414D20202020202020264C2023202020202020202020202034363030203B46435F434B464E203B2020202020202020204636354431,
  0x45204C415449504143205255544B41524620444C4F42204C41434954414D454854414D20202020202020264C2023202020202020202020202035363030203B46435F434B464E203B2020202020202020203037354431,
  0x46204C415449504143205255544B41524620444C4F42204C41434954414D454854414D20202020202020264C2023202020202020202020202036363030203B46435F434B464E203B2020202020202020203137354431,
  0x47204C415449504143205255544B41524620444C4F42204C41434954414D454854414D20202020202020264C2023202020202020202020202037363030203B46435F434B464E203B2020202020202020203237354431,
  0x48204C415449504143205255544B41524620444C4F42204C41434954414D454854414D20202020202020264C2023202020202020202020202038363030203B46435F434B464E203B2020202020202020203337354431,
  0x49204C415449504143205255544B41524620444C4F42204C41434954414D454854414D20202020202020264C2023202020202020202020202039363030203B46435F434B464E203B2020202020202020203437354431,
  0x4A204C415449504143205255544B41524620444C4F42204C41434954414D454854414D20202020202020264C2023202020202020202020202041363030203B46435F434B464E203B2020202020202020203537354431,
  0x4B204C415449504143205255544B41524620444C4F42204C41434954414D454854414D20202020202020264C2023202020202020202020202042363030203B46435F434B464E203B2020202020202020203637354431,
  0x4C204C415449504143205255544B41524620444C4F42204C41434954414D454854414D20202020202020264C2023202020202020202020202043363030203B46435F434B464E203B2020202020202020203737354431,
  0x4D204C415449504143205255544B41524620444C4F42204C41434954414D454854414D20202020202020264C2023202020202020202020202044363030203B46435F434B464E203B2020202020202020203837354431,
  0x4E204C415449504143205255544B41524620444C4F42204C41434954414D454854414D20202020202020264C2023202020202020202020202045363030203B46435F434B464E203B2020202020202020203937354431,
  0x4F204C415449504143205255544B41524620444C4F42204C41434954414D454854414D20202020202020264C2023202020202020202020202046363030203B46435F434B464E203B2020202020202020204137354431,
  0x50204C415449504143205255544B41524620444C4F42204C41434954414D454854414D20202020202020264C2023202020202020202020202030373030203B46435F434B464E203B2020202020202020204237354431,
  0x51204C415449504143205255544B41524620444C4F42204C41434954414D454854414D20202020202020264C2023202020202020202020202031373030203B46435F434B464E203B2020202020202020204337354431,
  0x52204C415449504143205255544B41524620444C4F42204C41434954414D454854414D20202020202020264C2023202020202020202020202032373030203B46435F434B464E203B2020202020202020204437354431,
  0x53204C415449504143205255544B41524620444C4F42204C41434954414D454854414D20202020202020264C2023202020202020202020202033373030203B46435F434B464E203B2020202020202020204537354431,
  0x54204C415449504143205255544B41524620444C4F42204C41434954414D454854414D20202020202020264C2023202020202020202020202034373030203B46435F434B464E203B2020202020202020204637354431,
  0x55204C415449504143205255544B41524620444C4F42204C41434954414D454854414D20202020202020264C2023202020202020202020202035373030203B46435F434B464E203B2020202020202020203038354431,
  0x56204C415449504143205255544B41524620444C4F42204C41434954414D454854414D20202020202020264C2023202020202020202020202036373030203B46435F434B464E203B2020202020202020203138354431,
  0x57204C415449504143205255544B41524620444C4F42204C41434954414D454854414D20202020202020264C2023202020202020202020202037373030203B46435F434B464E203B2020202020202020203238354431,
  0x58204C415449504143205255544B41524620444C4F42204C41434954414D454854414D20202020202020264C2023202020202020202020202038373030203B46435F434B464E203B2020202020202020203338354431,
  0x59204C415449504143205255544B41524620444C4F42204C41434954414D454854414D20202020202020264C2023202020202020202020202039373030203B46435F434B464E203B2020202020202020203438354431,
  0x5A204C415449504143205255544B41524620444C4F42204C41434954414D454854414D20202020202020264C2023202020202020202020202041373030203B46435F434B464E203B2020202020202020203538354431,
  0x41204C4C414D53205255544B41524620444C4F42204C41434954414D454854414D20202020202020264C2023202020202020202020202031363030203B46435F434B464E203B2020202020202020203638354431,
  0x42204C4C414D53205255544B41524620444C4F42204C41434954414D454854414D20202020202020264C2023202020202020202020202032363030203B46435F434B464E203B2020202020202020203738354431,
  0x43204C4C414D53205255544B41524620444C4F42204C41434954414D454854414D20202020202020264C2023202020202020202020202033363030203B46435F434B464E203B2020202020202020203838354431,
  0x44204C4C414D53205255544B41524620444C4F42204C41434954414D454854414D20202020202020264C2023202020202020202020202034363030203B46435F434B464E203B2020202020202020203938354431,
  0x45204C4C414D53205255544B41524620444C4F42204C41434954414D454854414D20202020202020264C2023202020202020202020202035363030203B46435F434B464E203B2020202020202020204138354431,
  0x46204C4C414D53205255544B41524620444C4F42204C41434954414D454854414D20202020202020264C2023202020202020202020202036363030203B46435F434B464E203B2020202020202020204238354431,
  0x47204C4C414D53205255544B41524620444C4F42204C41434954414D454854414D20202020202020264C2023202020202020202020202037363030203B46435F434B464E203B2020202020202020204338354431,
  0x48204C4C414D53205255544B41524620444C4F42204C41434954414D454854414D20202020202020264C2023202020202020202020202038363030203B46435F434B464E203B2020202020202020204438354431,
  0x49204C4C414D53205255544B41524620444C4F42204C41434954414D454854414D20202020202020264C2023202020202020202020202039363030203B46435F434B464E203B2020202020202020204538354431,
  0x4A204C4C414D53205255544B41524620444C4F42204C41434954414D454854414D20202020202020264C2023202020202020202020202041363030203B46435F434B464E203B2020202020202020204638354431,
  0x4B204C4C414D53205255544B41524620444C4F42204C41434954414D454854414D20202020202020264C2023202020202020202020202042363030203B46435F434B464E203B2020202020202020203039354431,
  0x4C204C4C414D53205255544B41524620444C4F42204C41434954414D454854414D20202020202020264C2023202020202020202020202043363030203B46435F434B464E203B2020202020202020203139354431,
  0x4D204C4C414D53205255544B41524620444C4F42204C41434954414D454854414D20202020202020264C2023202020202020202020202044363030203B46435F434B464E203B2020202020202020203239354431,
  0x4E204C4C414D53205255544B41524620444C4F42204C41434954414D454854414D20202020202020264C2023202020202020202020202045363030203B46435F434B464E203B2020202020202020203339354431,
  0x4F204C4C414D53205255544B41524620444C4F42204C41434954414D454854414D20202020202020264C2023202020202020202020202046363030203B46435F434B464E203B2020202020202020203439354431,
  0x50204C4C414D53205255544B41524620444C4F42204C41434954414D454854414D20202020202020264C2023202020202020202020202030373030203B46435F434B464E203B2020202020202020203539354431,
  0x51204C4C414D53205255544B41524620444C4F42204C41434954414D454854414D20202020202020264C2023202020202020202020202031373030203B46435F434B464E203B2020202020202020203639354431,
  0x52204C4C414D53205255544B41524620444C4F42204C41434954414D454854414D20202020202020264C2023202020202020202020202032373030203B46435F434B464E203B2020202020202020203739354431,
  0x53204C4C414D53205255544B41524620444C4F42204C41434954414D454854414D20202020202020264C2023202020202020202020202033373030203B46435F434B464E203B2020202020202020203839354431,
  0x54204C4C414D53205255544B41524620444C4F42204C41434954414D454854414D20202020202020264C2023202020202020202020202034373030203B46435F434B464E203B2020202020202020203939354431,
  0x55204C4C414D53205255544B41524620444C4F42204C41434954414D454854414D20202020202020264C2023202020202020202020202035373030203B46435F434B464E203B2020202020202020204139354431,
  0x56204C4C414D53205255544B41524620444C4F42204C41434954414D454854414D20202020202020264C2023202020202020202020202036373030203B46435F434B464E203B2020202020202020204239354431,
  0x57204C4C414D53205255544B41524620444C4F42204C41434954414D454854414D20202020202020264C2023202020202020202020202037373030203B46435F434B464E203B2020202020202020204339354431,
  0x58204C4C414D53205255544B41524620444C4F42204C41434954414D454854414D20202020202020264C2023202020202020202020202038373030203B46435F434B464E203B2020202020202020204439354431,
  0x59204C4C414D53205255544B41524620444C4F42204C41434954414D454854414D20202020202020264C2023202020202020202020202039373030203B46435F434B464E203B2020202020202020204539354431,
  0x5A204C4C414D53205255544B41524620444C4F42204C41434954414D454854414D20202020202020264C2023202020202020202020202041373030203B46435F434B464E203B2020202020202020204639354431,
  0x41204C4154495041432046495245532D534E4153204C41434954414D454854414D20202020202020264C2023202020202020202020202031363030203B46435F434B464E203B2020202020202020203041354431,
  0x42204C4154495041432046495245532D534E4153204C41434954414D454854414D20202020202020264C2023202020202020202020202032363030203B46435F434B464E203B2020202020202020203141354431,
  0x43204C4154495041432046495245532D534E4153204C41434954414D454854414D20202020202020264C2023202020202020202020202033363030203B46435F434B464E203B2020202020202020203241354431,
  0x44204C4154495041432046495245532D534E4153204C41434954414D454854414D20202020202020264C2023202020202020202020202034363030203B46435F434B464E203B2020202020202020203341354431,
  0x45204C4154495041432046495245532D534E4153204C41434954414D454854414D20202020202020264C2023202020202020202020202035363030203B46435F434B464E203B2020202020202020203441354431,
  0x46204C4154495041432046495245532D534E4153204C41434954414D454854414D20202020202020264C2023202020202020202020202036363030203B46435F434B464E203B2020202020202020203541354431,
  0x47204C4154495041432046495245532D534E4153204C41434954414D454854414D20202020202020264C2023202020202020202020202037363030203B46435F434B464E203B2020202020202020203641354431,
  0x48204C4154495041432046495245532D534E4153204C41434954414D454854414D20202020202020264C2023202020202020202020202038363030203B46435F434B464E203B2020202020202020203741354431,
  0x49204C4154495041432046495245532D534E4153204C41434954414D454854414D20202020202020264C2023202020202020202020202039363030203B46435F434B464E203B2020202020202020203841354431,
  0x4A204C4154495041432046495245532D534E4153204C41434954414D454854414D20202020202020264C2023202020202020202020202041363030203B46435F434B464E203B2020202020202020203941354431,
  0x4B204C4154495041432046495245532D534E4153204C41434954414D454854414D20202020202020264C2023202020202020202020202042363030203B46435F434B464E203B2020202020202020204141354431,
  0x4C204C4154495041432046495245532D534E4153204C41434954414D454854414D20202020202020264C2023202020202020202020202043363030203B46435F434B464E203B2020202020202020204241354431,
  0x4D204C4154495041432046495245532D534E4153204C41434954414D454854414D20202020202020264C2023202020202020202020202044363030203B46435F434B464E203B2020202020202020204341354431,
  0x4E204C4154495041432046495245532D534E4153204C41434954414D454854414D20202020202020264C2023202020202020202020202045363030203B46435F434B464E203B2020202020202020204441354431,
  0x4F204C4154495041432046495245532D534E4153204C41434954414D454854414D20202020202020264C2023202020202020202020202046363030203B46435F434B464E203B2020202020202020204541354431,
  0x50204C4154495041432046495245532D534E4153204C41434954414D454854414D20202020202020264C2023202020202020202020202030373030203B46435F434B464E203B2020202020202020204641354431,
  0x51204C4154495041432046495245532D534E4153204C41434954414D454854414D20202020202020264C2023202020202020202020202031373030203B46435F434B464E203B2020202020202020203042354431,
  0x52204C4154495041432046495245532D534E4153204C41434954414D454854414D20202020202020264C2023202020202020202020202032373030203B46435F434B464E203B2020202020202020203142354431,
  0x53204C4154495041432046495245532D534E4153204C41434954414D454854414D20202020202020264C2023202020202020202020202033373030203B46435F434B464E203B2020202020202020203242354431,
  0x54204C4154495041432046495245532D534E4153204C41434954414D454854414D20202020202020264C2023202020202020202020202034373030203B46435F434B464E203B2020202020202020203342354431,
  0x55204C4154495041432046495245532D534E4153204C41434954414D454854414D20202020202020264C2023202020202020202020202035373030203B46435F434B464E203B2020202020202020203442354431,
  0x56204C4154495041432046495245532D534E4153204C41434954414D454854414D20202020202020264C2023202020202020202020202036373030203B46435F434B464E203B2020202020202020203542354431,
  0x57204C4154495041432046495245532D534E4153204C41434954414D454854414D20202020202020264C2023202020202020202020202037373030203B46435F434B464E203B2020202020202020203642354431,
  0x58204C4154495041432046495245532D534E4153204C41434954414D454854414D20202020202020264C2023202020202020202020202038373030203B46435F434B464E203B2020202020202020203742354431,
  0x59204C4154495041432046495245532D534E4153204C41434954414D454854414D20202020202020264C2023202020202020202020202039373030203B46435F434B464E203B2020202020202020203842354431,
  0x5A204C4154495041432046495245532D534E4153204C41434954414D454854414D20202020202020264C2023202020202020202020202041373030203B46435F434B464E203B2020202020202020203942354431,
  0x41204C4C414D532046495245532D534E4153204C41434954414D454854414D20202020202020264C2023202020202020202020202031363030203B46435F434B464E203B2020202020202020204142354431,
  0x42204C4C414D532046495245532D534E4153204C41434954414D454854414D20202020202020264C2023202020202020202020202032363030203B46435F434B464E203B2020202020202020204242354431,
  0x43204C4C414D532046495245532D534E4153204C41434954414D454854414D20202020202020264C2023202020202020202020202033363030203B46435F434B464E203B2020202020202020204342354431,
  0x44204C4C414D532046495245532D534E4153204C41434954414D454854414D20202020202020264C2023202020202020202020202034363030203B46435F434B464E203B2020202020202020204442354431,
  0x45204C4C414D532046495245532D534E4153204C41434954414D454854414D20202020202020264C2023202020202020202020202035363030203B46435F434B464E203B2020202020202020204542354431,
  0x46204C4C414D532046495245532D534E4153204C41434954414D454854414D20202020202020264C2023202020202020202020202036363030203B46435F434B464E203B2020202020202020204642354431,
  0x47204C4C414D532046495245532D534E4153204C41434954414D454854414D20202020202020264C2023202020202020202020202037363030203B46435F434B464E203B2020202020202020203043354431,
  0x48204C4C414D532046495245532D534E4153204C41434954414D454854414D20202020202020264C2023202020202020202020202038363030203B46435F434B464E203B2020202020202020203143354431,
  0x49204C4C414D532046495245532D534E4153204C41434954414D454854414D20202020202020264C2023202020202020202020202039363030203B46435F434B464E203B2020202020202020203243354431,
  0x4A204C4C414D532046495245532D534E4153204C41434954414D454854414D20202020202020264C2023202020202020202020202041363030203B46435F434B464E203B2020202020202020203343354431,
  0x4B204C4C414D532046495245532D534E4153204C41434954414D454854414D20202020202020264C2023202020202020202020202042363030203B46435F434B464E203B2020202020202020203443354431,
  0x4C204C4C414D532046495245532D534E4153204C41434954414D454854414D20202020202020264C2023202020202020202020202043363030203B46435F434B464E203B2020202020202020203543354431,
  0x4D204C4C414D532046495245532D534E4153204C41434954414D454854414D20202020202020264C2023202020202020202020202044363030203B46435F434B464E203B2020202020202020203643354431,
  0x4E204C4C414D532046495245532D534E4153204C41434954414D454854414D20202020202020264C2023202020202020202020202045363030203B46435F434B464E203B2020202020202020203743354431,
  0x4F204C4C414D532046495245532D534E4153204C41434954414D454854414D20202020202020264C2023202020202020202020202046363030203B46435F434B464E203B2020202020202020203843354431,
  0x50204C4C414D532046495245532D534E4153204C41434954414D454854414D20202020202020264C2023202020202020202020202030373030203B46435F434B464E203B2020202020202020203943354431,
  0x51204C4C414D532046495245532D534E4153204C41434954414D454854414D20202020202020264C2023202020202020202020202031373030203B46435F434B464E203B2020202020202020204143354431,
  0x52204C4C414D532046495245532D534E4153204C41434954414D454854414D20202020202020264C2023202020202020202020202032373030203B46435F434B464E203B2020202020202020204243354431,
  0x53204C4C414D532046495245532D534E4153204C41434954414D454854414D20202020202020264C2023202020202020202020202033373030203B46435F434B464E203B2020202020202020204343354431,
  0x54204C4C414D532046495245532D534E4153204C41434954414D454854414D20202020202020264C2023202020202020202020202034373030203B46435F434B464E203B2020202020202020204443354431,
  0x55204C4C414D532046495245532D534E4153204C41434954414D454854414D20202020202020264C2023202020202020202020202035373030203B46435F434B464E203B2020202020202020204543354431,
  0x56204C4C414D532046495245532D534E4153204C41434954414D454854414D20202020202020264C2023202020202020202020202036373030203B46435F434B464E203B2020202020202020204643354431,
  0x57204C4C414D532046495245532D534E4153204C41434954414D454854414D20202020202020264C2023202020202020202020202037373030203B46435F434B464E203B2020202020202020203044354431,
  0x58204C4C414D532046495245532D534E4153204C41434954414D454854414D20202020202020264C2023202020202020202020202038373030203B46435F434B464E203B2020202020202020203144354431,
  0x59204C4C414D532046495245532D534E4153204C41434954414D454854414D20202020202020264C2023202020202020202020202039373030203B46435F434B464E203B2020202020202020203244354431,
  0x5A204C4C414D532046495245532D534E4153204C41434954414D454854414D20202020202020264C2023202020202020202020202041373030203B46435F434B464E203B2020202020202020203344354431,
  0x41204C41544950414320444C4F422046495245532D534E4153204C41434954414D454854414D20202020202020264C2023202020202020202020202031363030203B46435F434B464E203B2020202020202020203444354431,
  0x42204C41544950414320444C4F422046495245532D534E4153204C41434954414D454854414D20202020202020264C2023202020202020202020202032363030203B46435F434B464E203B2020202020202020203544354431,
  0x43204C41544950414320444C4F422046495245532D534E4153204C41434954414D454854414D20202020202020264C2023202020202020202020202033363030203B46435F434B464E203B2020202020202020203644354431,
  0x44204C41544950414320444C4F422046495245532D534E4153204C41434954414D454854414D20202020202020264C2023202020202020202020202034363030203B46435F434B464E203B2020202020202020203744354431,
  0x45204C41544950414320444C4F422046495245532D534E4153204C41434954414D454854414D20202020202020264C2023202020202020202020202035363030203B46435F434B464E203B2020202020202020203844354431,
  0x46204C41544950414320444C4F422046495245532D534E4153204C41434954414D454854414D20202020202020264C2023202020202020202020202036363030203B46435F434B464E203B2020202020202020203944354431,
  0x47204C41544950414320444C4F422046495245532D534E4153204C41434954414D454854414D20202020202020264C2023202020202020202020202037363030203B46435F434B464E203B2020202020202020204144354431,
  0x48204C41544950414320444C4F422046495245532D534E4153204C41434954414D454854414D20202020202020264C2023202020202020202020202038363030203B46435F434B464E203B2020202020202020204244354431,
  0x49204C41544950414320444C4F422046495245532D534E4153204C41434954414D454854414D20202020202020264C2023202020202020202020202039363030203B46435F434B464E203B2020202020202020204344354431,
  0x4A204C41544950414320444C4F422046495245532D534E4153204C41434954414D454854414D20202020202020264C2023202020202020202020202041363030203B46435F434B464E203B2020202020202020204444354431,
  0x4B204C41544950414320444C4F422046495245532D534E4153204C41434954414D454854414D20202020202020264C2023202020202020202020202042363030203B46435F434B464E203B2020202020202020204544354431,
  0x4C204C41544950414320444C4F422046495245532D534E4153204C41434954414D454854414D20202020202020264C2023202020202020202020202043363030203B46435F434B464E203B2020202020202020204644354431,
  0x4D204C41544950414320444C4F422046495245532D534E4153204C41434954414D454854414D20202020202020264C2023202020202020202020202044363030203B46435F434B464E203B2020202020202020203045354431,
  0x4E204C41544950414320444C4F422046495245532D534E4153204C41434954414D454854414D20202020202020264C2023202020202020202020202045363030203B46435F434B464E203B2020202020202020203145354431,
  0x4F204C41544950414320444C4F422046495245532D534E4153204C41434954414D454854414D20202020202020264C2023202020202020202020202046363030203B46435F434B464E203B2020202020202020203245354431,
  0x50204C41544950414320444C4F422046495245532D534E4153204C41434954414D454854414D20202020202020264C2023202020202020202020202030373030203B46435F434B464E203B2020202020202020203345354431,
  0x51204C41544950414320444C4F422046495245532D534E4153204C41434954414D454854414D20202020202020264C2023202020202020202020202031373030203B46435F434B464E203B2020202020202020203445354431,
  0x52204C41544950414320444C4F422046495245532D534E4153204C41434954414D454854414D20202020202020264C2023202020202020202020202032373030203B46435F434B464E203B2020202020202020203545354431,
  0x53204C41544950414320444C4F422046495245532D534E4153204C41434954414D454854414D20202020202020264C2023202020202020202020202033373030203B46435F434B464E203B2020202020202020203645354431,
  0x54204C41544950414320444C4F422046495245532D534E4153204C41434954414D454854414D20202020202020264C2023202020202020202020202034373030203B46435F434B464E203B2020202020202020203745354431,
  0x55204C41544950414320444C4F422046495245532D534E4153204C41434954414D454854414D20202020202020264C2023202020202020202020202035373030203B46435F434B464E203B2020202020202020203845354431,
  0x56204C41544950414320444C4F422046495245532D534E4153204C41434954414D454854414D20202020202020264C2023202020202020202020202036373030203B46435F434B464E203B2020202020202020203945354431,
  0x57204C41544950414320444C4F422046495245532D534E4153204C41434954414D454854414D20202020202020264C2023202020202020202020202037373030203B46435F434B464E203B2020202020202020204145354431,
  0x58204C41544950414320444C4F422046495245532D534E4153204C41434954414D454854414D20202020202020264C2023202020202020202020202038373030203B46435F434B464E203B2020202020202020204245354431,
  0x59204C41544950414320444C4F422046495245532D534E4153204C41434954414D454854414D20202020202020264C2023202020202020202020202039373030203B46435F434B464E203B2020202020202020204345354431,
  0x5A204C41544950414320444C4F422046495245532D534E4153204C41434954414D454854414D20202020202020264C2023202020202020202020202041373030203B46435F434B464E203B2020202020202020204445354431,
  0x41204C4C414D5320444C4F422046495245532D534E4153204C41434954414D454854414D20202020202020264C2023202020202020202020202031363030203B46435F434B464E203B2020202020202020204545354431,
  0x42204C4C414D5320444C4F422046495245532D534E4153204C41434954414D454854414D20202020202020264C2023202020202020202020202032363030203B46435F434B464E203B2020202020202020204645354431,
  0x43204C4C414D5320444C4F422046495245532D534E4153204C41434954414D454854414D20202020202020264C2023202020202020202020202033363030203B46435F434B464E203B2020202020202020203046354431,
  0x44204C4C414D5320444C4F422046495245532D534E4153204C41434954414D454854414D20202020202020264C2023202020202020202020202034363030203B46435F434B464E203B2020202020202020203146354431,
  0x45204C4C414D5320444C4F422046495245532D534E4153204C41434954414D454854414D20202020202020264C2023202020202020202020202035363030203B46435F434B464E203B2020202020202020203246354431,
  0x46204C4C414D5320444C4F422046495245532D534E4153204C41434954414D454854414D20202020202020264C2023202020202020202020202036363030203B46435F434B464E203B2020202020202020203346354431,
  0x47204C4C414D5320444C4F422046495245532D534E4153204C41434954414D454854414D20202020202020264C2023202020202020202020202037363030203B46435F434B464E203B2020202020202020203446354431,
  0x48204C4C414D5320444C4F422046495245532D534E4153204C41434954414D454854414D20202020202020264C2023202020202020202020202038363030203B46435F434B464E203B2020202020202020203546354431,
  0x49204C4C414D5320444C4F422046495245532D534E4153204C41434954414D454854414D20202020202020264C2023202020202020202020202039363030203B46435F434B464E203B2020202020202020203646354431,
  0x4A204C4C414D5320444C4F422046495245532D534E4153204C41434954414D454854414D20202020202020264C2023202020202020202020202041363030203B46435F434B464E203B2020202020202020203746354431,
  0x4B204C4C414D5320444C4F422046495245532D534E4153204C41434954414D454854414D20202020202020264C2023202020202020202020202042363030203B46435F434B464E203B2020202020202020203846354431,
  0x4C204C4C414D5320444C4F422046495245532D534E4153204C41434954414D454854414D20202020202020264C2023202020202020202020202043363030203B46435F434B464E203B2020202020202020203946354431,
  0x4D204C4C414D5320444C4F422046495245532D534E4153204C41434954414D454854414D20202020202020264C2023202020202020202020202044363030203B46435F434B464E203B2020202020202020204146354431,
  0x4E204C4C414D5320444C4F422046495245532D534E4153204C41434954414D454854414D20202020202020264C2023202020202020202020202045363030203B46435F434B464E203B2020202020202020204246354431,
  0x4F204C4C414D5320444C4F422046495245532D534E4153204C41434954414D454854414D20202020202020264C2023202020202020202020202046363030203B46435F434B464E203B2020202020202020204346354431,
  0x50204C4C414D5320444C4F422046495245532D534E4153204C41434954414D454854414D20202020202020264C2023202020202020202020202030373030203B46435F434B464E203B2020202020202020204446354431,
  0x51204C4C414D5320444C4F422046495245532D534E4153204C41434954414D454854414D20202020202020264C2023202020202020202020202031373030203B46435F434B464E203B2020202020202020204546354431,
  0x52204C4C414D5320444C4F422046495245532D534E4153204C41434954414D454854414D20202020202020264C2023202020202020202020202032373030203B46435F434B464E203B2020202020202020204646354431,
  0x53204C4C414D5320444C4F422046495245532D534E4153204C41434954414D454854414D20202020202020264C2023202020202020202020202033373030203B46435F434B464E203B2020202020202020203030364431,
  0x54204C4C414D5320444C4F422046495245532D534E4153204C41434954414D454854414D20202020202020264C2023202020202020202020202034373030203B46435F434B464E203B2020202020202020203130364431,
  0x55204C4C414D5320444C4F422046495245532D534E4153204C41434954414D454854414D20202020202020264C2023202020202020202020202035373030203B46435F434B464E203B2020202020202020203230364431,
  0x56204C4C414D5320444C4F422046495245532D534E4153204C41434954414D454854414D20202020202020264C2023202020202020202020202036373030203B46435F434B464E203B2020202020202020203330364431,
  0x57204C4C414D5320444C4F422046495245532D534E4153204C41434954414D454854414D20202020202020264C2023202020202020202020202037373030203B46435F434B464E203B2020202020202020203430364431,
  0x58204C4C414D5320444C4F422046495245532D534E4153204C41434954414D454854414D20202020202020264C2023202020202020202020202038373030203B46435F434B464E203B2020202020202020203530364431,
  0x59204C4C414D5320444C4F422046495245532D534E4153204C41434954414D454854414D20202020202020264C2023202020202020202020202039373030203B46435F434B464E203B2020202020202020203630364431,
  0x5A204C4C414D5320444C4F422046495245532D534E4153204C41434954414D454854414D20202020202020264C2023202020202020202020202041373030203B46435F434B464E203B2020202020202020203730364431,
  0x41204C4154495041432043494C4154492046495245532D534E4153204C41434954414D454854414D20202020202020264C2023202020202020202020202031363030203B46435F434B464E203B2020202020202020203830364431,
  0x42204C4154495041432043494C4154492046495245532D534E4153204C41434954414D454854414D20202020202020264C2023202020202020202020202032363030203B46435F434B464E203B2020202020202020203930364431,
  0x43204C4154495041432043494C4154492046495245532D534E4153204C41434954414D454854414D20202020202020264C2023202020202020202020202033363030203B46435F434B464E203B2020202020202020204130364431,
  0x44204C4154495041432043494C4154492046495245532D534E4153204C41434954414D454854414D20202020202020264C2023202020202020202020202034363030203B46435F434B464E203B2020202020202020204230364431,
  0x45204C4154495041432043494C4154492046495245532D534E4153204C41434954414D454854414D20202020202020264C2023202020202020202020202035363030203B46435F434B464E203B2020202020202020204330364431,
  0x46204C4154495041432043494C4154492046495245532D534E4153204C41434954414D454854414D20202020202020264C2023202020202020202020202036363030203B46435F434B464E203B2020202020202020204430364431,
  0x47204C4154495041432043494C4154492046495245532D534E4153204C41434954414D454854414D20202020202020264C2023202020202020202020202037363030203B46435F434B464E203B2020202020202020204530364431,
  0x48204C4154495041432043494C4154492046495245532D534E4153204C41434954414D454854414D20202020202020264C2023202020202020202020202038363030203B46435F434B464E203B2020202020202020204630364431,
  0x49204C4154495041432043494C4154492046495245532D534E4153204C41434954414D454854414D20202020202020264C2023202020202020202020202039363030203B46435F434B464E203B2020202020202020203031364431,
  0x4A204C4154495041432043494C4154492046495245532D534E4153204C41434954414D454854414D20202020202020264C2023202020202020202020202041363030203B46435F434B464E203B2020202020202020203131364431,
  0x4B204C4154495041432043494C4154492046495245532D534E4153204C41434954414D454854414D20202020202020264C2023202020202020202020202042363030203B46435F434B464E203B2020202020202020203231364431,
  0x4C204C4154495041432043494C4154492046495245532D534E4153204C41434954414D454854414D20202020202020264C2023202020202020202020202043363030203B46435F434B464E203B2020202020202020203331364431,
  0x4D204C4154495041432043494C4154492046495245532D534E4153204C41434954414D454854414D20202020202020264C2023202020202020202020202044363030203B46435F434B464E203B2020202020202020203431364431,
  0x4E204C4154495041432043494C4154492046495245532D534E4153204C41434954414D454854414D20202020202020264C2023202020202020202020202045363030203B46435F434B464E203B2020202020202020203531364431,
  0x4F204C4154495041432043494C4154492046495245532D534E4153204C41434954414D454854414D20202020202020264C2023202020202020202020202046363030203B46435F434B464E203B2020202020202020203631364431,
  0x50204C4154495041432043494C4154492046495245532D534E4153204C41434954414D454854414D20202020202020264C2023202020202020202020202030373030203B46435F434B464E203B2020202020202020203731364431,
  0x51204C4154495041432043494C4154492046495245532D534E4153204C41434954414D454854414D20202020202020264C2023202020202020202020202031373030203B46435F434B464E203B2020202020202020203831364431,
  0x52204C4154495041432043494C4154492046495245532D534E4153204C41434954414D454854414D20202020202020264C2023202020202020202020202032373030203B46435F434B464E203B2020202020202020203931364431,
  0x53204C4154495041432043494C4154492046495245532D534E4153204C41434954414D454854414D20202020202020264C2023202020202020202020202033373030203B46435F434B464E203B2020202020202020204131364431,
  0x54204C4154495041432043494C4154492046495245532D534E4153204C41434954414D454854414D20202020202020264C2023202020202020202020202034373030203B46435F434B464E203B2020202020202020204231364431,
  0x55204C4154495041432043494C4154492046495245532D534E4153204C41434954414D454854414D20202020202020264C2023202020202020202020202035373030203B46435F434B464E203B2020202020202020204331364431,
  0x56204C4154495041432043494C4154492046495245532D534E4153204C41434954414D454854414D20202020202020264C2023202020202020202020202036373030203B46435F434B464E203B2020202020202020204431364431,
  0x57204C4154495041432043494C4154492046495245532D534E4153204C41434954414D454854414D20202020202020264C2023202020202020202020202037373030203B46435F434B464E203B2020202020202020204531364431,
  0x58204C4154495041432043494C4154492046495245532D534E4153204C41434954414D454854414D20202020202020264C2023202020202020202020202038373030203B46435F434B464E203B2020202020202020204631364431,
  0x59204C4154495041432043494C4154492046495245532D534E4153204C41434954414D454854414D20202020202020264C2023202020202020202020202039373030203B46435F434B464E203B2020202020202020203032364431,
  0x5A204C4154495041432043494C4154492046495245532D534E4153204C41434954414D454854414D20202020202020264C2023202020202020202020202041373030203B46435F434B464E203B2020202020202020203132364431,
  0x41204C4C414D532043494C4154492046495245532D534E4153204C41434954414D454854414D20202020202020264C2023202020202020202020202031363030203B46435F434B464E203B2020202020202020203232364431]

def qcText30 : List Nat := [
  0x42204C4C414D532043494C4154492046495245532D534E4153204C41434954414D454854414D20202020202020264C2023202020202020202020202032363030203B46435F434B464E203B2020202020202020203332364431,
  0x43204C4C414D532043494C4154492046495245532D534E4153204C41434954414D454854414D20202020202020264C2023202020202020202020202033363030203B46435F434B464E203B2020202020202020203432364431,
  0x44204C4C414D532043494C4154492046495245532D534E4153204C41434954414D454854414D20202020202020264C2023202020202020202020202034363030203B46435F434B464E203B2020202020202020203532364431,
  0x45204C4C414D532043494C4154492046495245532D534E4153204C41434954414D454854414D20202020202020264C2023202020202020202020202035363030203B46435F434B464E203B2020202020202020203632364431,
  0x46204C4C414D532043494C4154492046495245532D534E4153204C41434954414D454854414D20202020202020264C2023202020202020202020202036363030203B46435F434B464E203B2020202020202020203732364431,
  0x47204C4C414D532043494C4154492046495245532D534E4153204C41434954414D454854414D20202020202020264C2023202020202020202020202037363030203B46435F434B464E203B2020202020202020203832364431,
  0x48204C4C414D532043494C4154492046495245532D534E4153204C41434954414D454854414D20202020202020264C2023202020202020202020202038363030203B46435F434B464E203B2020202020202020203932364431,
  0x49204C4C414D532043494C4154492046495245532D534E4153204C41434954414D454854414D20202020202020264C2023202020202020202020202039363030203B46435F434B464E203B2020202020202020204132364431,
  0x4A204C4C414D532043494C4154492046495245532D534E4153204C41434954414D454854414D20202020202020264C2023202020202020202020202041363030203B46435F434B464E203B2020202020202020204232364431,
  0x4B204C4C414D532043494C4154492046495245532D534E4153204C41434954414D454854414D20202020202020264C2023202020202020202020202042363030203B46435F434B464E203B2020202020202020204332364431,
  0x4C204C4C414D532043494C4154492046495245532D534E4153204C41434954414D454854414D20202020202020264C2023202020202020202020202043363030203B46435F434B464E203B2020202020202020204432364431,
  0x4D204C4C414D532043494C4154492046495245532D534E4153204C41434954414D454854414D20202020202020264C2023202020202020202020202044363030203B46435F434B464E203B2020202020202020204532364431,
  0x4E204C4C414D532043494C4154492046495245532D534E4153204C41434954414D454854414D20202020202020264C2023202020202020202020202045363030203B46435F434B464E203B2020202020202020204632364431,
  0x4F204C4C414D532043494C4154492046495245532D534E4153204C41434954414D454854414D20202020202020264C2023202020202020202020202046363030203B46435F434B464E203B2020202020202020203033364431,
  0x50204C4C414D532043494C4154492046495245532D534E4153204C41434954414D454854414D20202020202020264C2023202020202020202020202030373030203B46435F434B464E203B2020202020202020203133364431,
  0x51204C4C414D532043494C4154492046495245532D534E4153204C41434954414D454854414D20202020202020264C2023202020202020202020202031373030203B46435F434B464E203B2020202020202020203233364431,
  0x52204C4C414D532043494C4154492046495245532D534E4153204C41434954414D454854414D20202020202020264C2023202020202020202020202032373030203B46435F434B464E203B2020202020202020203333364431,
  0x53204C4C414D532043494C4154492046495245532D534E4153204C41434954414D454854414D20202020202020264C2023202020202020202020202033373030203B46435F434B464E203B2020202020202020203433364431,
  0x54204C4C414D532043494C4154492046495245532D534E4153204C41434954414D454854414D20202020202020264C2023202020202020202020202034373030203B46435F434B464E203B2020202020202020203533364431,
  0x55204C4C414D532043494C4154492046495245532D534E4153204C41434954414D454854414D20202020202020264C2023202020202020202020202035373030203B46435F434B464E203B2020202020202020203633364431,
  0x56204C4C414D532043494C4154492046495245532D534E4153204C41434954414D454854414D20202020202020264C2023202020202020202020202036373030203B46435F434B464E203B2020202020202020203733364431,
  0x57204C4C414D532043494C4154492046495245532D534E4153204C41434954414D454854414D20202020202020264C2023202020202020202020202037373030203B46435F434B464E203B2020202020202020203833364431,
  0x58204C4C414D532043494C4154492046495245532D534E4153204C41434954414D454854414D20202020202020264C2023202020202020202020202038373030203B46435F434B464E203B2020202020202020203933364431,
  0x59204C4C414D532043494C4154492046495245532D534E4153204C41434954414D454854414D20202020202020264C2023202020202020202020202039373030203B46435F434B464E203B2020202020202020204133364431,
  0x5A204C4C414D532043494C4154492046495245532D534E4153204C41434954414D454854414D20202020202020264C2023202020202020202020202041373030203B46435F434B464E203B2020202020202020204233364431,
  0x41204C4154495041432043494C41544920444C4F422046495245532D534E4153204C41434954414D454854414D20202020202020264C2023202020202020202020202031363030203B46435F434B464E203B2020202020202020204333364431,
  0x42204C4154495041432043494C41544920444C4F422046495245532D534E4153204C41434954414D454854414D20202020202020264C2023202020202020202020202032363030203B46435F434B464E203B2020202020202020204433364431,
  0x43204C4154495041432043494C41544920444C4F422046495245532D534E4153204C41434954414D454854414D20202020202020264C2023202020202020202020202033363030203B46435F434B464E203B2020202020202020204533364431,
  0x44204C4154495041432043494C41544920444C4F422046495245532D534E4153204C41434954414D454854414D20202020202020264C2023202020202020202020202034363030203B46435F434B464E203B2020202020202020204633364431,
  0x45204C4154495041432043494C41544920444C4F422046495245532D534E4153204C41434954414D454854414D20202020202020264C2023202020202020202020202035363030203B46435F434B464E203B2020202020202020203034364431,
  0x46204C4154495041432043494C41544920444C4F422046495245532D534E4153204C41434954414D454854414D20202020202020264C2023202020202020202020202036363030203B46435F434B464E203B2020202020202020203134364431,
  0x47204C4154495041432043494C41544920444C4F422046495245532D534E4153204C41434954414D454854414D20202020202020264C2023202020202020202020202037363030203B46435F434B464E203B2020202020202020203234364431,
  0x48204C4154495041432043494C41544920444C4F422046495245532D534E4153204C41434954414D454854414D20202020202020264C2023202020202020202020202038363030203B46435F434B464E203B2020202020202020203334364431,
  0x49204C4154495041432043494C41544920444C4F422046495245532D534E4153204C41434954414D454854414D20202020202020264C2023202020202020202020202039363030203B46435F434B464E203B2020202020202020203434364431,
  0x4A204C4154495041432043494C41544920444C4F422046495245532D534E4153204C41434954414D454854414D20202020202020264C2023202020202020202020202041363030203B46435F434B464E203B2020202020202020203534364431,
  0x4B204C4154495041432043494C41544920444C4F422046495245532D534E4153204C41434954414D454854414D20202020202020264C2023202020202020202020202042363030203B46435F434B464E203B2020202020202020203634364431,
  0x4C204C4154495041432043494C41544920444C4F422046495245532D534E4153204C41434954414D454854414D20202020202020264C2023202020202020202020202043363030203B46435F434B464E203B2020202020202020203734364431,
  0x4D204C4154495041432043494C41544920444C4F422046495245532D534E4153204C41434954414D454854414D20202020202020264C2023202020202020202020202044363030203B46435F434B464E203B2020202020202020203834364431,
  0x4E204C4154495041432043494C41544920444C4F422046495245532D534E4153204C41434954414D454854414D20202020202020264C2023202020202020202020202045363030203B46435F434B464E203B2020202020202020203934364431,
  0x4F204C4154495041432043494C41544920444C4F422046495245532D534E4153204C41434954414D454854414D20202020202020264C2023202020202020202020202046363030203B46435F434B464E203B2020202020202020204134364431,
  0x50204C4154495041432043494C41544920444C4F422046495245532D534E4153204C41434954414D454854414D20202020202020264C2023202020202020202020202030373030203B46435F434B464E203B2020202020202020204234364431,
  0x51204C4154495041432043494C41544920444C4F422046495245532D534E4153204C41434954414D454854414D20202020202020264C2023202020202020202020202031373030203B46435F434B464E203B2020202020202020204334364431,
  0x52204C4154495041432043494C41544920444C4F422046495245532D534E4153204C41434954414D454854414D20202020202020264C2023202020202020202020202032373030203B46435F434B464E203B2020202020202020204434364431,
  0x53204C4154495041432043494C41544920444C4F422046495245532D534E4153204C41434954414D454854414D20202020202020264C2023202020202020202020202033373030203B46435F434B464E203B2020202020202020204534364431,
  0x54204C4154495041432043494C41544920444C4F422046495245532D534E4153204C41434954414D454854414D20202020202020264C2023202020202020202020202034373030203B46435F434B464E203B2020202020202020204634364431,
  0x55204C4154495041432043494C41544920444C4F422046495245532D534E4153204C41434954414D454854414D20202020202020264C2023202020202020202020202035373030203B46435F434B464E203B2020202020202020203035364431,
  0x56204C4154495041432043494C41544920444C4F422046495245532D534E4153204C41434954414D454854414D20202020202020264C2023202020202020202020202036373030203B46435F434B464E203B2020202020202020203135364431,
  0x57204C4154495041432043494C41544920444C4F422046495245532D534E4153204C41434954414D454854414D20202020202020264C2023202020202020202020202037373030203B46435F434B464E203B2020202020202020203235364431,
  0x58204C4154495041432043494C41544920444C4F422046495245532D534E4153204C41434954414D454854414D20202020202020264C2023202020202020202020202038373030203B46435F434B464E203B2020202020202020203335364431,
  0x59204C4154495041432043494C41544920444C4F422046495245532D534E4153204C41434954414D454854414D20202020202020264C2023202020202020202020202039373030203B46435F434B464E203B2020202020202020203435364431,
  0x5A204C4154495041432043494C41544920444C4F422046495245532D534E4153204C41434954414D454854414D20202020202020264C2023202020202020202020202041373030203B46435F434B464E203B2020202020202020203535364431,
  0x41204C4C414D532043494C41544920444C4F422046495245532D534E4153204C41434954414D454854414D20202020202020264C2023202020202020202020202031363030203B46435F434B464E203B2020202020202020203635364431,
  0x42204C4C414D532043494C41544920444C4F422046495245532D534E4153204C41434954414D454854414D20202020202020264C2023202020202020202020202032363030203B46435F434B464E203B2020202020202020203735364431,
  0x43204C4C414D532043494C41544920444C4F422046495245532D534E4153204C41434954414D454854414D20202020202020264C2023202020202020202020202033363030203B46435F434B464E203B2020202020202020203835364431,
  0x44204C4C414D532043494C41544920444C4F422046495245532D534E4153204C41434954414D454854414D20202020202020264C2023202020202020202020202034363030203B46435F434B464E203B2020202020202020203935364431,
  0x45204C4C414D532043494C41544920444C4F422046495245532D534E4153204C41434954414D454854414D20202020202020264C2023202020202020202020202035363030203B46435F434B464E203B2020202020202020204135364431,
  0x46204C4C414D532043494C41544920444C4F422046495245532D534E4153204C41434954414D454854414D20202020202020264C2023202020202020202020202036363030203B46435F434B464E203B2020202020202020204235364431,
  0x47204C4C414D532043494C41544920444C4F422046495245532D534E4153204C41434954414D454854414D20202020202020264C2023202020202020202020202037363030203B46435F434B464E203B2020202020202020204335364431,
  0x48204C4C414D532043494C41544920444C4F422046495245532D534E4153204C41434954414D454854414D20202020202020264C2023202020202020202020202038363030203B46435F434B464E203B2020202020202020204435364431,
  0x49204C4C414D532043494C41544920444C4F422046495245532D534E4153204C41434954414D454854414D20202020202020264C2023202020202020202020202039363030203B46435F434B464E203B2020202020202020204535364431,
  0x4A204C4C414D532043494C41544920444C4F422046495245532D534E4153204C41434954414D454854414D20202020202020264C2023202020202020202020202041363030203B46435F434B464E203B2020202020202020204635364431,
  0x4B204C4C414D532043494C41544920444C4F422046495245532D534E4153204C41434954414D454854414D20202020202020264C2023202020202020202020202042363030203B46435F434B464E203B2020202020202020203036364431,
  0x4C204C4C414D532043494C41544920444C4F422046495245532D534E4153204C41434954414D454854414D20202020202020264C2023202020202020202020202043363030203B46435F434B464E203B2020202020202020203136364431,
  0x4D204C4C414D532043494C41544920444C4F422046495245532D534E4153204C41434954414D454854414D20202020202020264C2023202020202020202020202044363030203B46435F434B464E203B2020202020202020203236364431,
  0x4E204C4C414D532043494C41544920444C4F422046495245532D534E4153204C41434954414D454854414D20202020202020264C2023202020202020202020202045363030203B46435F434B464E203B2020202020202020203336364431,
  0x4F204C4C414D532043494C41544920444C4F422046495245532D534E4153204C41434954414D454854414D20202020202020264C2023202020202020202020202046363030203B46435F434B464E203B2020202020202020203436364431,
  0x50204C4C414D532043494C41544920444C4F422046495245532D534E4153204C41434954414D454854414D20202020202020264C2023202020202020202020202030373030203B46435F434B464E203B2020202020202020203536364431,
  0x51204C4C414D532043494C41544920444C4F422046495245532D534E4153204C41434954414D454854414D20202020202020264C2023202020202020202020202031373030203B46435F434B464E203B2020202020202020203636364431,
  0x52204C4C414D532043494C41544920444C4F422046495245532D534E4153204C41434954414D454854414D20202020202020264C2023202020202020202020202032373030203B46435F434B464E203B2020202020202020203736364431,
  0x53204C4C414D532043494C41544920444C4F422046495245532D534E4153204C41434954414D454854414D20202020202020264C2023202020202020202020202033373030203B46435F434B464E203B2020202020202020203836364431,
  0x54204C4C414D532043494C41544920444C4F422046495245532D534E4153204C41434954414D454854414D20202020202020264C2023202020202020202020202034373030203B46435F434B464E203B2020202020202020203936364431,
  0x55204C4C414D532043494C41544920444C4F422046495245532D534E4153204C41434954414D454854414D20202020202020264C2023202020202020202020202035373030203B46435F434B464E203B2020202020202020204136364431,
  0x56204C4C414D532043494C41544920444C4F422046495245532D534E4153204C41434954414D454854414D20202020202020264C2023202020202020202020202036373030203B46435F434B464E203B2020202020202020204236364431,
  0x57204C4C414D532043494C41544920444C4F422046495245532D534E4153204C41434954414D454854414D20202020202020264C2023202020202020202020202037373030203B46435F434B464E203B2020202020202020204336364431,
  0x58204C4C414D532043494C41544920444C4F422046495245532D534E4153204C41434954414D454854414D20202020202020264C2023202020202020202020202038373030203B46435F434B464E203B2020202020202020204436364431,
  0x59204C4C414D532043494C41544920444C4F422046495245532D534E4153204C41434954414D454854414D20202020202020264C2023202020202020202020202039373030203B46435F434B464E203B2020202020202020204536364431,
  0x5A204C4C414D532043494C41544920444C4F422046495245532D534E4153204C41434954414D454854414D20202020202020264C2023202020202020202020202041373030203B46435F434B464E203B2020202020202020204636364431,
  0x41204C4154495041432045434150534F4E4F4D204C41434954414D454854414D20202020202020264C2023202020202020202020202031363030203B46435F434B464E203B2020202020202020203037364431,
  0x42204C4154495041432045434150534F4E4F4D204C41434954414D454854414D20202020202020264C2023202020202020202020202032363030203B46435F434B464E203B2020202020202020203137364431,
  0x43204C4154495041432045434150534F4E4F4D204C41434954414D454854414D20202020202020264C2023202020202020202020202033363030203B46435F434B464E203B2020202020202020203237364431,
  0x44204C4154495041432045434150534F4E4F4D204C41434954414D454854414D20202020202020264C2023202020202020202020202034363030203B46435F434B464E203B2020202020202020203337364431,
  0x45204C4154495041432045434150534F4E4F4D204C41434954414D454854414D20202020202020264C2023202020202020202020202035363030203B46435F434B464E203B2020202020202020203437364431,
  0x46204C4154495041432045434150534F4E4F4D204C41434954414D454854414D20202020202020264C2023202020202020202020202036363030203B46435F434B464E203B2020202020202020203537364431,
  0x47204C4154495041432045434150534F4E4F4D204C41434954414D454854414D20202020202020264C2023202020202020202020202037363030203B46435F434B464E203B2020202020202020203637364431,
  0x48204C4154495041432045434150534F4E4F4D204C41434954414D454854414D20202020202020264C2023202020202020202020202038363030203B46435F434B464E203B2020202020202020203737364431,
  0x49204C4154495041432045434150534F4E4F4D204C41434954414D454854414D20202020202020264C2023202020202020202020202039363030203B46435F434B464E203B2020202020202020203837364431,
  0x4A204C4154495041432045434150534F4E4F4D204C41434954414D454854414D20202020202020264C2023202020202020202020202041363030203B46435F434B464E203B2020202020202020203937364431,
  0x4B204C4154495041432045434150534F4E4F4D204C41434954414D454854414D20202020202020264C2023202020202020202020202042363030203B46435F434B464E203B2020202020202020204137364431,
  0x4C204C4154495041432045434150534F4E4F4D204C41434954414D454854414D20202020202020264C2023202020202020202020202043363030203B46435F434B464E203B2020202020202020204237364431,
  0x4D204C4154495041432045434150534F4E4F4D204C41434954414D454854414D20202020202020264C2023202020202020202020202044363030203B46435F434B464E203B2020202020202020204337364431,
  0x4E204C4154495041432045434150534F4E4F4D204C41434954414D454854414D20202020202020264C2023202020202020202020202045363030203B46435F434B464E203B2020202020202020204437364431,
  0x4F204C4154495041432045434150534F4E4F4D204C41434954414D454854414D20202020202020264C2023202020202020202020202046363030203B46435F434B464E203B2020202020202020204537364431,
  0x50204C4154495041432045434150534F4E4F4D204C41434954414D454854414D20202020202020264C2023202020202020202020202030373030203B46435F434B464E203B2020202020202020204637364431,
  0x51204C4154495041432045434150534F4E4F4D204C41434954414D454854414D20202020202020264C2023202020202020202020202031373030203B46435F434B464E203B2020202020202020203038364431,
  0x52204C4154495041432045434150534F4E4F4D204C41434954414D454854414D20202020202020264C2023202020202020202020202032373030203B46435F434B464E203B2020202020202020203138364431,
  0x53204C4154495041432045434150534F4E4F4D204C41434954414D454854414D20202020202020264C2023202020202020202020202033373030203B46435F434B464E203B2020202020202020203238364431,
  0x54204C4154495041432045434150534F4E4F4D204C41434954414D454854414D20202020202020264C2023202020202020202020202034373030203B46435F434B464E203B2020202020202020203338364431,
  0x55204C4154495041432045434150534F4E4F4D204C41434954414D454854414D20202020202020264C2023202020202020202020202035373030203B46435F434B464E203B2020202020202020203438364431,
  0x56204C4154495041432045434150534F4E4F4D204C41434954414D454854414D20202020202020264C2023202020202020202020202036373030203B46435F434B464E203B2020202020202020203538364431,
  0x57204C4154495041432045434150534F4E4F4D204C41434954414D454854414D20202020202020264C2023202020202020202020202037373030203B46435F434B464E203B2020202020202020203638364431,
  0x58204C4154495041432045434150534F4E4F4D204C41434954414D454854414D20202020202020264C2023202020202020202020202038373030203B46435F434B464E203B2020202020202020203738364431,
  0x59204C4154495041432045434150534F4E4F4D204C41434954414D454854414D20202020202020264C2023202020202020202020202039373030203B46435F434B464E203B2020202020202020203838364431,
  0x5A204C4154495041432045434150534F4E4F4D204C41434954414D454854414D20202020202020264C2023202020202020202020202041373030203B46435F434B464E203B2020202020202020203938364431,
  0x41204C4C414D532045434150534F4E4F4D204C41434954414D454854414D20202020202020264C2023202020202020202020202031363030203B46435F434B464E203B2020202020202020204138364431,
  0x42204C4C414D532045434150534F4E4F4D204C41434954414D454854414D20202020202020264C2023202020202020202020202032363030203B46435F434B464E203B2020202020202020204238364431,
  0x43204C4C414D532045434150534F4E4F4D204C41434954414D454854414D20202020202020264C2023202020202020202020202033363030203B46435F434B464E203B2020202020202020204338364431,
  0x44204C4C414D532045434150534F4E4F4D204C41434954414D454854414D20202020202020264C2023202020202020202020202034363030203B46435F434B464E203B2020202020202020204438364431,
  0x45204C4C414D532045434150534F4E4F4D204C41434954414D454854414D20202020202020264C2023202020202020202020202035363030203B46435F434B464E203B2020202020202020204538364431,
  0x46204C4C414D532045434150534F4E4F4D204C41434954414D454854414D20202020202020264C2023202020202020202020202036363030203B46435F434B464E203B2020202020202020204638364431,
  0x47204C4C414D532045434150534F4E4F4D204C41434954414D454854414D20202020202020264C2023202020202020202020202037363030203B46435F434B464E203B2020202020202020203039364431,
  0x48204C4C414D532045434150534F4E4F4D204C41434954414D454854414D20202020202020264C2023202020202020202020202038363030203B46435F434B464E203B2020202020202020203139364431,
  0x49204C4C414D532045434150534F4E4F4D204C41434954414D454854414D20202020202020264C2023202020202020202020202039363030203B46435F434B464E203B2020202020202020203239364431,
  0x4A204C4C414D532045434150534F4E4F4D204C41434954414D454854414D20202020202020264C2023202020202020202020202041363030203B46435F434B464E203B2020202020202020203339364431,
  0x4B204C4C414D532045434150534F4E4F4D204C41434954414D454854414D20202020202020264C2023202020202020202020202042363030203B46435F434B464E203B2020202020202020203439364431,
  0x4C204C4C414D532045434150534F4E4F4D204C41434954414D454854414D20202020202020264C2023202020202020202020202043363030203B46435F434B464E203B2020202020202020203539364431,
  0x4D204C4C414D532045434150534F4E4F4D204C41434954414D454854414D20202020202020264C2023202020202020202020202044363030203B46435F434B464E203B2020202020202020203639364431,
  0x4E204C4C414D532045434150534F4E4F4D204C41434954414D454854414D20202020202020264C2023202020202020202020202045363030203B46435F434B464E203B2020202020202020203739364431,
  0x4F204C4C414D532045434150534F4E4F4D204C41434954414D454854414D20202020202020264C2023202020202020202020202046363030203B46435F434B464E203B2020202020202020203839364431,
  0x50204C4C414D532045434150534F4E4F4D204C41434954414D454854414D20202020202020264C2023202020202020202020202030373030203B46435F434B464E203B2020202020202020203939364431,
  0x51204C4C414D532045434150534F4E4F4D204C41434954414D454854414D20202020202020264C2023202020202020202020202031373030203B46435F434B464E203B2020202020202020204139364431,
  0x52204C4C414D532045434150534F4E4F4D204C41434954414D454854414D20202020202020264C2023202020202020202020202032373030203B46435F434B464E203B2020202020202020204239364431,
  0x53204C4C414D532045434150534F4E4F4D204C41434954414D454854414D20202020202020264C2023202020202020202020202033373030203B46435F434B464E203B2020202020202020204339364431,
  0x54204C4C414D532045434150534F4E4F4D204C41434954414D454854414D20202020202020264C2023202020202020202020202034373030203B46435F434B464E203B2020202020202020204439364431,
  0x55204C4C414D532045434150534F4E4F4D204C41434954414D454854414D20202020202020264C2023202020202020202020202035373030203B46435F434B464E203B2020202020202020204539364431,
  0x56204C4C414D532045434150534F4E4F4D204C41434954414D454854414D20202020202020264C2023202020202020202020202036373030203B46435F434B464E203B2020202020202020204639364431,
  0x57204C4C414D532045434150534F4E4F4D204C41434954414D454854414D20202020202020264C2023202020202020202020202037373030203B46435F434B464E203B2020202020202020203041364431,
  0x58204C4C414D532045434150534F4E4F4D204C41434954414D454854414D20202020202020264C2023202020202020202020202038373030203B46435F434B464E203B2020202020202020203141364431,
  0x59204C4C414D532045434150534F4E4F4D204C41434954414D454854414D20202020202020264C2023202020202020202020202039373030203B46435F434B464E203B2020202020202020203241364431,
  0x5A204C4C414D532045434150534F4E4F4D204C41434954414D454854414D20202020202020264C2023202020202020202020202041373030203B46435F434B464E203B2020202020202020203341364431,
  0x49205353454C544F44204C4C414D532043494C415449204C41434954414D454854414D20202020202020264C2023202020202020202020202031333130203B46435F434B464E203B2020202020202020203441364431,
  0x4A205353454C544F44204C4C414D532043494C415449204C41434954414D454854414D20202020202020264C2023202020202020202020202037333230203B46435F434B464E203B2020202020202020203541364431,
  0x4148504C41204C41544950414320444C4F42204C41434954414D454854414D20202020202020264C2023202020202020202020202031423330203B46435F434B464E203B2020202020202020203841364431,
  0x41544542204C41544950414320444C4F42204C41434954414D454854414D20202020202020264C2023202020202020202020202032423330203B46435F434B464E203B2020202020202020203941364431,
  0x414D4D4147204C41544950414320444C4F42204C41434954414D454854414D20202020202020264C2023202020202020202020202033423330203B46435F434B464E203B2020202020202020204141364431,
  0x41544C4544204C41544950414320444C4F42204C41434954414D454854414D20202020202020264C2023202020202020202020202034423330203B46435F434B464E203B2020202020202020204241364431,
  0x4E4F4C49535045204C41544950414320444C4F42204C41434954414D454854414D20202020202020264C2023202020202020202020202035423330203B46435F434B464E203B2020202020202020204341364431,
  0x4154455A204C41544950414320444C4F42204C41434954414D454854414D20202020202020264C2023202020202020202020202036423330203B46435F434B464E203B2020202020202020204441364431,
  0x415445204C41544950414320444C4F42204C41434954414D454854414D20202020202020264C2023202020202020202020202037423330203B46435F434B464E203B2020202020202020204541364431,
  0x4154454854204C41544950414320444C4F42204C41434954414D454854414D20202020202020264C2023202020202020202020202038423330203B46435F434B464E203B2020202020202020204641364431,
  0x41544F49204C41544950414320444C4F42204C41434954414D454854414D20202020202020264C2023202020202020202020202039423330203B46435F434B464E203B2020202020202020203042364431,
  0x415050414B204C41544950414320444C4F42204C41434954414D454854414D20202020202020264C2023202020202020202020202041423330203B46435F434B464E203B2020202020202020203142364431,
  0x41444D414C204C41544950414320444C4F42204C41434954414D454854414D20202020202020264C2023202020202020202020202042423330203B46435F434B464E203B2020202020202020203242364431,
  0x554D204C41544950414320444C4F42204C41434954414D454854414D20202020202020264C2023202020202020202020202043423330203B46435F434B464E203B2020202020202020203342364431,
  0x554E204C41544950414320444C4F42204C41434954414D454854414D20202020202020264C2023202020202020202020202044423330203B46435F434B464E203B2020202020202020203442364431,
  0x4958204C41544950414320444C4F42204C41434954414D454854414D20202020202020264C2023202020202020202020202045423330203B46435F434B464E203B2020202020202020203542364431,
  0x4E4F5243494D4F204C41544950414320444C4F42204C41434954414D454854414D20202020202020264C2023202020202020202020202046423330203B46435F434B464E203B2020202020202020203642364431,
  0x4950204C41544950414320444C4F42204C41434954414D454854414D20202020202020264C2023202020202020202020202030433330203B46435F434B464E203B2020202020202020203742364431,
  0x4F4852204C41544950414320444C4F42204C41434954414D454854414D20202020202020264C2023202020202020202020202031433330203B46435F434B464E203B2020202020202020203842364431,
  0x4C4F424D5953204154454854204C41544950414320444C4F42204C41434954414D454854414D20202020202020264C2023202020202020202020202038423330203B46435F434B464E203B2020202020202020203942364431,
  0x414D474953204C41544950414320444C4F42204C41434954414D454854414D20202020202020264C2023202020202020202020202033433330203B46435F434B464E203B2020202020202020204142364431,
  0x554154204C41544950414320444C4F42204C41434954414D454854414D20202020202020264C2023202020202020202020202034433330203B46435F434B464E203B2020202020202020204242364431,
  0x4E4F4C49535055204C41544950414320444C4F42204C41434954414D454854414D20202020202020264C2023202020202020202020202035433330203B46435F434B464E203B2020202020202020204342364431,
  0x494850204C41544950414320444C4F42204C41434954414D454854414D20202020202020264C2023202020202020202020202036433330203B46435F434B464E203B2020202020202020204442364431,
  0x494843204C41544950414320444C4F42204C41434954414D454854414D20202020202020264C2023202020202020202020202037433330203B46435F434B464E203B2020202020202020204542364431,
  0x495350204C41544950414320444C4F42204C41434954414D454854414D20202020202020264C2023202020202020202020202038433330203B46435F434B464E203B2020202020202020204642364431,
  0x4147454D4F204C41544950414320444C4F42204C41434954414D454854414D20202020202020264C2023202020202020202020202039433330203B46435F434B464E203B2020202020202020203043364431,
  0x414C42414E20444C4F42204C41434954414D454854414D202020202020206D532023202020202020202020202037303232203B46435F434B464E203B2020202020202020203143364431,
  0x4148504C41204C4C414D5320444C4F42204C41434954414D454854414D20202020202020264C2023202020202020202020202031423330203B46435F434B464E203B2020202020202020203243364431,
  0x41544542204C4C414D5320444C4F42204C41434954414D454854414D20202020202020264C2023202020202020202020202032423330203B46435F434B464E203B2020202020202020203343364431,
  0x414D4D4147204C4C414D5320444C4F42204C41434954414D454854414D20202020202020264C2023202020202020202020202033423330203B46435F434B464E203B2020202020202020203443364431,
  0x41544C4544204C4C414D5320444C4F42204C41434954414D454854414D20202020202020264C2023202020202020202020202034423330203B46435F434B464E203B2020202020202020203543364431,
  0x4E4F4C49535045204C4C414D5320444C4F42204C41434954414D454854414D20202020202020264C2023202020202020202020202035423330203B46435F434B464E203B2020202020202020203643364431,
  0x4154455A204C4C414D5320444C4F42204C41434954414D454854414D20202020202020264C2023202020202020202020202036423330203B46435F434B464E203B2020202020202020203743364431,
  0x415445204C4C414D5320444C4F42204C41434954414D454854414D20202020202020264C2023202020202020202020202037423330203B46435F434B464E203B2020202020202020203843364431,
  0x4154454854204C4C414D5320444C4F42204C41434954414D454854414D20202020202020264C2023202020202020202020202038423330203B46435F434B464E203B2020202020202020203943364431,
  0x41544F49204C4C414D5320444C4F42204C41434954414D454854414D20202020202020264C2023202020202020202020202039423330203B46435F434B464E203B2020202020202020204143364431,
  0x415050414B204C4C414D5320444C4F42204C41434954414D454854414D20202020202020264C2023202020202020202020202041423330203B46435F434B464E203B2020202020202020204243364431,
  0x41444D414C204C4C414D5320444C4F42204C41434954414D454854414D20202020202020264C2023202020202020202020202042423330203B46435F434B464E203B2020202020202020204343364431,
  0x554D204C4C414D5320444C4F42204C41434954414D454854414D20202020202020264C2023202020202020202020202043423330203B46435F434B464E203B2020202020202020204443364431,
  0x554E204C4C414D5320444C4F42204C41434954414D454854414D20202020202020264C2023202020202020202020202044423330203B46435F434B464E203B2020202020202020204543364431,
  0x4958204C4C414D5320444C4F42204C41434954414D454854414D20202020202020264C2023202020202020202020202045423330203B46435F434B464E203B2020202020202020204643364431,
  0x4E4F5243494D4F204C4C414D5320444C4F42204C41434954414D454854414D20202020202020264C2023202020202020202020202046423330203B46435F434B464E203B2020202020202020203044364431,
  0x4950204C4C414D5320444C4F42204C41434954414D454854414D20202020202020264C2023202020202020202020202030433330203B46435F434B464E203B2020202020202020203144364431,
  0x4F4852204C4C414D5320444C4F42204C41434954414D454854414D20202020202020264C2023202020202020202020202031433330203B46435F434B464E203B2020202020202020203244364431,
  0x414D474953204C4C414D5320444C4F42204C41434954414D454854414D2E2E414D474953204C414E4946204C4C414D5320444C4F42204C41434954414D454854414D205D325B202020264C2023202020202020202020202033433330203B46435F434B464E203B202034443644312E2E3344364431,
  0x554154204C4C414D5320444C4F42204C41434954414D454854414D20202020202020264C2023202020202020202020202034433330203B46435F434B464E203B2020202020202020203544364431,
  0x4E4F4C49535055204C4C414D5320444C4F42204C41434954414D454854414D20202020202020264C2023202020202020202020202035433330203B46435F434B464E203B2020202020202020203644364431,
  0x494850204C4C414D5320444C4F42204C41434954414D454854414D20202020202020264C2023202020202020202020202036433330203B46435F434B464E203B2020202020202020203744364431,
  0x494843204C4C414D5320444C4F42204C41434954414D454854414D20202020202020264C2023202020202020202020202037433330203B46435F434B464E203B2020202020202020203844364431,
  0x495350204C4C414D5320444C4F42204C41434954414D454854414D20202020202020264C2023202020202020202020202038433330203B46435F434B464E203B2020202020202020203944364431,
  0x4147454D4F204C4C414D5320444C4F42204C41434954414D454854414D20202020202020264C2023202020202020202020202039433330203B46435F434B464E203B2020202020202020204144364431,
  0x4C4149544E45524546464944204C41495452415020444C4F42204C41434954414D454854414D202020202020206D532023202020202020202020202032303232203B46435F434B464E203B2020202020202020204244364431,
  0x4C4F424D5953204E4F4C4953504520444C4F42204C41434954414D454854414D20202020202020264C2023202020202020202020202035423330203B46435F434B464E203B2020202020202020204344364431,
  0x4C4F424D595320415445485420444C4F42204C41434954414D454854414D20202020202020264C2023202020202020202020202038423330203B46435F434B464E203B2020202020202020204444364431,
  0x4C4F424D595320415050414B20444C4F42204C41434954414D454854414D20202020202020264C2023202020202020202020202041423330203B46435F434B464E203B2020202020202020204544364431,
  0x4C4F424D59532049485020444C4F42204C41434954414D454854414D20202020202020264C2023202020202020202020202036433330203B46435F434B464E203B2020202020202020204644364431,
  0x4C4F424D5953204F485220444C4F42204C41434954414D454854414D20202020202020264C2023202020202020202020202031433330203B46435F434B464E203B2020202020202020203045364431,
  0x4C4F424D595320495020444C4F42204C41434954414D454854414D20202020202020264C2023202020202020202020202030433330203B46435F434B464E203B2020202020202020203145364431,
  0x4148504C41204C4154495041432043494C415449204C41434954414D454854414D20202020202020264C2023202020202020202020202031423330203B46435F434B464E203B2020202020202020203245364431,
  0x41544542204C4154495041432043494C415449204C41434954414D454854414D20202020202020264C2023202020202020202020202032423330203B46435F434B464E203B2020202020202020203345364431,
  0x414D4D4147204C4154495041432043494C415449204C41434954414D454854414D20202020202020264C2023202020202020202020202033423330203B46435F434B464E203B2020202020202020203445364431,
  0x41544C4544204C4154495041432043494C415449204C41434954414D454854414D20202020202020264C2023202020202020202020202034423330203B46435F434B464E203B2020202020202020203545364431,
  0x4E4F4C49535045204C4154495041432043494C415449204C41434954414D454854414D20202020202020264C2023202020202020202020202035423330203B46435F434B464E203B2020202020202020203645364431,
  0x4154455A204C4154495041432043494C415449204C41434954414D454854414D20202020202020264C2023202020202020202020202036423330203B46435F434B464E203B2020202020202020203745364431,
  0x415445204C4154495041432043494C415449204C41434954414D454854414D20202020202020264C2023202020202020202020202037423330203B46435F434B464E203B2020202020202020203845364431,
  0x4154454854204C4154495041432043494C415449204C41434954414D454854414D20202020202020264C2023202020202020202020202038423330203B46435F434B464E203B2020202020202020203945364431,
  0x41544F49204C4154495041432043494C415449204C41434954414D454854414D20202020202020264C2023202020202020202020202039423330203B46435F434B464E203B2020202020202020204145364431,
  0x415050414B204C4154495041432043494C415449204C41434954414D454854414D20202020202020264C2023202020202020202020202041423330203B46435F434B464E203B2020202020202020204245364431,
  0x41444D414C204C4154495041432043494C415449204C41434954414D454854414D20202020202020264C2023202020202020202020202042423330203B46435F434B464E203B2020202020202020204345364431,
  0x554D204C4154495041432043494C415449204C41434954414D454854414D20202020202020264C2023202020202020202020202043423330203B46435F434B464E203B2020202020202020204445364431,
  0x554E204C4154495041432043494C415449204C41434954414D454854414D20202020202020264C2023202020202020202020202044423330203B46435F434B464E203B2020202020202020204545364431,
  0x4958204C4154495041432043494C415449204C41434954414D454854414D20202020202020264C2023202020202020202020202045423330203B46435F434B464E203B2020202020202020204645364431,
  0x4E4F5243494D4F204C4154495041432043494C415449204C41434954414D454854414D20202020202020264C2023202020202020202020202046423330203B46435F434B464E203B2020202020202020203046364431,
  0x4950204C4154495041432043494C415449204C41434954414D454854414D20202020202020264C2023202020202020202020202030433330203B46435F434B464E203B2020202020202020203146364431,
  0x4F4852204C4154495041432043494C415449204C41434954414D454854414D20202020202020264C2023202020202020202020202031433330203B46435F434B464E203B2020202020202020203246364431,
  0x4C4F424D5953204154454854204C4154495041432043494C415449204C41434954414D454854414D20202020202020264C2023202020202020202020202038423330203B46435F434B464E203B2020202020202020203346364431,
  0x414D474953204C4154495041432043494C415449204C41434954414D454854414D20202020202020264C2023202020202020202020202033433330203B46435F434B464E203B2020202020202020203446364431,
  0x554154204C4154495041432043494C415449204C41434954414D454854414D20202020202020264C2023202020202020202020202034433330203B46435F434B464E203B2020202020202020203546364431,
  0x4E4F4C49535055204C4154495041432043494C415449204C41434954414D454854414D20202020202020264C2023202020202020202020202035433330203B46435F434B464E203B2020202020202020203646364431,
  0x494850204C4154495041432043494C415449204C41434954414D454854414D20202020202020264C2023202020202020202020202036433330203B46435F434B464E203B2020202020202020203746364431,
  0x494843204C4154495041432043494C415449204C41434954414D454854414D20202020202020264C2023202020202020202020202037433330203B46435F434B464E203B2020202020202020203846364431,
  0x495350204C4154495041432043494C415449204C41434954414D454854414D20202020202020264C2023202020202020202020202038433330203B46435F434B464E203B2020202020202020203946364431,
  0x4147454D4F204C4154495041432043494C415449204C41434954414D454854414D20202020202020264C2023202020202020202020202039433330203B46435F434B464E203B2020202020202020204146364431,
  0x414C42414E2043494C415449204C41434954414D454854414D202020202020206D532023202020202020202020202037303232203B46435F434B464E203B2020202020202020204246364431,
  0x4148504C41204C4C414D532043494C415449204C41434954414D454854414D20202020202020264C2023202020202020202020202031423330203B46435F434B464E203B2020202020202020204346364431,
  0x41544542204C4C414D532043494C415449204C41434954414D454854414D20202020202020264C2023202020202020202020202032423330203B46435F434B464E203B2020202020202020204446364431,
  0x414D4D4147204C4C414D532043494C415449204C41434954414D454854414D20202020202020264C2023202020202020202020202033423330203B46435F434B464E203B2020202020202020204546364431,
  0x41544C4544204C4C414D532043494C415449204C41434954414D454854414D20202020202020264C2023202020202020202020202034423330203B46435F434B464E203B2020202020202020204646364431,
  0x4E4F4C49535045204C4C414D532043494C415449204C41434954414D454854414D20202020202020264C2023202020202020202020202035423330203B46435F434B464E203B2020202020202020203030374431,
  0x4154455A204C4C414D532043494C415449204C41434954414D454854414D20202020202020264C2023202020202020202020202036423330203B46435F434B464E203B2020202020202020203130374431,
  0x415445204C4C414D532043494C415449204C41434954414D454854414D20202020202020264C2023202020202020202020202037423330203B46435F434B464E203B2020202020202020203230374431,
  0x4154454854204C4C414D532043494C415449204C41434954414D454854414D20202020202020264C2023202020202020202020202038423330203B46435F434B464E203B2020202020202020203330374431,
  0x41544F49204C4C414D532043494C415449204C41434954414D454854414D20202020202020264C2023202020202020202020202039423330203B46435F434B464E203B2020202020202020203430374431,
  0x415050414B204C4C414D532043494C415449204C41434954414D454854414D20202020202020264C2023202020202020202020202041423330203B46435F434B464E203B2020202020202020203530374431,
  0x41444D414C204C4C414D532043494C415449204C41434954414D454854414D20202020202020264C2023202020202020202020202042423330203B46435F434B464E203B2020202020202020203630374431,
  0x554D204C4C414D532043494C415449204C41434954414D454854414D20202020202020264C2023202020202020202020202043423330203B46435F434B464E203B2020202020202020203730374431,
  0x554E204C4C414D532043494C415449204C41434954414D454854414D20202020202020264C2023202020202020202020202044423330203B46435F434B464E203B2020202020202020203830374431,
  0x4958204C4C414D532043494C415449204C41434954414D454854414D20202020202020264C2023202020202020202020202045423330203B46435F434B464E203B2020202020202020203930374431,
  0x4E4F5243494D4F204C4C414D532043494C415449204C41434954414D454854414D20202020202020264C2023202020202020202020202046423330203B46435F434B464E203B2020202020202020204130374431,
  0x4950204C4C414D532043494C415449204C41434954414D454854414D20202020202020264C2023202020202020202020202030433330203B46435F434B464E203B2020202020202020204230374431,
  0x4F4852204C4C414D532043494C415449204C41434954414D454854414D20202020202020264C2023202020202020202020202031433330203B46435F434B464E203B2020202020202020204330374431,
  0x414D474953204C4C414D532043494C415449204C41434954414D454854414D2E2E414D474953204C414E4946204C4C414D532043494C415449204C41434954414D454854414D205D325B202020264C2023202020202020202020202033433330203B46435F434B464E203B202045303744312E2E4430374431,
  0x554154204C4C414D532043494C415449204C41434954414D454854414D20202020202020264C2023202020202020202020202034433330203B46435F434B464E203B2020202020202020204630374431,
  0x4E4F4C49535055204C4C414D532043494C415449204C41434954414D454854414D20202020202020264C2023202020202020202020202035433330203B46435F434B464E203B2020202020202020203031374431,
  0x494850204C4C414D532043494C415449204C41434954414D454854414D20202020202020264C2023202020202020202020202036433330203B46435F434B464E203B2020202020202020203131374431,
  0x494843204C4C414D532043494C415449204C41434954414D454854414D20202020202020264C2023202020202020202020202037433330203B46435F434B464E203B2020202020202020203231374431,
  0x495350204C4C414D532043494C415449204C41434954414D454854414D20202020202020264C2023202020202020202020202038433330203B46435F434B464E203B2020202020202020203331374431,
  0x4147454D4F204C4C414D532043494C415449204C41434954414D454854414D20202020202020264C2023202020202020202020202039433330203B46435F434B464E203B2020202020202020203431374431,
  0x4C4149544E45524546464944204C4149545241502043494C415449204C41434954414D454854414D202020202020206D532023202020202020202020202032303232203B46435F434B464E203B2020202020202020203531374431,
  0x4C4F424D5953204E4F4C495350452043494C415449204C41434954414D454854414D20202020202020264C2023202020202020202020202035423330203B46435F434B464E203B2020202020202020203631374431,
  0x4C4F424D59532041544548542043494C415449204C41434954414D454854414D20202020202020264C2023202020202020202020202038423330203B46435F434B464E203B2020202020202020203731374431,
  0x4C4F424D595320415050414B2043494C415449204C41434954414D454854414D20202020202020264C2023202020202020202020202041423330203B46435F434B464E203B2020202020202020203831374431,
  0x4C4F424D5953204948502043494C415449204C41434954414D454854414D20202020202020264C2023202020202020202020202036433330203B46435F434B464E203B2020202020202020203931374431,
  0x4C4F424D5953204F48522043494C415449204C41434954414D454854414D20202020202020264C2023202020202020202020202031433330203B46435F434B464E203B2020202020202020204131374431,
  0x4C4F424D59532049502043494C415449204C41434954414D454854414D20202020202020264C2023202020202020202020202030433330203B46435F434B464E203B2020202020202020204231374431,
  0x4148504C41204C4154495041432043494C41544920444C4F42204C41434954414D454854414D20202020202020264C2023202020202020202020202031423330203B46435F434B464E203B2020202020202020204331374431,
  0x41544542204C4154495041432043494C41544920444C4F42204C41434954414D454854414D20202020202020264C2023202020202020202020202032423330203B46435F434B464E203B2020202020202020204431374431,
  0x414D4D4147204C4154495041432043494C41544920444C4F42204C41434954414D454854414D20202020202020264C2023202020202020202020202033423330203B46435F434B464E203B2020202020202020204531374431,
  0x41544C4544204C4154495041432043494C41544920444C4F42204C41434954414D454854414D20202020202020264C2023202020202020202020202034423330203B46435F434B464E203B2020202020202020204631374431,
  0x4E4F4C49535045204C4154495041432043494C41544920444C4F42204C41434954414D454854414D20202020202020264C2023202020202020202020202035423330203B46435F434B464E203B2020202020202020203032374431]

def qcText31 : List Nat := [
  0x4154455A204C4154495041432043494C41544920444C4F42204C41434954414D454854414D20202020202020264C2023202020202020202020202036423330203B46435F434B464E203B2020202020202020203132374431,
  0x415445204C4154495041432043494C41544920444C4F42204C41434954414D454854414D20202020202020264C2023202020202020202020202037423330203B46435F434B464E203B2020202020202020203232374431,
  0x4154454854204C4154495041432043494C41544920444C4F42204C41434954414D454854414D20202020202020264C2023202020202020202020202038423330203B46435F434B464E203B2020202020202020203332374431,
  0x41544F49204C4154495041432043494C41544920444C4F42204C41434954414D454854414D20202020202020264C2023202020202020202020202039423330203B46435F434B464E203B2020202020202020203432374431,
  0x415050414B204C4154495041432043494C41544920444C4F42204C41434954414D454854414D20202020202020264C2023202020202020202020202041423330203B46435F434B464E203B2020202020202020203532374431,
  0x41444D414C204C4154495041432043494C41544920444C4F42204C41434954414D454854414D20202020202020264C2023202020202020202020202042423330203B46435F434B464E203B2020202020202020203632374431,
  0x554D204C4154495041432043494C41544920444C4F42204C41434954414D454854414D20202020202020264C2023202020202020202020202043423330203B46435F434B464E203B2020202020202020203732374431,
  0x554E204C4154495041432043494C41544920444C4F42204C41434954414D454854414D20202020202020264C2023202020202020202020202044423330203B46435F434B464E203B2020202020202020203832374431,
  0x4958204C4154495041432043494C41544920444C4F42204C41434954414D454854414D20202020202020264C2023202020202020202020202045423330203B46435F434B464E203B2020202020202020203932374431,
  0x4E4F5243494D4F204C4154495041432043494C41544920444C4F42204C41434954414D454854414D20202020202020264C2023202020202020202020202046423330203B46435F434B464E203B2020202020202020204132374431,
  0x4950204C4154495041432043494C41544920444C4F42204C41434954414D454854414D20202020202020264C2023202020202020202020202030433330203B46435F434B464E203B2020202020202020204232374431,
  0x4F4852204C4154495041432043494C41544920444C4F42204C41434954414D454854414D20202020202020264C2023202020202020202020202031433330203B46435F434B464E203B2020202020202020204332374431,
  0x4C4F424D5953204154454854204C4154495041432043494C41544920444C4F42204C41434954414D454854414D20202020202020264C2023202020202020202020202038423330203B46435F434B464E203B2020202020202020204432374431,
  0x414D474953204C4154495041432043494C41544920444C4F42204C41434954414D454854414D20202020202020264C2023202020202020202020202033433330203B46435F434B464E203B2020202020202020204532374431,
  0x554154204C4154495041432043494C41544920444C4F42204C41434954414D454854414D20202020202020264C2023202020202020202020202034433330203B46435F434B464E203B2020202020202020204632374431,
  0x4E4F4C49535055204C4154495041432043494C41544920444C4F42204C41434954414D454854414D20202020202020264C2023202020202020202020202035433330203B46435F434B464E203B2020202020202020203033374431,
  0x494850204C4154495041432043494C41544920444C4F42204C41434954414D454854414D20202020202020264C2023202020202020202020202036433330203B46435F434B464E203B2020202020202020203133374431,
  0x494843204C4154495041432043494C41544920444C4F42204C41434954414D454854414D20202020202020264C2023202020202020202020202037433330203B46435F434B464E203B2020202020202020203233374431,
  0x495350204C4154495041432043494C41544920444C4F42204C41434954414D454854414D20202020202020264C2023202020202020202020202038433330203B46435F434B464E203B2020202020202020203333374431,
  0x4147454D4F204C4154495041432043494C41544920444C4F42204C41434954414D454854414D20202020202020264C2023202020202020202020202039433330203B46435F434B464E203B2020202020202020203433374431,
  0x414C42414E2043494C41544920444C4F42204C41434954414D454854414D202020202020206D532023202020202020202020202037303232203B46435F434B464E203B2020202020202020203533374431,
  0x4148504C41204C4C414D532043494C41544920444C4F42204C41434954414D454854414D20202020202020264C2023202020202020202020202031423330203B46435F434B464E203B2020202020202020203633374431,
  0x41544542204C4C414D532043494C41544920444C4F42204C41434954414D454854414D20202020202020264C2023202020202020202020202032423330203B46435F434B464E203B2020202020202020203733374431,
  0x414D4D4147204C4C414D532043494C41544920444C4F42204C41434954414D454854414D20202020202020264C2023202020202020202020202033423330203B46435F434B464E203B2020202020202020203833374431,
  0x41544C4544204C4C414D532043494C41544920444C4F42204C41434954414D454854414D20202020202020264C2023202020202020202020202034423330203B46435F434B464E203B2020202020202020203933374431,
  0x4E4F4C49535045204C4C414D532043494C41544920444C4F42204C41434954414D454854414D20202020202020264C2023202020202020202020202035423330203B46435F434B464E203B2020202020202020204133374431,
  0x4154455A204C4C414D532043494C41544920444C4F42204C41434954414D454854414D20202020202020264C2023202020202020202020202036423330203B46435F434B464E203B2020202020202020204233374431,
  0x415445204C4C414D532043494C41544920444C4F42204C41434954414D454854414D20202020202020264C2023202020202020202020202037423330203B46435F434B464E203B2020202020202020204333374431,
  0x4154454854204C4C414D532043494C41544920444C4F42204C41434954414D454854414D20202020202020264C2023202020202020202020202038423330203B46435F434B464E203B2020202020202020204433374431,
  0x41544F49204C4C414D532043494C41544920444C4F42204C41434954414D454854414D20202020202020264C2023202020202020202020202039423330203B46435F434B464E203B2020202020202020204533374431,
  0x415050414B204C4C414D532043494C41544920444C4F42204C41434954414D454854414D20202020202020264C2023202020202020202020202041423330203B46435F434B464E203B2020202020202020204633374431,
  0x41444D414C204C4C414D532043494C41544920444C4F42204C41434954414D454854414D20202020202020264C2023202020202020202020202042423330203B46435F434B464E203B2020202020202020203034374431,
  0x554D204C4C414D532043494C41544920444C4F42204C41434954414D454854414D20202020202020264C2023202020202020202020202043423330203B46435F434B464E203B2020202020202020203134374431,
  0x554E204C4C414D532043494C41544920444C4F42204C41434954414D454854414D20202020202020264C2023202020202020202020202044423330203B46435F434B464E203B2020202020202020203234374431,
  0x4958204C4C414D532043494C41544920444C4F42204C41434954414D454854414D20202020202020264C2023202020202020202020202045423330203B46435F434B464E203B2020202020202020203334374431,
  0x4E4F5243494D4F204C4C414D532043494C41544920444C4F42204C41434954414D454854414D20202020202020264C2023202020202020202020202046423330203B46435F434B464E203B2020202020202020203434374431,
  0x4950204C4C414D532043494C41544920444C4F42204C41434954414D454854414D20202020202020264C2023202020202020202020202030433330203B46435F434B464E203B2020202020202020203534374431,
  0x4F4852204C4C414D532043494C41544920444C4F42204C41434954414D454854414D20202020202020264C2023202020202020202020202031433330203B46435F434B464E203B2020202020202020203634374431,
  0x414D474953204C4C414D532043494C41544920444C4F42204C41434954414D454854414D2E2E414D474953204C414E4946204C4C414D532043494C41544920444C4F42204C41434954414D454854414D205D325B202020264C2023202020202020202020202033433330203B46435F434B464E203B202038343744312E2E3734374431,
  0x554154204C4C414D532043494C41544920444C4F42204C41434954414D454854414D20202020202020264C2023202020202020202020202034433330203B46435F434B464E203B2020202020202020203934374431,
  0x4E4F4C49535055204C4C414D532043494C41544920444C4F42204C41434954414D454854414D20202020202020264C2023202020202020202020202035433330203B46435F434B464E203B2020202020202020204134374431,
  0x494850204C4C414D532043494C41544920444C4F42204C41434954414D454854414D20202020202020264C2023202020202020202020202036433330203B46435F434B464E203B2020202020202020204234374431,
  0x494843204C4C414D532043494C41544920444C4F42204C41434954414D454854414D20202020202020264C2023202020202020202020202037433330203B46435F434B464E203B2020202020202020204334374431,
  0x495350204C4C414D532043494C41544920444C4F42204C41434954414D454854414D20202020202020264C2023202020202020202020202038433330203B46435F434B464E203B2020202020202020204434374431,
  0x4147454D4F204C4C414D532043494C41544920444C4F42204C41434954414D454854414D20202020202020264C2023202020202020202020202039433330203B46435F434B464E203B2020202020202020204534374431,
  0x4C4149544E45524546464944204C4149545241502043494C41544920444C4F42204C41434954414D454854414D202020202020206D532023202020202020202020202032303232203B46435F434B464E203B2020202020202020204634374431,
  0x4C4F424D5953204E4F4C495350452043494C41544920444C4F42204C41434954414D454854414D20202020202020264C2023202020202020202020202035423330203B46435F434B464E203B2020202020202020203035374431,
  0x4C4F424D59532041544548542043494C41544920444C4F42204C41434954414D454854414D20202020202020264C2023202020202020202020202038423330203B46435F434B464E203B2020202020202020203135374431,
  0x4C4F424D595320415050414B2043494C41544920444C4F42204C41434954414D454854414D20202020202020264C2023202020202020202020202041423330203B46435F434B464E203B2020202020202020203235374431,
  0x4C4F424D5953204948502043494C41544920444C4F42204C41434954414D454854414D20202020202020264C2023202020202020202020202036433330203B46435F434B464E203B2020202020202020203335374431,
  0x4C4F424D5953204F48522043494C41544920444C4F42204C41434954414D454854414D20202020202020264C2023202020202020202020202031433330203B46435F434B464E203B2020202020202020203435374431,
  0x4C4F424D59532049502043494C41544920444C4F42204C41434954414D454854414D20202020202020264C2023202020202020202020202030433330203B46435F434B464E203B2020202020202020203535374431,
  0x4148504C41204C41544950414320444C4F422046495245532D534E4153204C41434954414D454854414D20202020202020264C2023202020202020202020202031423330203B46435F434B464E203B2020202020202020203635374431,
  0x41544542204C41544950414320444C4F422046495245532D534E4153204C41434954414D454854414D20202020202020264C2023202020202020202020202032423330203B46435F434B464E203B2020202020202020203735374431,
  0x414D4D4147204C41544950414320444C4F422046495245532D534E4153204C41434954414D454854414D20202020202020264C2023202020202020202020202033423330203B46435F434B464E203B2020202020202020203835374431,
  0x41544C4544204C41544950414320444C4F422046495245532D534E4153204C41434954414D454854414D20202020202020264C2023202020202020202020202034423330203B46435F434B464E203B2020202020202020203935374431,
  0x4E4F4C49535045204C41544950414320444C4F422046495245532D534E4153204C41434954414D454854414D20202020202020264C2023202020202020202020202035423330203B46435F434B464E203B2020202020202020204135374431,
  0x4154455A204C41544950414320444C4F422046495245532D534E4153204C41434954414D454854414D20202020202020264C2023202020202020202020202036423330203B46435F434B464E203B2020202020202020204235374431,
  0x415445204C41544950414320444C4F422046495245532D534E4153204C41434954414D454854414D20202020202020264C2023202020202020202020202037423330203B46435F434B464E203B2020202020202020204335374431,
  0x4154454854204C41544950414320444C4F422046495245532D534E4153204C41434954414D454854414D20202020202020264C2023202020202020202020202038423330203B46435F434B464E203B2020202020202020204435374431,
  0x41544F49204C41544950414320444C4F422046495245532D534E4153204C41434954414D454854414D20202020202020264C2023202020202020202020202039423330203B46435F434B464E203B2020202020202020204535374431,
  0x415050414B204C41544950414320444C4F422046495245532D534E4153204C41434954414D454854414D20202020202020264C2023202020202020202020202041423330203B46435F434B464E203B2020202020202020204635374431,
  0x41444D414C204C41544950414320444C4F422046495245532D534E4153204C41434954414D454854414D20202020202020264C2023202020202020202020202042423330203B46435F434B464E203B2020202020202020203036374431,
  0x554D204C41544950414320444C4F422046495245532D534E4153204C41434954414D454854414D20202020202020264C2023202020202020202020202043423330203B46435F434B464E203B2020202020202020203136374431,
  0x554E204C41544950414320444C4F422046495245532D534E4153204C41434954414D454854414D20202020202020264C2023202020202020202020202044423330203B46435F434B464E203B2020202020202020203236374431,
  0x4958204C41544950414320444C4F422046495245532D534E4153204C41434954414D454854414D20202020202020264C2023202020202020202020202045423330203B46435F434B464E203B2020202020202020203336374431,
  0x4E4F5243494D4F204C41544950414320444C4F422046495245532D534E4153204C41434954414D454854414D20202020202020264C2023202020202020202020202046423330203B46435F434B464E203B2020202020202020203436374431,
  0x4950204C41544950414320444C4F422046495245532D534E4153204C41434954414D454854414D20202020202020264C2023202020202020202020202030433330203B46435F434B464E203B2020202020202020203536374431,
  0x4F4852204C41544950414320444C4F422046495245532D534E4153204C41434954414D454854414D20202020202020264C2023202020202020202020202031433330203B46435F434B464E203B2020202020202020203636374431,
  0x4C4F424D5953204154454854204C41544950414320444C4F422046495245532D534E4153204C41434954414D454854414D20202020202020264C2023202020202020202020202038423330203B46435F434B464E203B2020202020202020203736374431,
  0x414D474953204C41544950414320444C4F422046495245532D534E4153204C41434954414D454854414D20202020202020264C2023202020202020202020202033433330203B46435F434B464E203B2020202020202020203836374431,
  0x554154204C41544950414320444C4F422046495245532D534E4153204C41434954414D454854414D20202020202020264C2023202020202020202020202034433330203B46435F434B464E203B2020202020202020203936374431,
  0x4E4F4C49535055204C41544950414320444C4F422046495245532D534E4153204C41434954414D454854414D20202020202020264C2023202020202020202020202035433330203B46435F434B464E203B2020202020202020204136374431,
  0x494850204C41544950414320444C4F422046495245532D534E4153204C41434954414D454854414D20202020202020264C2023202020202020202020202036433330203B46435F434B464E203B2020202020202020204236374431,
  0x494843204C41544950414320444C4F422046495245532D534E4153204C41434954414D454854414D20202020202020264C2023202020202020202020202037433330203B46435F434B464E203B2020202020202020204336374431,
  0x495350204C41544950414320444C4F422046495245532D534E4153204C41434954414D454854414D20202020202020264C2023202020202020202020202038433330203B46435F434B464E203B2020202020202020204436374431,
  0x4147454D4F204C41544950414320444C4F422046495245532D534E4153204C41434954414D454854414D20202020202020264C2023202020202020202020202039433330203B46435F434B464E203B2020202020202020204536374431,
  0x414C42414E20444C4F422046495245532D534E4153204C41434954414D454854414D202020202020206D532023202020202020202020202037303232203B46435F434B464E203B2020202020202020204636374431,
  0x4148504C41204C4C414D5320444C4F422046495245532D534E4153204C41434954414D454854414D20202020202020264C2023202020202020202020202031423330203B46435F434B464E203B2020202020202020203037374431,
  0x41544542204C4C414D5320444C4F422046495245532D534E4153204C41434954414D454854414D20202020202020264C2023202020202020202020202032423330203B46435F434B464E203B2020202020202020203137374431,
  0x414D4D4147204C4C414D5320444C4F422046495245532D534E4153204C41434954414D454854414D20202020202020264C2023202020202020202020202033423330203B46435F434B464E203B2020202020202020203237374431,
  0x41544C4544204C4C414D5320444C4F422046495245532D534E4153204C41434954414D454854414D20202020202020264C2023202020202020202020202034423330203B46435F434B464E203B2020202020202020203337374431,
  0x4E4F4C49535045204C4C414D5320444C4F422046495245532D534E4153204C41434954414D454854414D20202020202020264C2023202020202020202020202035423330203B46435F434B464E203B2020202020202020203437374431,
  0x4154455A204C4C414D5320444C4F422046495245532D534E4153204C41434954414D454854414D20202020202020264C2023202020202020202020202036423330203B46435F434B464E203B2020202020202020203537374431,
  0x415445204C4C414D5320444C4F422046495245532D534E4153204C41434954414D454854414D20202020202020264C2023202020202020202020202037423330203B46435F434B464E203B2020202020202020203637374431,
  0x4154454854204C4C414D5320444C4F422046495245532D534E4153204C41434954414D454854414D20202020202020264C2023202020202020202020202038423330203B46435F434B464E203B2020202020202020203737374431,
  0x41544F49204C4C414D5320444C4F422046495245532D534E4153204C41434954414D454854414D20202020202020264C2023202020202020202020202039423330203B46435F434B464E203B2020202020202020203837374431,
  0x415050414B204C4C414D5320444C4F422046495245532D534E4153204C41434954414D454854414D20202020202020264C2023202020202020202020202041423330203B46435F434B464E203B2020202020202020203937374431,
  0x41444D414C204C4C414D5320444C4F422046495245532D534E4153204C41434954414D454854414D20202020202020264C2023202020202020202020202042423330203B46435F434B464E203B2020202020202020204137374431,
  0x554D204C4C414D5320444C4F422046495245532D534E4153204C41434954414D454854414D20202020202020264C2023202020202020202020202043423330203B46435F434B464E203B2020202020202020204237374431,
  0x554E204C4C414D5320444C4F422046495245532D534E4153204C41434954414D454854414D20202020202020264C2023202020202020202020202044423330203B46435F434B464E203B2020202020202020204337374431,
  0x4958204C4C414D5320444C4F422046495245532D534E4153204C41434954414D454854414D20202020202020264C2023202020202020202020202045423330203B46435F434B464E203B2020202020202020204437374431,
  0x4E4F5243494D4F204C4C414D5320444C4F422046495245532D534E4153204C41434954414D454854414D20202020202020264C2023202020202020202020202046423330203B46435F434B464E203B2020202020202020204537374431,
  0x4950204C4C414D5320444C4F422046495245532D534E4153204C41434954414D454854414D20202020202020264C2023202020202020202020202030433330203B46435F434B464E203B2020202020202020204637374431,
  0x4F4852204C4C414D5320444C4F422046495245532D534E4153204C41434954414D454854414D20202020202020264C2023202020202020202020202031433330203B46435F434B464E203B2020202020202020203038374431,
  0x414D474953204C4C414D5320444C4F422046495245532D534E4153204C41434954414D454854414D2E2E414D474953204C414E4946204C4C414D5320444C4F422046495245532D534E4153204C41434954414D454854414D205D325B202020264C2023202020202020202020202033433330203B46435F434B464E203B202032383744312E2E3138374431,
  0x554154204C4C414D5320444C4F422046495245532D534E4153204C41434954414D454854414D20202020202020264C2023202020202020202020202034433330203B46435F434B464E203B2020202020202020203338374431,
  0x4E4F4C49535055204C4C414D5320444C4F422046495245532D534E4153204C41434954414D454854414D20202020202020264C2023202020202020202020202035433330203B46435F434B464E203B2020202020202020203438374431,
  0x494850204C4C414D5320444C4F422046495245532D534E4153204C41434954414D454854414D20202020202020264C2023202020202020202020202036433330203B46435F434B464E203B2020202020202020203538374431,
  0x494843204C4C414D5320444C4F422046495245532D534E4153204C41434954414D454854414D20202020202020264C2023202020202020202020202037433330203B46435F434B464E203B2020202020202020203638374431,
  0x495350204C4C414D5320444C4F422046495245532D534E4153204C41434954414D454854414D20202020202020264C2023202020202020202020202038433330203B46435F434B464E203B2020202020202020203738374431,
  0x4147454D4F204C4C414D5320444C4F422046495245532D534E4153204C41434954414D454854414D20202020202020264C2023202020202020202020202039433330203B46435F434B464E203B2020202020202020203838374431,
  0x4C4149544E45524546464944204C41495452415020444C4F422046495245532D534E4153204C41434954414D454854414D202020202020206D532023202020202020202020202032303232203B46435F434B464E203B2020202020202020203938374431,
  0x4C4F424D5953204E4F4C4953504520444C4F422046495245532D534E4153204C41434954414D454854414D20202020202020264C2023202020202020202020202035423330203B46435F434B464E203B2020202020202020204138374431,
  0x4C4F424D595320415445485420444C4F422046495245532D534E4153204C41434954414D454854414D20202020202020264C2023202020202020202020202038423330203B46435F434B464E203B2020202020202020204238374431,
  0x4C4F424D595320415050414B20444C4F422046495245532D534E4153204C41434954414D454854414D20202020202020264C2023202020202020202020202041423330203B46435F434B464E203B2020202020202020204338374431,
  0x4C4F424D59532049485020444C4F422046495245532D534E4153204C41434954414D454854414D20202020202020264C2023202020202020202020202036433330203B46435F434B464E203B2020202020202020204438374431,
  0x4C4F424D5953204F485220444C4F422046495245532D534E4153204C41434954414D454854414D20202020202020264C2023202020202020202020202031433330203B46435F434B464E203B2020202020202020204538374431,
  0x4C4F424D595320495020444C4F422046495245532D534E4153204C41434954414D454854414D20202020202020264C2023202020202020202020202030433330203B46435F434B464E203B2020202020202020204638374431,
  0x4148504C41204C4154495041432043494C41544920444C4F422046495245532D534E4153204C41434954414D454854414D20202020202020264C2023202020202020202020202031423330203B46435F434B464E203B2020202020202020203039374431,
  0x41544542204C4154495041432043494C41544920444C4F422046495245532D534E4153204C41434954414D454854414D20202020202020264C2023202020202020202020202032423330203B46435F434B464E203B2020202020202020203139374431,
  0x414D4D4147204C4154495041432043494C41544920444C4F422046495245532D534E4153204C41434954414D454854414D20202020202020264C2023202020202020202020202033423330203B46435F434B464E203B2020202020202020203239374431,
  0x41544C4544204C4154495041432043494C41544920444C4F422046495245532D534E4153204C41434954414D454854414D20202020202020264C2023202020202020202020202034423330203B46435F434B464E203B2020202020202020203339374431,
  0x4E4F4C49535045204C4154495041432043494C41544920444C4F422046495245532D534E4153204C41434954414D454854414D20202020202020264C2023202020202020202020202035423330203B46435F434B464E203B2020202020202020203439374431,
  0x4154455A204C4154495041432043494C41544920444C4F422046495245532D534E4153204C41434954414D454854414D20202020202020264C2023202020202020202020202036423330203B46435F434B464E203B2020202020202020203539374431,
  0x415445204C4154495041432043494C41544920444C4F422046495245532D534E4153204C41434954414D454854414D20202020202020264C2023202020202020202020202037423330203B46435F434B464E203B2020202020202020203639374431,
  0x4154454854204C4154495041432043494C41544920444C4F422046495245532D534E4153204C41434954414D454854414D20202020202020264C2023202020202020202020202038423330203B46435F434B464E203B2020202020202020203739374431,
  0x41544F49204C4154495041432043494C41544920444C4F422046495245532D534E4153204C41434954414D454854414D20202020202020264C2023202020202020202020202039423330203B46435F434B464E203B2020202020202020203839374431,
  0x415050414B204C4154495041432043494C41544920444C4F422046495245532D534E4153204C41434954414D454854414D20202020202020264C2023202020202020202020202041423330203B46435F434B464E203B2020202020202020203939374431,
  0x41444D414C204C4154495041432043494C41544920444C4F422046495245532D534E4153204C41434954414D454854414D20202020202020264C2023202020202020202020202042423330203B46435F434B464E203B2020202020202020204139374431,
  0x554D204C4154495041432043494C41544920444C4F422046495245532D534E4153204C41434954414D454854414D20202020202020264C2023202020202020202020202043423330203B46435F434B464E203B2020202020202020204239374431,
  0x554E204C4154495041432043494C41544920444C4F422046495245532D534E4153204C41434954414D454854414D20202020202020264C2023202020202020202020202044423330203B46435F434B464E203B2020202020202020204339374431,
  0x4958204C4154495041432043494C41544920444C4F422046495245532D534E4153204C41434954414D454854414D20202020202020264C2023202020202020202020202045423330203B46435F434B464E203B2020202020202020204439374431,
  0x4E4F5243494D4F204C4154495041432043494C41544920444C4F422046495245532D534E4153204C41434954414D454854414D20202020202020264C2023202020202020202020202046423330203B46435F434B464E203B2020202020202020204539374431,
  0x4950204C4154495041432043494C41544920444C4F422046495245532D534E4153204C41434954414D454854414D20202020202020264C2023202020202020202020202030433330203B46435F434B464E203B2020202020202020204639374431,
  0x4F4852204C4154495041432043494C41544920444C4F422046495245532D534E4153204C41434954414D454854414D20202020202020264C2023202020202020202020202031433330203B46435F434B464E203B2020202020202020203041374431,
  0x4C4F424D5953204154454854204C4154495041432043494C41544920444C4F422046495245532D534E4153204C41434954414D454854414D20202020202020264C2023202020202020202020202038423330203B46435F434B464E203B2020202020202020203141374431,
  0x414D474953204C4154495041432043494C41544920444C4F422046495245532D534E4153204C41434954414D454854414D20202020202020264C2023202020202020202020202033433330203B46435F434B464E203B2020202020202020203241374431,
  0x554154204C4154495041432043494C41544920444C4F422046495245532D534E4153204C41434954414D454854414D20202020202020264C2023202020202020202020202034433330203B46435F434B464E203B2020202020202020203341374431,
  0x4E4F4C49535055204C4154495041432043494C41544920444C4F422046495245532D534E4153204C41434954414D454854414D20202020202020264C2023202020202020202020202035433330203B46435F434B464E203B2020202020202020203441374431,
  0x494850204C4154495041432043494C41544920444C4F422046495245532D534E4153204C41434954414D454854414D20202020202020264C2023202020202020202020202036433330203B46435F434B464E203B2020202020202020203541374431,
  0x494843204C4154495041432043494C41544920444C4F422046495245532D534E4153204C41434954414D454854414D20202020202020264C2023202020202020202020202037433330203B46435F434B464E203B2020202020202020203641374431,
  0x495350204C4154495041432043494C41544920444C4F422046495245532D534E4153204C41434954414D454854414D20202020202020264C2023202020202020202020202038433330203B46435F434B464E203B2020202020202020203741374431,
  0x4147454D4F204C4154495041432043494C41544920444C4F422046495245532D534E4153204C41434954414D454854414D20202020202020264C2023202020202020202020202039433330203B46435F434B464E203B2020202020202020203841374431,
  0x414C42414E2043494C41544920444C4F422046495245532D534E4153204C41434954414D454854414D202020202020206D532023202020202020202020202037303232203B46435F434B464E203B2020202020202020203941374431,
  0x4148504C41204C4C414D532043494C41544920444C4F422046495245532D534E4153204C41434954414D454854414D20202020202020264C2023202020202020202020202031423330203B46435F434B464E203B2020202020202020204141374431,
  0x41544542204C4C414D532043494C41544920444C4F422046495245532D534E4153204C41434954414D454854414D20202020202020264C2023202020202020202020202032423330203B46435F434B464E203B2020202020202020204241374431,
  0x414D4D4147204C4C414D532043494C41544920444C4F422046495245532D534E4153204C41434954414D454854414D20202020202020264C2023202020202020202020202033423330203B46435F434B464E203B2020202020202020204341374431,
  0x41544C4544204C4C414D532043494C41544920444C4F422046495245532D534E4153204C41434954414D454854414D20202020202020264C2023202020202020202020202034423330203B46435F434B464E203B2020202020202020204441374431,
  0x4E4F4C49535045204C4C414D532043494C41544920444C4F422046495245532D534E4153204C41434954414D454854414D20202020202020264C2023202020202020202020202035423330203B46435F434B464E203B2020202020202020204541374431,
  0x4154455A204C4C414D532043494C41544920444C4F422046495245532D534E4153204C41434954414D454854414D20202020202020264C2023202020202020202020202036423330203B46435F434B464E203B2020202020202020204641374431,
  0x415445204C4C414D532043494C41544920444C4F422046495245532D534E4153204C41434954414D454854414D20202020202020264C2023202020202020202020202037423330203B46435F434B464E203B2020202020202020203042374431,
  0x4154454854204C4C414D532043494C41544920444C4F422046495245532D534E4153204C41434954414D454854414D20202020202020264C2023202020202020202020202038423330203B46435F434B464E203B2020202020202020203142374431,
  0x41544F49204C4C414D532043494C41544920444C4F422046495245532D534E4153204C41434954414D454854414D20202020202020264C2023202020202020202020202039423330203B46435F434B464E203B2020202020202020203242374431,
  0x415050414B204C4C414D532043494C41544920444C4F422046495245532D534E4153204C41434954414D454854414D20202020202020264C2023202020202020202020202041423330203B46435F434B464E203B2020202020202020203342374431,
  0x41444D414C204C4C414D532043494C41544920444C4F422046495245532D534E4153204C41434954414D454854414D20202020202020264C2023202020202020202020202042423330203B46435F434B464E203B2020202020202020203442374431,
  0x554D204C4C414D532043494C41544920444C4F422046495245532D534E4153204C41434954414D454854414D20202020202020264C2023202020202020202020202043423330203B46435F434B464E203B2020202020202020203542374431,
  0x554E204C4C414D532043494C41544920444C4F422046495245532D534E4153204C41434954414D454854414D20202020202020264C2023202020202020202020202044423330203B46435F434B464E203B2020202020202020203642374431,
  0x4958204C4C414D532043494C41544920444C4F422046495245532D534E4153204C41434954414D454854414D20202020202020264C2023202020202020202020202045423330203B46435F434B464E203B2020202020202020203742374431,
  0x4E4F5243494D4F204C4C414D532043494C41544920444C4F422046495245532D534E4153204C41434954414D454854414D20202020202020264C2023202020202020202020202046423330203B46435F434B464E203B2020202020202020203842374431,
  0x4950204C4C414D532043494C41544920444C4F422046495245532D534E4153204C41434954414D454854414D20202020202020264C2023202020202020202020202030433330203B46435F434B464E203B2020202020202020203942374431,
  0x4F4852204C4C414D532043494C41544920444C4F422046495245532D534E4153204C41434954414D454854414D20202020202020264C2023202020202020202020202031433330203B46435F434B464E203B2020202020202020204142374431,
  0x414D474953204C4C414D532043494C41544920444C4F422046495245532D534E4153204C41434954414D454854414D2E2E414D474953204C414E4946204C4C414D532043494C41544920444C4F422046495245532D534E4153204C41434954414D454854414D205D325B202020264C2023202020202020202020202033433330203B46435F434B464E203B202043423744312E2E4242374431,
  0x554154204C4C414D532043494C41544920444C4F422046495245532D534E4153204C41434954414D454854414D20202020202020264C2023202020202020202020202034433330203B46435F434B464E203B2020202020202020204442374431,
  0x4E4F4C49535055204C4C414D532043494C41544920444C4F422046495245532D534E4153204C41434954414D454854414D20202020202020264C2023202020202020202020202035433330203B46435F434B464E203B2020202020202020204542374431,
  0x494850204C4C414D532043494C41544920444C4F422046495245532D534E4153204C41434954414D454854414D20202020202020264C2023202020202020202020202036433330203B46435F434B464E203B2020202020202020204642374431,
  0x494843204C4C414D532043494C41544920444C4F422046495245532D534E4153204C41434954414D454854414D20202020202020264C2023202020202020202020202037433330203B46435F434B464E203B2020202020202020203043374431,
  0x495350204C4C414D532043494C41544920444C4F422046495245532D534E4153204C41434954414D454854414D20202020202020264C2023202020202020202020202038433330203B46435F434B464E203B2020202020202020203143374431,
  0x4147454D4F204C4C414D532043494C41544920444C4F422046495245532D534E4153204C41434954414D454854414D20202020202020264C2023202020202020202020202039433330203B46435F434B464E203B2020202020202020203243374431,
  0x4C4149544E45524546464944204C4149545241502043494C41544920444C4F422046495245532D534E4153204C41434954414D454854414D202020202020206D532023202020202020202020202032303232203B46435F434B464E203B2020202020202020203343374431,
  0x4C4F424D5953204E4F4C495350452043494C41544920444C4F422046495245532D534E4153204C41434954414D454854414D20202020202020264C2023202020202020202020202035423330203B46435F434B464E203B2020202020202020203443374431,
  0x4C4F424D59532041544548542043494C41544920444C4F422046495245532D534E4153204C41434954414D454854414D20202020202020264C2023202020202020202020202038423330203B46435F434B464E203B2020202020202020203543374431,
  0x4C4F424D595320415050414B2043494C41544920444C4F422046495245532D534E4153204C41434954414D454854414D20202020202020264C2023202020202020202020202041423330203B46435F434B464E203B2020202020202020203643374431,
  0x4C4F424D5953204948502043494C41544920444C4F422046495245532D534E4153204C41434954414D454854414D20202020202020264C2023202020202020202020202036433330203B46435F434B464E203B2020202020202020203743374431,
  0x4C4F424D5953204F48522043494C41544920444C4F422046495245532D534E4153204C41434954414D454854414D20202020202020264C2023202020202020202020202031433330203B46435F434B464E203B2020202020202020203843374431,
  0x4C4F424D59532049502043494C41544920444C4F422046495245532D534E4153204C41434954414D454854414D20202020202020264C2023202020202020202020202030433330203B46435F434B464E203B2020202020202020203943374431,
  0x414D4D41474944204C4C414D5320444C4F42204C41434954414D454854414D2E2E414D4D41474944204C41544950414320444C4F42204C41434954414D454854414D205D325B202020264C2023202020202020202020202044443330203B46435F434B464E203B202042433744312E2E4143374431,
  0x4F52455A20544947494420444C4F42204C41434954414D454854414D20202020202020644E2023202020202020202020202030333030203B46435F434B464E203B2020202020202020204543374431,
  0x454E4F20544947494420444C4F42204C41434954414D454854414D20202020202020644E2023202020202020202020202031333030203B46435F434B464E203B2020202020202020204643374431,
  0x4F575420544947494420444C4F42204C41434954414D454854414D20202020202020644E2023202020202020202020202032333030203B46435F434B464E203B2020202020202020203044374431,
  0x454552485420544947494420444C4F42204C41434954414D454854414D20202020202020644E2023202020202020202020202033333030203B46435F434B464E203B2020202020202020203144374431,
  0x52554F4620544947494420444C4F42204C41434954414D454854414D20202020202020644E2023202020202020202020202034333030203B46435F434B464E203B2020202020202020203244374431,
  0x4556494620544947494420444C4F42204C41434954414D454854414D20202020202020644E2023202020202020202020202035333030203B46435F434B464E203B2020202020202020203344374431,
  0x58495320544947494420444C4F42204C41434954414D454854414D20202020202020644E2023202020202020202020202036333030203B46435F434B464E203B2020202020202020203444374431,
  0x4E4556455320544947494420444C4F42204C41434954414D454854414D20202020202020644E2023202020202020202020202037333030203B46435F434B464E203B2020202020202020203544374431,
  0x544847494520544947494420444C4F42204C41434954414D454854414D20202020202020644E2023202020202020202020202038333030203B46435F434B464E203B2020202020202020203644374431,
  0x454E494E20544947494420444C4F42204C41434954414D454854414D20202020202020644E2023202020202020202020202039333030203B46435F434B464E203B2020202020202020203744374431,
  0x4F52455A205449474944204B43555254532D454C42554F44204C41434954414D454854414D20202020202020644E2023202020202020202020202030333030203B46435F434B464E203B2020202020202020203844374431,
  0x454E4F205449474944204B43555254532D454C42554F44204C41434954414D454854414D20202020202020644E2023202020202020202020202031333030203B46435F434B464E203B2020202020202020203944374431,
  0x4F5754205449474944204B43555254532D454C42554F44204C41434954414D454854414D20202020202020644E2023202020202020202020202032333030203B46435F434B464E203B2020202020202020204144374431,
  0x4545524854205449474944204B43555254532D454C42554F44204C41434954414D454854414D20202020202020644E2023202020202020202020202033333030203B46435F434B464E203B2020202020202020204244374431,
  0x52554F46205449474944204B43555254532D454C42554F44204C41434954414D454854414D20202020202020644E2023202020202020202020202034333030203B46435F434B464E203B2020202020202020204344374431,
  0x45564946205449474944204B43555254532D454C42554F44204C41434954414D454854414D20202020202020644E2023202020202020202020202035333030203B46435F434B464E203B2020202020202020204444374431,
  0x584953205449474944204B43555254532D454C42554F44204C41434954414D454854414D20202020202020644E2023202020202020202020202036333030203B46435F434B464E203B2020202020202020204544374431,
  0x4E45564553205449474944204B43555254532D454C42554F44204C41434954414D454854414D20202020202020644E2023202020202020202020202037333030203B46435F434B464E203B2020202020202020204644374431,
  0x5448474945205449474944204B43555254532D454C42554F44204C41434954414D454854414D20202020202020644E2023202020202020202020202038333030203B46435F434B464E203B2020202020202020203045374431,
  0x454E494E205449474944204B43555254532D454C42554F44204C41434954414D454854414D20202020202020644E2023202020202020202020202039333030203B46435F434B464E203B2020202020202020203145374431,
  0x4F52455A2054494749442046495245532D534E4153204C41434954414D454854414D20202020202020644E2023202020202020202020202030333030203B46435F434B464E203B2020202020202020203245374431,
  0x454E4F2054494749442046495245532D534E4153204C41434954414D454854414D20202020202020644E2023202020202020202020202031333030203B46435F434B464E203B2020202020202020203345374431,
  0x4F57542054494749442046495245532D534E4153204C41434954414D454854414D20202020202020644E2023202020202020202020202032333030203B46435F434B464E203B2020202020202020203445374431,
  0x45455248542054494749442046495245532D534E4153204C41434954414D454854414D20202020202020644E2023202020202020202020202033333030203B46435F434B464E203B2020202020202020203545374431,
  0x52554F462054494749442046495245532D534E4153204C41434954414D454854414D20202020202020644E2023202020202020202020202034333030203B46435F434B464E203B2020202020202020203645374431,
  0x455649462054494749442046495245532D534E4153204C41434954414D454854414D20202020202020644E2023202020202020202020202035333030203B46435F434B464E203B2020202020202020203745374431,
  0x5849532054494749442046495245532D534E4153204C41434954414D454854414D20202020202020644E2023202020202020202020202036333030203B46435F434B464E203B2020202020202020203845374431,
  0x4E455645532054494749442046495245532D534E4153204C41434954414D454854414D20202020202020644E2023202020202020202020202037333030203B46435F434B464E203B2020202020202020203945374431,
  0x54484749452054494749442046495245532D534E4153204C41434954414D454854414D20202020202020644E2023202020202020202020202038333030203B46435F434B464E203B2020202020202020204145374431,
  0x454E494E2054494749442046495245532D534E4153204C41434954414D454854414D20202020202020644E2023202020202020202020202039333030203B46435F434B464E203B2020202020202020204245374431,
  0x4F52455A20544947494420444C4F422046495245532D534E4153204C41434954414D454854414D20202020202020644E2023202020202020202020202030333030203B46435F434B464E203B2020202020202020204345374431,
  0x454E4F20544947494420444C4F422046495245532D534E4153204C41434954414D454854414D20202020202020644E2023202020202020202020202031333030203B46435F434B464E203B2020202020202020204445374431,
  0x4F575420544947494420444C4F422046495245532D534E4153204C41434954414D454854414D20202020202020644E2023202020202020202020202032333030203B46435F434B464E203B2020202020202020204545374431,
  0x454552485420544947494420444C4F422046495245532D534E4153204C41434954414D454854414D20202020202020644E2023202020202020202020202033333030203B46435F434B464E203B2020202020202020204645374431,
  0x52554F4620544947494420444C4F422046495245532D534E4153204C41434954414D454854414D20202020202020644E2023202020202020202020202034333030203B46435F434B464E203B2020202020202020203046374431,
  0x4556494620544947494420444C4F422046495245532D534E4153204C41434954414D454854414D20202020202020644E2023202020202020202020202035333030203B46435F434B464E203B2020202020202020203146374431,
  0x58495320544947494420444C4F422046495245532D534E4153204C41434954414D454854414D20202020202020644E2023202020202020202020202036333030203B46435F434B464E203B2020202020202020203246374431,
  0x4E4556455320544947494420444C4F422046495245532D534E4153204C41434954414D454854414D20202020202020644E2023202020202020202020202037333030203B46435F434B464E203B2020202020202020203346374431,
  0x544847494520544947494420444C4F422046495245532D534E4153204C41434954414D454854414D20202020202020644E2023202020202020202020202038333030203B46435F434B464E203B2020202020202020203446374431,
  0x454E494E20544947494420444C4F422046495245532D534E4153204C41434954414D454854414D20202020202020644E2023202020202020202020202039333030203B46435F434B464E203B2020202020202020203546374431,
  0x4F52455A2054494749442045434150534F4E4F4D204C41434954414D454854414D20202020202020644E2023202020202020202020202030333030203B46435F434B464E203B2020202020202020203646374431,
  0x454E4F2054494749442045434150534F4E4F4D204C41434954414D454854414D20202020202020644E2023202020202020202020202031333030203B46435F434B464E203B2020202020202020203746374431,
  0x4F57542054494749442045434150534F4E4F4D204C41434954414D454854414D20202020202020644E2023202020202020202020202032333030203B46435F434B464E203B2020202020202020203846374431,
  0x45455248542054494749442045434150534F4E4F4D204C41434954414D454854414D20202020202020644E2023202020202020202020202033333030203B46435F434B464E203B2020202020202020203946374431,
  0x52554F462054494749442045434150534F4E4F4D204C41434954414D454854414D20202020202020644E2023202020202020202020202034333030203B46435F434B464E203B2020202020202020204146374431,
  0x455649462054494749442045434150534F4E4F4D204C41434954414D454854414D20202020202020644E2023202020202020202020202035333030203B46435F434B464E203B2020202020202020204246374431,
  0x5849532054494749442045434150534F4E4F4D204C41434954414D454854414D20202020202020644E2023202020202020202020202036333030203B46435F434B464E203B2020202020202020204346374431,
  0x4E455645532054494749442045434150534F4E4F4D204C41434954414D454854414D20202020202020644E2023202020202020202020202037333030203B46435F434B464E203B2020202020202020204446374431,
  0x54484749452054494749442045434150534F4E4F4D204C41434954414D454854414D20202020202020644E2023202020202020202020202038333030203B46435F434B464E203B2020202020202020204546374431,
  0x454E494E2054494749442045434150534F4E4F4D204C41434954414D454854414D20202020202020644E2023202020202020202020202039333030203B46435F434B464E203B2020202020202020204646374431,
  0x46494C412052455454454C204C415449504143204D414C444120202020202020264C2023202020202020202020203232394531203B46435F434B464E203B2020202020202020203030394531,
  0x494C4141442052455454454C204C415449504143204D414C444120202020202020264C2023202020202020202020203332394531203B46435F434B464E203B2020202020202020203130394531,
  0x4D41414C2052455454454C204C415449504143204D414C444120202020202020264C2023202020202020202020203432394531203B46435F434B464E203B2020202020202020203230394531,
  0x4D49494D2052455454454C204C415449504143204D414C444120202020202020264C2023202020202020202020203532394531203B46435F434B464E203B2020202020202020203330394531,
  0x41422052455454454C204C415449504143204D414C444120202020202020264C2023202020202020202020203632394531203B46435F434B464E203B2020202020202020203430394531,
  0x4548594949594E4E49532052455454454C204C415449504143204D414C444120202020202020264C2023202020202020202020203732394531203B46435F434B464E203B2020202020202020203530394531,
  0x45502052455454454C204C415449504143204D414C444120202020202020264C2023202020202020202020203832394531203B46435F434B464E203B2020202020202020203630394531,
  0x4548422052455454454C204C415449504143204D414C444120202020202020264C2023202020202020202020203932394531203B46435F434B464E203B2020202020202020203730394531,
  0x41522052455454454C204C415449504143204D414C444120202020202020264C2023202020202020202020204132394531203B46435F434B464E203B2020202020202020203830394531,
  0x452052455454454C204C415449504143204D414C444120202020202020264C2023202020202020202020204232394531203B46435F434B464E203B2020202020202020203930394531,
  0x41462052455454454C204C415449504143204D414C444120202020202020264C2023202020202020202020204332394531203B46435F434B464E203B2020202020202020204130394531,
  0x492052455454454C204C415449504143204D414C444120202020202020264C2023202020202020202020204432394531203B46435F434B464E203B2020202020202020204230394531,
  0x4F2052455454454C204C415449504143204D414C444120202020202020264C2023202020202020202020204532394531203B46435F434B464E203B2020202020202020204330394531,
  0x4148442052455454454C204C415449504143204D414C444120202020202020264C2023202020202020202020204632394531203B46435F434B464E203B2020202020202020204430394531,
  0x4548592052455454454C204C415449504143204D414C444120202020202020264C2023202020202020202020203033394531203B46435F434B464E203B2020202020202020204530394531,
  0x5741572052455454454C204C415449504143204D414C444120202020202020264C2023202020202020202020203133394531203B46435F434B464E203B2020202020202020204630394531,
  0x4E554E2052455454454C204C415449504143204D414C444120202020202020264C2023202020202020202020203233394531203B46435F434B464E203B2020202020202020203031394531,
  0x46414B2052455454454C204C415449504143204D414C444120202020202020264C2023202020202020202020203333394531203B46435F434B464E203B2020202020202020203131394531,
  0x41592052455454454C204C415449504143204D414C444120202020202020264C2023202020202020202020203433394531203B46435F434B464E203B2020202020202020203231394531,
  0x552052455454454C204C415449504143204D414C444120202020202020264C2023202020202020202020203533394531203B46435F434B464E203B2020202020202020203331394531,
  0x4D49494A2052455454454C204C415449504143204D414C444120202020202020264C2023202020202020202020203633394531203B46435F434B464E203B2020202020202020203431394531,
  0x4948432052455454454C204C415449504143204D414C444120202020202020264C2023202020202020202020203733394531203B46435F434B464E203B2020202020202020203531394531,
  0x41482052455454454C204C415449504143204D414C444120202020202020264C2023202020202020202020203833394531203B46435F434B464E203B2020202020202020203631394531,
  0x464141512052455454454C204C415449504143204D414C444120202020202020264C2023202020202020202020203933394531203B46435F434B464E203B2020202020202020203731394531,
  0x41472052455454454C204C415449504143204D414C444120202020202020264C2023202020202020202020204133394531203B46435F434B464E203B2020202020202020203831394531,
  0x41594E2052455454454C204C415449504143204D414C444120202020202020264C2023202020202020202020204233394531203B46435F434B464E203B2020202020202020203931394531,
  0x55542052455454454C204C415449504143204D414C444120202020202020264C2023202020202020202020204333394531203B46435F434B464E203B2020202020202020204131394531,
  0x41484E2052455454454C204C415449504143204D414C444120202020202020264C2023202020202020202020204433394531203B46435F434B464E203B2020202020202020204231394531,
  0x41562052455454454C204C415449504143204D414C444120202020202020264C2023202020202020202020204533394531203B46435F434B464E203B2020202020202020204331394531,
  0x41484B2052455454454C204C415449504143204D414C444120202020202020264C2023202020202020202020204633394531203B46435F434B464E203B2020202020202020204431394531,
  0x4542472052455454454C204C415449504143204D414C444120202020202020264C2023202020202020202020203034394531203B46435F434B464E203B2020202020202020204531394531,
  0x4C415A2052455454454C204C415449504143204D414C444120202020202020264C2023202020202020202020203134394531203B46435F434B464E203B2020202020202020204631394531,
  0x4F504B2052455454454C204C415449504143204D414C444120202020202020264C2023202020202020202020203234394531203B46435F434B464E203B2020202020202020203032394531]

def qcText32 : List Nat := [
  0x4148532052455454454C204C415449504143204D414C444120202020202020264C2023202020202020202020203334394531203B46435F434B464E203B2020202020202020203132394531,
  0x46454C41204C41434954414D454854414D20434942415241202020202020206F4C2023202020202020202020202037323630203B46435F434B464E203B2020202020202020203030454531,
  0x484542204C41434954414D454854414D20434942415241202020202020206F4C2023202020202020202020202038323630203B46435F434B464E203B2020202020202020203130454531,
  0x4D45454A204C41434954414D454854414D20434942415241202020202020206F4C2023202020202020202020202043323630203B46435F434B464E203B2020202020202020203230454531,
  0x4C4144204C41434954414D454854414D20434942415241202020202020206F4C2023202020202020202020202046323630203B46435F434B464E203B2020202020202020203330454531,
  0x574157204C41434954414D454854414D20434942415241202020202020206F4C2023202020202020202020202038343630203B46435F434B464E203B2020202020202020203530454531,
  0x4E49415A204C41434954414D454854414D20434942415241202020202020206F4C2023202020202020202020202032333630203B46435F434B464E203B2020202020202020203630454531,
  0x484148204C41434954414D454854414D20434942415241202020202020206F4C2023202020202020202020202044323630203B46435F434B464E203B2020202020202020203730454531,
  0x484154204C41434954414D454854414D20434942415241202020202020206F4C2023202020202020202020202037333630203B46435F434B464E203B2020202020202020203830454531,
  0x484559204C41434954414D454854414D20434942415241202020202020206F4C2023202020202020202020202041343630203B46435F434B464E203B2020202020202020203930454531,
  0x46414B204C41434954414D454854414D20434942415241202020202020206F4C2023202020202020202020202033343630203B46435F434B464E203B2020202020202020204130454531,
  0x4D414C204C41434954414D454854414D20434942415241202020202020206F4C2023202020202020202020202034343630203B46435F434B464E203B2020202020202020204230454531,
  0x4D45454D204C41434954414D454854414D20434942415241202020202020206F4C2023202020202020202020202035343630203B46435F434B464E203B2020202020202020204330454531,
  0x4E4F4F4E204C41434954414D454854414D20434942415241202020202020206F4C2023202020202020202020202036343630203B46435F434B464E203B2020202020202020204430454531,
  0x4E454553204C41434954414D454854414D20434942415241202020202020206F4C2023202020202020202020202033333630203B46435F434B464E203B2020202020202020204530454531,
  0x4E4941204C41434954414D454854414D20434942415241202020202020206F4C2023202020202020202020202039333630203B46435F434B464E203B2020202020202020204630454531,
  0x484546204C41434954414D454854414D20434942415241202020202020206F4C2023202020202020202020202031343630203B46435F434B464E203B2020202020202020203031454531,
  0x444153204C41434954414D454854414D20434942415241202020202020206F4C2023202020202020202020202035333630203B46435F434B464E203B2020202020202020203131454531,
  0x464151204C41434954414D454854414D20434942415241202020202020206F4C2023202020202020202020202032343630203B46435F434B464E203B2020202020202020203231454531,
  0x484552204C41434954414D454854414D20434942415241202020202020206F4C2023202020202020202020202031333630203B46435F434B464E203B2020202020202020203331454531,
  0x4E45454853204C41434954414D454854414D20434942415241202020202020206F4C2023202020202020202020202034333630203B46435F434B464E203B2020202020202020203431454531,
  0x484554204C41434954414D454854414D20434942415241202020202020206F4C2023202020202020202020202041323630203B46435F434B464E203B2020202020202020203531454531,
  0x48454854204C41434954414D454854414D20434942415241202020202020206F4C2023202020202020202020202042323630203B46435F434B464E203B2020202020202020203631454531,
  0x4841484B204C41434954414D454854414D20434942415241202020202020206F4C2023202020202020202020202045323630203B46435F434B464E203B2020202020202020203731454531,
  0x4C414854204C41434954414D454854414D20434942415241202020202020206F4C2023202020202020202020202030333630203B46435F434B464E203B2020202020202020203831454531,
  0x444144204C41434954414D454854414D20434942415241202020202020206F4C2023202020202020202020202036333630203B46435F434B464E203B2020202020202020203931454531,
  0x48415A204C41434954414D454854414D20434942415241202020202020206F4C2023202020202020202020202038333630203B46435F434B464E203B2020202020202020204131454531,
  0x4E49414847204C41434954414D454854414D20434942415241202020202020206F4C2023202020202020202020202041333630203B46435F434B464E203B2020202020202020204231454531,
  0x484542205353454C544F44204C41434954414D454854414D20434942415241202020202020206F4C2023202020202020202020202045363630203B46435F434B464E203B2020202020202020204331454531,
  0x4E4F4F4E205353454C544F44204C41434954414D454854414D20434942415241202020202020206F4C2023202020202020202020202041423630203B46435F434B464E203B2020202020202020204431454531,
  0x484546205353454C544F44204C41434954414D454854414D20434942415241202020202020206F4C2023202020202020202020202031413630203B46435F434B464E203B2020202020202020204531454531,
  0x464151205353454C544F44204C41434954414D454854414D20434942415241202020202020206F4C2023202020202020202020202046363630203B46435F434B464E203B2020202020202020204631454531,
  0x484542204C414954494E49204C41434954414D454854414D20434942415241202020202020206F4C2023202020202020202020202038323630203B46435F434B464E203B2020202020202020203132454531,
  0x4D45454A204C414954494E49204C41434954414D454854414D20434942415241202020202020206F4C2023202020202020202020202043323630203B46435F434B464E203B2020202020202020203232454531,
  0x484548204C414954494E49204C41434954414D454854414D20434942415241202020202020206F4C2023202020202020202020202037343630203B46435F434B464E203B2020202020202020203432454531,
  0x484148204C414954494E49204C41434954414D454854414D20434942415241202020202020206F4C2023202020202020202020202044323630203B46435F434B464E203B2020202020202020203732454531,
  0x484559204C414954494E49204C41434954414D454854414D20434942415241202020202020206F4C2023202020202020202020202041343630203B46435F434B464E203B2020202020202020203932454531,
  0x46414B204C414954494E49204C41434954414D454854414D20434942415241202020202020206F4C2023202020202020202020202033343630203B46435F434B464E203B2020202020202020204132454531,
  0x4D414C204C414954494E49204C41434954414D454854414D20434942415241202020202020206F4C2023202020202020202020202034343630203B46435F434B464E203B2020202020202020204232454531,
  0x4D45454D204C414954494E49204C41434954414D454854414D20434942415241202020202020206F4C2023202020202020202020202035343630203B46435F434B464E203B2020202020202020204332454531,
  0x4E4F4F4E204C414954494E49204C41434954414D454854414D20434942415241202020202020206F4C2023202020202020202020202036343630203B46435F434B464E203B2020202020202020204432454531,
  0x4E454553204C414954494E49204C41434954414D454854414D20434942415241202020202020206F4C2023202020202020202020202033333630203B46435F434B464E203B2020202020202020204532454531,
  0x4E4941204C414954494E49204C41434954414D454854414D20434942415241202020202020206F4C2023202020202020202020202039333630203B46435F434B464E203B2020202020202020204632454531,
  0x484546204C414954494E49204C41434954414D454854414D20434942415241202020202020206F4C2023202020202020202020202031343630203B46435F434B464E203B2020202020202020203033454531,
  0x444153204C414954494E49204C41434954414D454854414D20434942415241202020202020206F4C2023202020202020202020202035333630203B46435F434B464E203B2020202020202020203133454531,
  0x464151204C414954494E49204C41434954414D454854414D20434942415241202020202020206F4C2023202020202020202020202032343630203B46435F434B464E203B2020202020202020203233454531,
  0x4E45454853204C414954494E49204C41434954414D454854414D20434942415241202020202020206F4C2023202020202020202020202034333630203B46435F434B464E203B2020202020202020203433454531,
  0x484554204C414954494E49204C41434954414D454854414D20434942415241202020202020206F4C2023202020202020202020202041323630203B46435F434B464E203B2020202020202020203533454531,
  0x48454854204C414954494E49204C41434954414D454854414D20434942415241202020202020206F4C2023202020202020202020202042323630203B46435F434B464E203B2020202020202020203633454531,
  0x4841484B204C414954494E49204C41434954414D454854414D20434942415241202020202020206F4C2023202020202020202020202045323630203B46435F434B464E203B2020202020202020203733454531,
  0x444144204C414954494E49204C41434954414D454854414D20434942415241202020202020206F4C2023202020202020202020202036333630203B46435F434B464E203B2020202020202020203933454531,
  0x4E49414847204C414954494E49204C41434954414D454854414D20434942415241202020202020206F4C2023202020202020202020202041333630203B46435F434B464E203B2020202020202020204233454531,
  0x4D45454A2044454C494154204C41434954414D454854414D20434942415241202020202020206F4C2023202020202020202020202043323630203B46435F434B464E203B2020202020202020203234454531,
  0x4841482044454C494154204C41434954414D454854414D20434942415241202020202020206F4C2023202020202020202020202044323630203B46435F434B464E203B2020202020202020203734454531,
  0x4845592044454C494154204C41434954414D454854414D20434942415241202020202020206F4C2023202020202020202020202041343630203B46435F434B464E203B2020202020202020203934454531,
  0x4D414C2044454C494154204C41434954414D454854414D20434942415241202020202020206F4C2023202020202020202020202034343630203B46435F434B464E203B2020202020202020204234454531,
  0x4E4F4F4E2044454C494154204C41434954414D454854414D20434942415241202020202020206F4C2023202020202020202020202036343630203B46435F434B464E203B2020202020202020204434454531,
  0x4E4545532044454C494154204C41434954414D454854414D20434942415241202020202020206F4C2023202020202020202020202033333630203B46435F434B464E203B2020202020202020204534454531,
  0x4E49412044454C494154204C41434954414D454854414D20434942415241202020202020206F4C2023202020202020202020202039333630203B46435F434B464E203B2020202020202020204634454531,
  0x4441532044454C494154204C41434954414D454854414D20434942415241202020202020206F4C2023202020202020202020202035333630203B46435F434B464E203B2020202020202020203135454531,
  0x4641512044454C494154204C41434954414D454854414D20434942415241202020202020206F4C2023202020202020202020202032343630203B46435F434B464E203B2020202020202020203235454531,
  0x4E454548532044454C494154204C41434954414D454854414D20434942415241202020202020206F4C2023202020202020202020202034333630203B46435F434B464E203B2020202020202020203435454531,
  0x4841484B2044454C494154204C41434954414D454854414D20434942415241202020202020206F4C2023202020202020202020202045323630203B46435F434B464E203B2020202020202020203735454531,
  0x4441442044454C494154204C41434954414D454854414D20434942415241202020202020206F4C2023202020202020202020202036333630203B46435F434B464E203B2020202020202020203935454531,
  0x4E494148472044454C494154204C41434954414D454854414D20434942415241202020202020206F4C2023202020202020202020202041333630203B46435F434B464E203B2020202020202020204235454531,
  0x4E4F4F4E205353454C544F442044454C494154204C41434954414D454854414D20434942415241202020202020206F4C2023202020202020202020202041423630203B46435F434B464E203B2020202020202020204435454531,
  0x464151205353454C544F442044454C494154204C41434954414D454854414D20434942415241202020202020206F4C2023202020202020202020202046363630203B46435F434B464E203B2020202020202020204635454531,
  0x48454220444548435445525453204C41434954414D454854414D20434942415241202020202020206F4C2023202020202020202020202038323630203B46435F434B464E203B2020202020202020203136454531,
  0x4D45454A20444548435445525453204C41434954414D454854414D20434942415241202020202020206F4C2023202020202020202020202043323630203B46435F434B464E203B2020202020202020203236454531,
  0x48454820444548435445525453204C41434954414D454854414D20434942415241202020202020206F4C2023202020202020202020202037343630203B46435F434B464E203B2020202020202020203436454531,
  0x48414820444548435445525453204C41434954414D454854414D20434942415241202020202020206F4C2023202020202020202020202044323630203B46435F434B464E203B2020202020202020203736454531,
  0x48415420444548435445525453204C41434954414D454854414D20434942415241202020202020206F4C2023202020202020202020202037333630203B46435F434B464E203B2020202020202020203836454531,
  0x48455920444548435445525453204C41434954414D454854414D20434942415241202020202020206F4C2023202020202020202020202041343630203B46435F434B464E203B2020202020202020203936454531,
  0x46414B20444548435445525453204C41434954414D454854414D20434942415241202020202020206F4C2023202020202020202020202033343630203B46435F434B464E203B2020202020202020204136454531,
  0x4D45454D20444548435445525453204C41434954414D454854414D20434942415241202020202020206F4C2023202020202020202020202035343630203B46435F434B464E203B2020202020202020204336454531,
  0x4E4F4F4E20444548435445525453204C41434954414D454854414D20434942415241202020202020206F4C2023202020202020202020202036343630203B46435F434B464E203B2020202020202020204436454531,
  0x4E45455320444548435445525453204C41434954414D454854414D20434942415241202020202020206F4C2023202020202020202020202033333630203B46435F434B464E203B2020202020202020204536454531,
  0x4E494120444548435445525453204C41434954414D454854414D20434942415241202020202020206F4C2023202020202020202020202039333630203B46435F434B464E203B2020202020202020204636454531,
  0x48454620444548435445525453204C41434954414D454854414D20434942415241202020202020206F4C2023202020202020202020202031343630203B46435F434B464E203B2020202020202020203037454531,
  0x44415320444548435445525453204C41434954414D454854414D20434942415241202020202020206F4C2023202020202020202020202035333630203B46435F434B464E203B2020202020202020203137454531,
  0x46415120444548435445525453204C41434954414D454854414D20434942415241202020202020206F4C2023202020202020202020202032343630203B46435F434B464E203B2020202020202020203237454531,
  0x4E4545485320444548435445525453204C41434954414D454854414D20434942415241202020202020206F4C2023202020202020202020202034333630203B46435F434B464E203B2020202020202020203437454531,
  0x48455420444548435445525453204C41434954414D454854414D20434942415241202020202020206F4C2023202020202020202020202041323630203B46435F434B464E203B2020202020202020203537454531,
  0x4845485420444548435445525453204C41434954414D454854414D20434942415241202020202020206F4C2023202020202020202020202042323630203B46435F434B464E203B2020202020202020203637454531,
  0x4841484B20444548435445525453204C41434954414D454854414D20434942415241202020202020206F4C2023202020202020202020202045323630203B46435F434B464E203B2020202020202020203737454531,
  0x44414420444548435445525453204C41434954414D454854414D20434942415241202020202020206F4C2023202020202020202020202036333630203B46435F434B464E203B2020202020202020203937454531,
  0x48415A20444548435445525453204C41434954414D454854414D20434942415241202020202020206F4C2023202020202020202020202038333630203B46435F434B464E203B2020202020202020204137454531,
  0x4E4941484720444548435445525453204C41434954414D454854414D20434942415241202020202020206F4C2023202020202020202020202041333630203B46435F434B464E203B2020202020202020204237454531,
  0x484542205353454C544F4420444548435445525453204C41434954414D454854414D20434942415241202020202020206F4C2023202020202020202020202045363630203B46435F434B464E203B2020202020202020204337454531,
  0x484546205353454C544F4420444548435445525453204C41434954414D454854414D20434942415241202020202020206F4C2023202020202020202020202031413630203B46435F434B464E203B2020202020202020204537454531,
  0x46454C41204445504F4F4C204C41434954414D454854414D20434942415241202020202020206F4C2023202020202020202020202037323630203B46435F434B464E203B2020202020202020203038454531,
  0x484542204445504F4F4C204C41434954414D454854414D20434942415241202020202020206F4C2023202020202020202020202038323630203B46435F434B464E203B2020202020202020203138454531,
  0x4D45454A204445504F4F4C204C41434954414D454854414D20434942415241202020202020206F4C2023202020202020202020202043323630203B46435F434B464E203B2020202020202020203238454531,
  0x4C4144204445504F4F4C204C41434954414D454854414D20434942415241202020202020206F4C2023202020202020202020202046323630203B46435F434B464E203B2020202020202020203338454531,
  0x484548204445504F4F4C204C41434954414D454854414D20434942415241202020202020206F4C2023202020202020202020202037343630203B46435F434B464E203B2020202020202020203438454531,
  0x574157204445504F4F4C204C41434954414D454854414D20434942415241202020202020206F4C2023202020202020202020202038343630203B46435F434B464E203B2020202020202020203538454531,
  0x4E49415A204445504F4F4C204C41434954414D454854414D20434942415241202020202020206F4C2023202020202020202020202032333630203B46435F434B464E203B2020202020202020203638454531,
  0x484148204445504F4F4C204C41434954414D454854414D20434942415241202020202020206F4C2023202020202020202020202044323630203B46435F434B464E203B2020202020202020203738454531,
  0x484154204445504F4F4C204C41434954414D454854414D20434942415241202020202020206F4C2023202020202020202020202037333630203B46435F434B464E203B2020202020202020203838454531,
  0x484559204445504F4F4C204C41434954414D454854414D20434942415241202020202020206F4C2023202020202020202020202041343630203B46435F434B464E203B2020202020202020203938454531,
  0x4D414C204445504F4F4C204C41434954414D454854414D20434942415241202020202020206F4C2023202020202020202020202034343630203B46435F434B464E203B2020202020202020204238454531,
  0x4D45454D204445504F4F4C204C41434954414D454854414D20434942415241202020202020206F4C2023202020202020202020202035343630203B46435F434B464E203B2020202020202020204338454531,
  0x4E4F4F4E204445504F4F4C204C41434954414D454854414D20434942415241202020202020206F4C2023202020202020202020202036343630203B46435F434B464E203B2020202020202020204438454531,
  0x4E454553204445504F4F4C204C41434954414D454854414D20434942415241202020202020206F4C2023202020202020202020202033333630203B46435F434B464E203B2020202020202020204538454531,
  0x4E4941204445504F4F4C204C41434954414D454854414D20434942415241202020202020206F4C2023202020202020202020202039333630203B46435F434B464E203B2020202020202020204638454531,
  0x484546204445504F4F4C204C41434954414D454854414D20434942415241202020202020206F4C2023202020202020202020202031343630203B46435F434B464E203B2020202020202020203039454531,
  0x444153204445504F4F4C204C41434954414D454854414D20434942415241202020202020206F4C2023202020202020202020202035333630203B46435F434B464E203B2020202020202020203139454531,
  0x464151204445504F4F4C204C41434954414D454854414D20434942415241202020202020206F4C2023202020202020202020202032343630203B46435F434B464E203B2020202020202020203239454531,
  0x484552204445504F4F4C204C41434954414D454854414D20434942415241202020202020206F4C2023202020202020202020202031333630203B46435F434B464E203B2020202020202020203339454531,
  0x4E45454853204445504F4F4C204C41434954414D454854414D20434942415241202020202020206F4C2023202020202020202020202034333630203B46435F434B464E203B2020202020202020203439454531,
  0x484554204445504F4F4C204C41434954414D454854414D20434942415241202020202020206F4C2023202020202020202020202041323630203B46435F434B464E203B2020202020202020203539454531,
  0x48454854204445504F4F4C204C41434954414D454854414D20434942415241202020202020206F4C2023202020202020202020202042323630203B46435F434B464E203B2020202020202020203639454531,
  0x4841484B204445504F4F4C204C41434954414D454854414D20434942415241202020202020206F4C2023202020202020202020202045323630203B46435F434B464E203B2020202020202020203739454531,
  0x4C414854204445504F4F4C204C41434954414D454854414D20434942415241202020202020206F4C2023202020202020202020202030333630203B46435F434B464E203B2020202020202020203839454531,
  0x444144204445504F4F4C204C41434954414D454854414D20434942415241202020202020206F4C2023202020202020202020202036333630203B46435F434B464E203B2020202020202020203939454531,
  0x48415A204445504F4F4C204C41434954414D454854414D20434942415241202020202020206F4C2023202020202020202020202038333630203B46435F434B464E203B2020202020202020204139454531,
  0x4E49414847204445504F4F4C204C41434954414D454854414D20434942415241202020202020206F4C2023202020202020202020202041333630203B46435F434B464E203B2020202020202020204239454531,
  0x484542204B43555254532D454C42554F44204C41434954414D454854414D20434942415241202020202020206F4C2023202020202020202020202038323630203B46435F434B464E203B2020202020202020203141454531,
  0x4D45454A204B43555254532D454C42554F44204C41434954414D454854414D20434942415241202020202020206F4C2023202020202020202020202043323630203B46435F434B464E203B2020202020202020203241454531,
  0x4C4144204B43555254532D454C42554F44204C41434954414D454854414D20434942415241202020202020206F4C2023202020202020202020202046323630203B46435F434B464E203B2020202020202020203341454531,
  0x574157204B43555254532D454C42554F44204C41434954414D454854414D20434942415241202020202020206F4C2023202020202020202020202038343630203B46435F434B464E203B2020202020202020203541454531,
  0x4E49415A204B43555254532D454C42554F44204C41434954414D454854414D20434942415241202020202020206F4C2023202020202020202020202032333630203B46435F434B464E203B2020202020202020203641454531,
  0x484148204B43555254532D454C42554F44204C41434954414D454854414D20434942415241202020202020206F4C2023202020202020202020202044323630203B46435F434B464E203B2020202020202020203741454531,
  0x484154204B43555254532D454C42554F44204C41434954414D454854414D20434942415241202020202020206F4C2023202020202020202020202037333630203B46435F434B464E203B2020202020202020203841454531,
  0x484559204B43555254532D454C42554F44204C41434954414D454854414D20434942415241202020202020206F4C2023202020202020202020202041343630203B46435F434B464E203B2020202020202020203941454531,
  0x4D414C204B43555254532D454C42554F44204C41434954414D454854414D20434942415241202020202020206F4C2023202020202020202020202034343630203B46435F434B464E203B2020202020202020204241454531,
  0x4D45454D204B43555254532D454C42554F44204C41434954414D454854414D20434942415241202020202020206F4C2023202020202020202020202035343630203B46435F434B464E203B2020202020202020204341454531,
  0x4E4F4F4E204B43555254532D454C42554F44204C41434954414D454854414D20434942415241202020202020206F4C2023202020202020202020202036343630203B46435F434B464E203B2020202020202020204441454531,
  0x4E454553204B43555254532D454C42554F44204C41434954414D454854414D20434942415241202020202020206F4C2023202020202020202020202033333630203B46435F434B464E203B2020202020202020204541454531,
  0x4E4941204B43555254532D454C42554F44204C41434954414D454854414D20434942415241202020202020206F4C2023202020202020202020202039333630203B46435F434B464E203B2020202020202020204641454531,
  0x484546204B43555254532D454C42554F44204C41434954414D454854414D20434942415241202020202020206F4C2023202020202020202020202031343630203B46435F434B464E203B2020202020202020203042454531,
  0x444153204B43555254532D454C42554F44204C41434954414D454854414D20434942415241202020202020206F4C2023202020202020202020202035333630203B46435F434B464E203B2020202020202020203142454531,
  0x464151204B43555254532D454C42554F44204C41434954414D454854414D20434942415241202020202020206F4C2023202020202020202020202032343630203B46435F434B464E203B2020202020202020203242454531,
  0x484552204B43555254532D454C42554F44204C41434954414D454854414D20434942415241202020202020206F4C2023202020202020202020202031333630203B46435F434B464E203B2020202020202020203342454531,
  0x4E45454853204B43555254532D454C42554F44204C41434954414D454854414D20434942415241202020202020206F4C2023202020202020202020202034333630203B46435F434B464E203B2020202020202020203442454531,
  0x484554204B43555254532D454C42554F44204C41434954414D454854414D20434942415241202020202020206F4C2023202020202020202020202041323630203B46435F434B464E203B2020202020202020203542454531,
  0x48454854204B43555254532D454C42554F44204C41434954414D454854414D20434942415241202020202020206F4C2023202020202020202020202042323630203B46435F434B464E203B2020202020202020203642454531,
  0x4841484B204B43555254532D454C42554F44204C41434954414D454854414D20434942415241202020202020206F4C2023202020202020202020202045323630203B46435F434B464E203B2020202020202020203742454531,
  0x4C414854204B43555254532D454C42554F44204C41434954414D454854414D20434942415241202020202020206F4C2023202020202020202020202030333630203B46435F434B464E203B2020202020202020203842454531,
  0x444144204B43555254532D454C42554F44204C41434954414D454854414D20434942415241202020202020206F4C2023202020202020202020202036333630203B46435F434B464E203B2020202020202020203942454531,
  0x48415A204B43555254532D454C42554F44204C41434954414D454854414D20434942415241202020202020206F4C2023202020202020202020202038333630203B46435F434B464E203B2020202020202020204142454531,
  0x4E49414847204B43555254532D454C42554F44204C41434954414D454854414D20434942415241202020202020206F4C2023202020202020202020202041333630203B46435F434B464E203B2020202020202020204242454531,
  0x504F5453204C4C5546204F52455A205449474944202020202020206F4E2023202020202020453230302030333030203B46435F434B464E203B2020202020202020203030314631,
  0x414D4D4F43204F52455A205449474944202020202020206F4E2023202020202020433230302030333030203B46435F434B464E203B2020202020202020203130314631,
  0x414D4D4F4320454E4F205449474944202020202020206F4E2023202020202020433230302031333030203B46435F434B464E203B2020202020202020203230314631,
  0x414D4D4F43204F5754205449474944202020202020206F4E2023202020202020433230302032333030203B46435F434B464E203B2020202020202020203330314631,
  0x414D4D4F43204545524854205449474944202020202020206F4E2023202020202020433230302033333030203B46435F434B464E203B2020202020202020203430314631,
  0x414D4D4F432052554F46205449474944202020202020206F4E2023202020202020433230302034333030203B46435F434B464E203B2020202020202020203530314631,
  0x414D4D4F432045564946205449474944202020202020206F4E2023202020202020433230302035333030203B46435F434B464E203B2020202020202020203630314631,
  0x414D4D4F4320584953205449474944202020202020206F4E2023202020202020433230302036333030203B46435F434B464E203B2020202020202020203730314631,
  0x414D4D4F43204E45564553205449474944202020202020206F4E2023202020202020433230302037333030203B46435F434B464E203B2020202020202020203830314631,
  0x414D4D4F43205448474945205449474944202020202020206F4E2023202020202020433230302038333030203B46435F434B464E203B2020202020202020203930314631,
  0x414D4D4F4320454E494E205449474944202020202020206F4E2023202020202020433230302039333030203B46435F434B464E203B2020202020202020204130314631,
  0x412052455454454C204C415449504143204E4954414C2044455A49534548544E45524150202020202020206F532023203932303020313630302038323030203B46435F434B464E203B2020202020202020203031314631,
  0x422052455454454C204C415449504143204E4954414C2044455A49534548544E45524150202020202020206F532023203932303020323630302038323030203B46435F434B464E203B2020202020202020203131314631,
  0x432052455454454C204C415449504143204E4954414C2044455A49534548544E45524150202020202020206F532023203932303020333630302038323030203B46435F434B464E203B2020202020202020203231314631,
  0x442052455454454C204C415449504143204E4954414C2044455A49534548544E45524150202020202020206F532023203932303020343630302038323030203B46435F434B464E203B2020202020202020203331314631,
  0x452052455454454C204C415449504143204E4954414C2044455A49534548544E45524150202020202020206F532023203932303020353630302038323030203B46435F434B464E203B2020202020202020203431314631,
  0x462052455454454C204C415449504143204E4954414C2044455A49534548544E45524150202020202020206F532023203932303020363630302038323030203B46435F434B464E203B2020202020202020203531314631,
  0x472052455454454C204C415449504143204E4954414C2044455A49534548544E45524150202020202020206F532023203932303020373630302038323030203B46435F434B464E203B2020202020202020203631314631,
  0x482052455454454C204C415449504143204E4954414C2044455A49534548544E45524150202020202020206F532023203932303020383630302038323030203B46435F434B464E203B2020202020202020203731314631,
  0x492052455454454C204C415449504143204E4954414C2044455A49534548544E45524150202020202020206F532023203932303020393630302038323030203B46435F434B464E203B2020202020202020203831314631,
  0x4A2052455454454C204C415449504143204E4954414C2044455A49534548544E45524150202020202020206F532023203932303020413630302038323030203B46435F434B464E203B2020202020202020203931314631,
  0x4B2052455454454C204C415449504143204E4954414C2044455A49534548544E45524150202020202020206F532023203932303020423630302038323030203B46435F434B464E203B2020202020202020204131314631,
  0x4C2052455454454C204C415449504143204E4954414C2044455A49534548544E45524150202020202020206F532023203932303020433630302038323030203B46435F434B464E203B2020202020202020204231314631,
  0x4D2052455454454C204C415449504143204E4954414C2044455A49534548544E45524150202020202020206F532023203932303020443630302038323030203B46435F434B464E203B2020202020202020204331314631,
  0x4E2052455454454C204C415449504143204E4954414C2044455A49534548544E45524150202020202020206F532023203932303020453630302038323030203B46435F434B464E203B2020202020202020204431314631,
  0x4F2052455454454C204C415449504143204E4954414C2044455A49534548544E45524150202020202020206F532023203932303020463630302038323030203B46435F434B464E203B2020202020202020204531314631,
  0x502052455454454C204C415449504143204E4954414C2044455A49534548544E45524150202020202020206F532023203932303020303730302038323030203B46435F434B464E203B2020202020202020204631314631,
  0x512052455454454C204C415449504143204E4954414C2044455A49534548544E45524150202020202020206F532023203932303020313730302038323030203B46435F434B464E203B2020202020202020203032314631,
  0x522052455454454C204C415449504143204E4954414C2044455A49534548544E45524150202020202020206F532023203932303020323730302038323030203B46435F434B464E203B2020202020202020203132314631,
  0x532052455454454C204C415449504143204E4954414C2044455A49534548544E45524150202020202020206F532023203932303020333730302038323030203B46435F434B464E203B2020202020202020203232314631,
  0x542052455454454C204C415449504143204E4954414C2044455A49534548544E45524150202020202020206F532023203932303020343730302038323030203B46435F434B464E203B2020202020202020203332314631,
  0x552052455454454C204C415449504143204E4954414C2044455A49534548544E45524150202020202020206F532023203932303020353730302038323030203B46435F434B464E203B2020202020202020203432314631,
  0x562052455454454C204C415449504143204E4954414C2044455A49534548544E45524150202020202020206F532023203932303020363730302038323030203B46435F434B464E203B2020202020202020203532314631,
  0x572052455454454C204C415449504143204E4954414C2044455A49534548544E45524150202020202020206F532023203932303020373730302038323030203B46435F434B464E203B2020202020202020203632314631,
  0x582052455454454C204C415449504143204E4954414C2044455A49534548544E45524150202020202020206F532023203932303020383730302038323030203B46435F434B464E203B2020202020202020203732314631,
  0x592052455454454C204C415449504143204E4954414C2044455A49534548544E45524150202020202020206F532023203932303020393730302038323030203B46435F434B464E203B2020202020202020203832314631,
  0x5A2052455454454C204C415449504143204E4954414C2044455A49534548544E45524150202020202020206F532023203932303020413730302038323030203B46435F434B464E203B2020202020202020203932314631,
  0x532052455454454C204C415449504143204E4954414C20444554454B43415242204C4C454853204553494F54524F54202020202020206F532023203531303320333730302034313033203B46435F434B464E203B2020202020202020204132314631,
  0x432052455454454C204C415449504143204E4954414C2043494C4154492044454C43524943202020202020206F532023202020202020202020202033363030203B46435F434B464E203B2020202020202020204232314631,
  0x522052455454454C204C415449504143204E4954414C2043494C4154492044454C43524943202020202020206F532023202020202020202020202032373030203B46435F434B464E203B2020202020202020204332314631,
  0x44432044454C43524943202020202020206F532023202020202020343630302033363030203B46435F434B464E203B2020202020202020204432314631,
  0x5A572044454C43524943202020202020206F532023202020202020413730302037373030203B46435F434B464E203B2020202020202020204532314631,
  0x412052455454454C204C415449504143204E4954414C2044455241555153202020202020206F532023202020202020202020202031363030203B46435F434B464E203B2020202020202020203033314631,
  0x422052455454454C204C415449504143204E4954414C2044455241555153202020202020206F532023202020202020202020202032363030203B46435F434B464E203B2020202020202020203133314631,
  0x432052455454454C204C415449504143204E4954414C2044455241555153202020202020206F532023202020202020202020202033363030203B46435F434B464E203B2020202020202020203233314631,
  0x442052455454454C204C415449504143204E4954414C2044455241555153202020202020206F532023202020202020202020202034363030203B46435F434B464E203B2020202020202020203333314631,
  0x452052455454454C204C415449504143204E4954414C2044455241555153202020202020206F532023202020202020202020202035363030203B46435F434B464E203B2020202020202020203433314631,
  0x462052455454454C204C415449504143204E4954414C2044455241555153202020202020206F532023202020202020202020202036363030203B46435F434B464E203B2020202020202020203533314631,
  0x472052455454454C204C415449504143204E4954414C2044455241555153202020202020206F532023202020202020202020202037363030203B46435F434B464E203B2020202020202020203633314631,
  0x482052455454454C204C415449504143204E4954414C2044455241555153202020202020206F532023202020202020202020202038363030203B46435F434B464E203B2020202020202020203733314631,
  0x492052455454454C204C415449504143204E4954414C2044455241555153202020202020206F532023202020202020202020202039363030203B46435F434B464E203B2020202020202020203833314631,
  0x4A2052455454454C204C415449504143204E4954414C2044455241555153202020202020206F532023202020202020202020202041363030203B46435F434B464E203B2020202020202020203933314631,
  0x4B2052455454454C204C415449504143204E4954414C2044455241555153202020202020206F532023202020202020202020202042363030203B46435F434B464E203B2020202020202020204133314631,
  0x4C2052455454454C204C415449504143204E4954414C2044455241555153202020202020206F532023202020202020202020202043363030203B46435F434B464E203B2020202020202020204233314631,
  0x4D2052455454454C204C415449504143204E4954414C2044455241555153202020202020206F532023202020202020202020202044363030203B46435F434B464E203B2020202020202020204333314631,
  0x4E2052455454454C204C415449504143204E4954414C2044455241555153202020202020206F532023202020202020202020202045363030203B46435F434B464E203B2020202020202020204433314631,
  0x4F2052455454454C204C415449504143204E4954414C2044455241555153202020202020206F532023202020202020202020202046363030203B46435F434B464E203B2020202020202020204533314631,
  0x502052455454454C204C415449504143204E4954414C2044455241555153202020202020206F532023202020202020202020202030373030203B46435F434B464E203B2020202020202020204633314631,
  0x512052455454454C204C415449504143204E4954414C2044455241555153202020202020206F532023202020202020202020202031373030203B46435F434B464E203B2020202020202020203034314631,
  0x522052455454454C204C415449504143204E4954414C2044455241555153202020202020206F532023202020202020202020202032373030203B46435F434B464E203B2020202020202020203134314631,
  0x532052455454454C204C415449504143204E4954414C2044455241555153202020202020206F532023202020202020202020202033373030203B46435F434B464E203B2020202020202020203234314631,
  0x542052455454454C204C415449504143204E4954414C2044455241555153202020202020206F532023202020202020202020202034373030203B46435F434B464E203B2020202020202020203334314631,
  0x552052455454454C204C415449504143204E4954414C2044455241555153202020202020206F532023202020202020202020202035373030203B46435F434B464E203B2020202020202020203434314631,
  0x562052455454454C204C415449504143204E4954414C2044455241555153202020202020206F532023202020202020202020202036373030203B46435F434B464E203B2020202020202020203534314631,
  0x572052455454454C204C415449504143204E4954414C2044455241555153202020202020206F532023202020202020202020202037373030203B46435F434B464E203B2020202020202020203634314631,
  0x582052455454454C204C415449504143204E4954414C2044455241555153202020202020206F532023202020202020202020202038373030203B46435F434B464E203B2020202020202020203734314631,
  0x592052455454454C204C415449504143204E4954414C2044455241555153202020202020206F532023202020202020202020202039373030203B46435F434B464E203B2020202020202020203834314631,
  0x5A2052455454454C204C415449504143204E4954414C2044455241555153202020202020206F532023202020202020202020202041373030203B46435F434B464E203B2020202020202020203934314631,
  0x56482044455241555153202020202020206F532023202020202020363730302038363030203B46435F434B464E203B2020202020202020204134314631,
  0x564D2044455241555153202020202020206F532023202020202020363730302044363030203B46435F434B464E203B2020202020202020204234314631,
  0x44532044455241555153202020202020206F532023202020202020343630302033373030203B46435F434B464E203B2020202020202020204334314631,
  0x53532044455241555153202020202020206F532023202020202020333730302033373030203B46435F434B464E203B2020202020202020204434314631,
  0x5650502044455241555153202020202020206F532023203637303020303730302030373030203B46435F434B464E203B2020202020202020204534314631,
  0x43572044455241555153202020202020206F532023202020202020333630302037373030203B46435F434B464E203B2020202020202020204634314631,
  0x4E47495320434D20444553494152202020202020206F532023202020202020333630302044363030203B46435F434B464E203B2020202020202020204136314631,
  0x4E47495320444D20444553494152202020202020206F532023202020202020343630302044363030203B46435F434B464E203B2020202020202020204236314631,
  0x4E47495320524D20444553494152202020202020206F532023202020202020323730302044363030203B46435F434B464E203B2020202020202020204336314631,
  0x4A4420455241555153202020202020206F532023202020202020413630302034363030203B46435F434B464E203B2020202020202020203039314631,
  0x414B4F4820414E41474152494820455241555153202020202020206F532023202020202020423430332042373033203B46435F434B464E203B2020202020202020203030324631,
  0x4F4B4F4B20414E414B4154414B2044455241555153202020202020206F532023202020202020334230332033423033203B46435F434B464E203B2020202020202020203130324631,
  0x415320414E414B4154414B2044455241555153202020202020206F532023202020202020202020202035423033203B46435F434B464E203B2020202020202020203230324631,
  0x423432362D48504152474F4544492044454946494E55204B4A432044455241555153202020202020206F532023202020202020202020202042343236203B46435F434B464E203B2020202020202020203031324631,
  0x373542352D48504152474F4544492044454946494E55204B4A432044455241555153202020202020206F532023202020202020202020202037354235203B46435F434B464E203B2020202020202020203131324631,
  0x434333352D48504152474F4544492044454946494E55204B4A432044455241555153202020202020206F532023202020202020202020202043433335203B46435F434B464E203B2020202020202020203231324631,
  0x454420414E414B4154414B2044455241555153202020202020206F532023202020202020202020202037433033203B46435F434B464E203B2020202020202020203331324631,
  0x433845342D48504152474F4544492044454946494E55204B4A432044455241555153202020202020206F532023202020202020202020202043384534203B46435F434B464E203B2020202020202020203431324631,
  0x413139352D48504152474F4544492044454946494E55204B4A432044455241555153202020202020206F532023202020202020202020202041313935203B46435F434B464E203B2020202020202020203531324631,
  0x334539382D48504152474F4544492044454946494E55204B4A432044455241555153202020202020206F532023202020202020202020202033453938203B46435F434B464E203B2020202020202020203631324631,
  0x393239352D48504152474F4544492044454946494E55204B4A432044455241555153202020202020206F532023202020202020202020202039323935203B46435F434B464E203B2020202020202020203731324631,
  0x344145342D48504152474F4544492044454946494E55204B4A432044455241555153202020202020206F532023202020202020202020202034414534203B46435F434B464E203B2020202020202020203831324631,
  0x303236362D48504152474F4544492044454946494E55204B4A432044455241555153202020202020206F532023202020202020202020202030323636203B46435F434B464E203B2020202020202020203931324631,
  0x313231372D48504152474F4544492044454946494E55204B4A432044455241555153202020202020206F532023202020202020202020202031323137203B46435F434B464E203B2020202020202020204131324631,
  0x393935362D48504152474F4544492044454946494E55204B4A432044455241555153202020202020206F532023202020202020202020202039393536203B46435F434B464E203B2020202020202020204231324631,
  0x443432352D48504152474F4544492044454946494E55204B4A432044455241555153202020202020206F532023202020202020202020202044343235203B46435F434B464E203B2020202020202020204331324631,
  0x433846352D48504152474F4544492044454946494E55204B4A432044455241555153202020202020206F532023202020202020202020202043384635203B46435F434B464E203B2020202020202020204431324631,
  0x443831352D48504152474F4544492044454946494E55204B4A432044455241555153202020202020206F532023202020202020202020202044383135203B46435F434B464E203B2020202020202020204531324631,
  0x304235362D48504152474F4544492044454946494E55204B4A432044455241555153202020202020206F532023202020202020202020202030423536203B46435F434B464E203B2020202020202020204631324631,
  0x443132352D48504152474F4544492044454946494E55204B4A432044455241555153202020202020206F532023202020202020202020202044313235203B46435F434B464E203B2020202020202020203032324631,
  0x323444372D48504152474F4544492044454946494E55204B4A432044455241555153202020202020206F532023202020202020202020202032344437203B46435F434B464E203B2020202020202020203132324631,
  0x463135372D48504152474F4544492044454946494E55204B4A432044455241555153202020202020206F532023202020202020202020202046313537203B46435F434B464E203B2020202020202020203232324631,
  0x394143382D48504152474F4544492044454946494E55204B4A432044455241555153202020202020206F532023202020202020202020202039414338203B46435F434B464E203B2020202020202020203332324631,
  0x304638352D48504152474F4544492044454946494E55204B4A432044455241555153202020202020206F532023202020202020202020202030463835203B46435F434B464E203B2020202020202020203432324631,
  0x393334352D48504152474F4544492044454946494E55204B4A432044455241555153202020202020206F532023202020202020202020202039333435203B46435F434B464E203B2020202020202020203532324631,
  0x343146362D48504152474F4544492044454946494E55204B4A432044455241555153202020202020206F532023202020202020202020202034314636203B46435F434B464E203B2020202020202020203632324631,
  0x353932362D48504152474F4544492044454946494E55204B4A432044455241555153202020202020206F532023202020202020202020202035393236203B46435F434B464E203B2020202020202020203732324631,
  0x353533362D48504152474F4544492044454946494E55204B4A432044455241555153202020202020206F532023202020202020202020202035353336203B46435F434B464E203B2020202020202020203832324631,
  0x303045342D48504152474F4544492044454946494E55204B4A432044455241555153202020202020206F532023202020202020202020202030304534203B46435F434B464E203B2020202020202020203932324631,
  0x393045342D48504152474F4544492044454946494E55204B4A432044455241555153202020202020206F532023202020202020202020202039304534203B46435F434B464E203B2020202020202020204132324631]

def qcText33 : List Nat := [
  0x413430392D48504152474F4544492044454946494E55204B4A432044455241555153202020202020206F532023202020202020202020202041343039203B46435F434B464E203B2020202020202020204232324631,
  0x364544352D48504152474F4544492044454946494E55204B4A432044455241555153202020202020206F532023202020202020202020202036454435203B46435F434B464E203B2020202020202020204332324631,
  0x443245342D48504152474F4544492044454946494E55204B4A432044455241555153202020202020206F532023202020202020202020202044324534203B46435F434B464E203B2020202020202020204432324631,
  0x334633352D48504152474F4544492044454946494E55204B4A432044455241555153202020202020206F532023202020202020202020202033463335203B46435F434B464E203B2020202020202020204532324631,
  0x373033362D48504152474F4544492044454946494E55204B4A432044455241555153202020202020206F532023202020202020202020202037303336203B46435F434B464E203B2020202020202020204632324631,
  0x303744382D48504152474F4544492044454946494E55204B4A432044455241555153202020202020206F532023202020202020202020202030374438203B46435F434B464E203B2020202020202020203033324631,
  0x333532362D48504152474F4544492044454946494E55204B4A432044455241555153202020202020206F532023202020202020202020202033353236203B46435F434B464E203B2020202020202020203133324631,
  0x313839372D48504152474F4544492044454946494E55204B4A432044455241555153202020202020206F532023202020202020202020202031383937203B46435F434B464E203B2020202020202020203233324631,
  0x413741372D48504152474F4544492044454946494E55204B4A432044455241555153202020202020206F532023202020202020202020202041374137203B46435F434B464E203B2020202020202020203333324631,
  0x383034352D48504152474F4544492044454946494E55204B4A432044455241555153202020202020206F532023202020202020202020202038303435203B46435F434B464E203B2020202020202020203433324631,
  0x303845362D48504152474F4544492044454946494E55204B4A432044455241555153202020202020206F532023202020202020202020202030384536203B46435F434B464E203B2020202020202020203533324631,
  0x393037362D48504152474F4544492044454946494E55204B4A432044455241555153202020202020206F532023202020202020202020202039303736203B46435F434B464E203B2020202020202020203633324631,
  0x383037362D48504152474F4544492044454946494E55204B4A432044455241555153202020202020206F532023202020202020202020202038303736203B46435F434B464E203B2020202020202020203733324631,
  0x333335372D48504152474F4544492044454946494E55204B4A432044455241555153202020202020206F532023202020202020202020202033333537203B46435F434B464E203B2020202020202020203833324631,
  0x323732352D48504152474F4544492044454946494E55204B4A432044455241555153202020202020206F532023202020202020202020202032373235203B46435F434B464E203B2020202020202020203933324631,
  0x364235352D48504152474F4544492044454946494E55204B4A432044455241555153202020202020206F532023202020202020202020202036423535203B46435F434B464E203B2020202020202020204133324631,
  0x443431392D48504152474F4544492044454946494E55204B4A432044455241555153202020202020206F532023202020202020202020202044343139203B46435F434B464E203B2020202020202020204233324631,
  0x433237362D48504152474F4544492044454946494E55204B4A4320444554454B43415242204C4C454853204553494F54524F54202020202020206F532023203531303320433237362034313033203B46435F434B464E203B2020202020202020203034324631,
  0x393045342D48504152474F4544492044454946494E55204B4A4320444554454B43415242204C4C454853204553494F54524F54202020202020206F532023203531303320393045342034313033203B46435F434B464E203B2020202020202020203134324631,
  0x433845342D48504152474F4544492044454946494E55204B4A4320444554454B43415242204C4C454853204553494F54524F54202020202020206F532023203531303320433845342034313033203B46435F434B464E203B2020202020202020203234324631,
  0x393842352D48504152474F4544492044454946494E55204B4A4320444554454B43415242204C4C454853204553494F54524F54202020202020206F532023203531303320393842352034313033203B46435F434B464E203B2020202020202020203334324631,
  0x394230372D48504152474F4544492044454946494E55204B4A4320444554454B43415242204C4C454853204553494F54524F54202020202020206F532023203531303320394230372034313033203B46435F434B464E203B2020202020202020203434324631,
  0x333532362D48504152474F4544492044454946494E55204B4A4320444554454B43415242204C4C454853204553494F54524F54202020202020206F532023203531303320333532362034313033203B46435F434B464E203B2020202020202020203534324631,
  0x374436372D48504152474F4544492044454946494E55204B4A4320444554454B43415242204C4C454853204553494F54524F54202020202020206F532023203531303320374436372034313033203B46435F434B464E203B2020202020202020203634324631,
  0x444432352D48504152474F4544492044454946494E55204B4A4320444554454B43415242204C4C454853204553494F54524F54202020202020206F532023203531303320444432352034313033203B46435F434B464E203B2020202020202020203734324631,
  0x373535362D48504152474F4544492044454946494E55204B4A4320444554454B43415242204C4C454853204553494F54524F54202020202020206F532023203531303320373535362034313033203B46435F434B464E203B2020202020202020203834324631,
  0x454741544E415644412048504152474F4544492044454C43524943202020202020206F532023202020202020202020202037394635203B46435F434B464E203B2020202020202020203035324631,
  0x5450454343412048504152474F4544492044454C43524943202020202020206F532023202020202020202020202046453335203B46435F434B464E203B2020202020202020203135324631,
  0x4F52455A205449474944204445544E454D47455320202020202020644E2023202020202020202020202030333030203B46435F434B464E203B2020202020202020203046424631,
  0x454E4F205449474944204445544E454D47455320202020202020644E2023202020202020202020202031333030203B46435F434B464E203B2020202020202020203146424631,
  0x4F5754205449474944204445544E454D47455320202020202020644E2023202020202020202020202032333030203B46435F434B464E203B2020202020202020203246424631,
  0x4545524854205449474944204445544E454D47455320202020202020644E2023202020202020202020202033333030203B46435F434B464E203B2020202020202020203346424631,
  0x52554F46205449474944204445544E454D47455320202020202020644E2023202020202020202020202034333030203B46435F434B464E203B2020202020202020203446424631,
  0x45564946205449474944204445544E454D47455320202020202020644E2023202020202020202020202035333030203B46435F434B464E203B2020202020202020203546424631,
  0x584953205449474944204445544E454D47455320202020202020644E2023202020202020202020202036333030203B46435F434B464E203B2020202020202020203646424631,
  0x4E45564553205449474944204445544E454D47455320202020202020644E2023202020202020202020202037333030203B46435F434B464E203B2020202020202020203746424631,
  0x5448474945205449474944204445544E454D47455320202020202020644E2023202020202020202020202038333030203B46435F434B464E203B2020202020202020203846424631,
  0x454E494E205449474944204445544E454D47455320202020202020644E2023202020202020202020202039333030203B46435F434B464E203B2020202020202020203946424631,
  0x30303846322D48504152474F454449205954494C4942495441504D4F43204B4A43202020202020206F4C2023202020202020202020202044334534203B46435F434B464E203B2020202020202020203030384632,
  0x31303846322D48504152474F454449205954494C4942495441504D4F43204B4A43202020202020206F4C2023202020202020202020202038334534203B46435F434B464E203B2020202020202020203130384632,
  0x32303846322D48504152474F454449205954494C4942495441504D4F43204B4A43202020202020206F4C2023202020202020202020202031344534203B46435F434B464E203B2020202020202020203230384632,
  0x33303846322D48504152474F454449205954494C4942495441504D4F43204B4A43202020202020206F4C2023202020202020202020203232313032203B46435F434B464E203B2020202020202020203330384632,
  0x34303846322D48504152474F454449205954494C4942495441504D4F43204B4A43202020202020206F4C2023202020202020202020202030364634203B46435F434B464E203B2020202020202020203430384632,
  0x35303846322D48504152474F454449205954494C4942495441504D4F43204B4A43202020202020206F4C2023202020202020202020202045414634203B46435F434B464E203B2020202020202020203530384632,
  0x36303846322D48504152474F454449205954494C4942495441504D4F43204B4A43202020202020206F4C2023202020202020202020202042424634203B46435F434B464E203B2020202020202020203630384632,
  0x37303846322D48504152474F454449205954494C4942495441504D4F43204B4A43202020202020206F4C2023202020202020202020202032303035203B46435F434B464E203B2020202020202020203730384632,
  0x38303846322D48504152474F454449205954494C4942495441504D4F43204B4A43202020202020206F4C2023202020202020202020202041373035203B46435F434B464E203B2020202020202020203830384632,
  0x39303846322D48504152474F454449205954494C4942495441504D4F43204B4A43202020202020206F4C2023202020202020202020202039393035203B46435F434B464E203B2020202020202020203930384632,
  0x41303846322D48504152474F454449205954494C4942495441504D4F43204B4A43202020202020206F4C2023202020202020202020202037453035203B46435F434B464E203B2020202020202020204130384632,
  0x42303846322D48504152474F454449205954494C4942495441504D4F43204B4A43202020202020206F4C2023202020202020202020202046433035203B46435F434B464E203B2020202020202020204230384632,
  0x43303846322D48504152474F454449205954494C4942495441504D4F43204B4A43202020202020206F4C2023202020202020202020202045393433203B46435F434B464E203B2020202020202020204330384632,
  0x44303846322D48504152474F454449205954494C4942495441504D4F43204B4A43202020202020206F4C2023202020202020202020204133363032203B46435F434B464E203B2020202020202020204430384632,
  0x45303846322D48504152474F454449205954494C4942495441504D4F43204B4A43202020202020206F4C2023202020202020202020202044343135203B46435F434B464E203B2020202020202020204530384632,
  0x46303846322D48504152474F454449205954494C4942495441504D4F43204B4A43202020202020206F4C2023202020202020202020202034353135203B46435F434B464E203B2020202020202020204630384632,
  0x30313846322D48504152474F454449205954494C4942495441504D4F43204B4A43202020202020206F4C2023202020202020202020202034363135203B46435F434B464E203B2020202020202020203031384632,
  0x31313846322D48504152474F454449205954494C4942495441504D4F43204B4A43202020202020206F4C2023202020202020202020202037373135203B46435F434B464E203B2020202020202020203131384632,
  0x32313846322D48504152474F454449205954494C4942495441504D4F43204B4A43202020202020206F4C2023202020202020202020204331353032203B46435F434B464E203B2020202020202020203231384632,
  0x33313846322D48504152474F454449205954494C4942495441504D4F43204B4A43202020202020206F4C2023202020202020202020202039423433203B46435F434B464E203B2020202020202020203331384632,
  0x34313846322D48504152474F454449205954494C4942495441504D4F43204B4A43202020202020206F4C2023202020202020202020202037363135203B46435F434B464E203B2020202020202020203431384632,
  0x35313846322D48504152474F454449205954494C4942495441504D4F43204B4A43202020202020206F4C2023202020202020202020202044383135203B46435F434B464E203B2020202020202020203531384632,
  0x36313846322D48504152474F454449205954494C4942495441504D4F43204B4A43202020202020206F4C2023202020202020202020204234353032203B46435F434B464E203B2020202020202020203631384632,
  0x37313846322D48504152474F454449205954494C4942495441504D4F43204B4A43202020202020206F4C2023202020202020202020202037393135203B46435F434B464E203B2020202020202020203731384632,
  0x38313846322D48504152474F454449205954494C4942495441504D4F43204B4A43202020202020206F4C2023202020202020202020202034413135203B46435F434B464E203B2020202020202020203831384632,
  0x39313846322D48504152474F454449205954494C4942495441504D4F43204B4A43202020202020206F4C2023202020202020202020202043434534203B46435F434B464E203B2020202020202020203931384632,
  0x41313846322D48504152474F454449205954494C4942495441504D4F43204B4A43202020202020206F4C2023202020202020202020202043413135203B46435F434B464E203B2020202020202020204131384632,
  0x42313846322D48504152474F454449205954494C4942495441504D4F43204B4A43202020202020206F4C2023202020202020202020202035423135203B46435F434B464E203B2020202020202020204231384632,
  0x43313846322D48504152474F454449205954494C4942495441504D4F43204B4A43202020202020206F4C2023202020202020202020204644313932203B46435F434B464E203B2020202020202020204331384632,
  0x44313846322D48504152474F454449205954494C4942495441504D4F43204B4A43202020202020206F4C2023202020202020202020202035463135203B46435F434B464E203B2020202020202020204431384632,
  0x45313846322D48504152474F454449205954494C4942495441504D4F43204B4A43202020202020206F4C2023202020202020202020202033303235203B46435F434B464E203B2020202020202020204531384632,
  0x46313846322D48504152474F454449205954494C4942495441504D4F43204B4A43202020202020206F4C2023202020202020202020202046443433203B46435F434B464E203B2020202020202020204631384632,
  0x30323846322D48504152474F454449205954494C4942495441504D4F43204B4A43202020202020206F4C2023202020202020202020202042333235203B46435F434B464E203B2020202020202020203032384632,
  0x31323846322D48504152474F454449205954494C4942495441504D4F43204B4A43202020202020206F4C2023202020202020202020202036343235203B46435F434B464E203B2020202020202020203132384632,
  0x32323846322D48504152474F454449205954494C4942495441504D4F43204B4A43202020202020206F4C2023202020202020202020202032373235203B46435F434B464E203B2020202020202020203232384632,
  0x33323846322D48504152474F454449205954494C4942495441504D4F43204B4A43202020202020206F4C2023202020202020202020202037373235203B46435F434B464E203B2020202020202020203332384632,
  0x34323846322D48504152474F454449205954494C4942495441504D4F43204B4A43202020202020206F4C2023202020202020202020202035313533203B46435F434B464E203B2020202020202020203432384632,
  0x35323846322D48504152474F454449205954494C4942495441504D4F43204B4A43202020202020206F4C2023202020202020202020202037433235203B46435F434B464E203B2020202020202020203532384632,
  0x36323846322D48504152474F454449205954494C4942495441504D4F43204B4A43202020202020206F4C2023202020202020202020202039433235203B46435F434B464E203B2020202020202020203632384632,
  0x37323846322D48504152474F454449205954494C4942495441504D4F43204B4A43202020202020206F4C2023202020202020202020202034453235203B46435F434B464E203B2020202020202020203732384632,
  0x38323846322D48504152474F454449205954494C4942495441504D4F43204B4A43202020202020206F4C2023202020202020202020202041463235203B46435F434B464E203B2020202020202020203832384632,
  0x39323846322D48504152474F454449205954494C4942495441504D4F43204B4A43202020202020206F4C2023202020202020202020202035303335203B46435F434B464E203B2020202020202020203932384632,
  0x41323846322D48504152474F454449205954494C4942495441504D4F43204B4A43202020202020206F4C2023202020202020202020202036303335203B46435F434B464E203B2020202020202020204132384632,
  0x42323846322D48504152474F454449205954494C4942495441504D4F43204B4A43202020202020206F4C2023202020202020202020202037313335203B46435F434B464E203B2020202020202020204232384632,
  0x43323846322D48504152474F454449205954494C4942495441504D4F43204B4A43202020202020206F4C2023202020202020202020202039343335203B46435F434B464E203B2020202020202020204332384632,
  0x44323846322D48504152474F454449205954494C4942495441504D4F43204B4A43202020202020206F4C2023202020202020202020202031353335203B46435F434B464E203B2020202020202020204432384632,
  0x45323846322D48504152474F454449205954494C4942495441504D4F43204B4A43202020202020206F4C2023202020202020202020202041353335203B46435F434B464E203B2020202020202020204532384632,
  0x46323846322D48504152474F454449205954494C4942495441504D4F43204B4A43202020202020206F4C2023202020202020202020202033373335203B46435F434B464E203B2020202020202020204632384632,
  0x30333846322D48504152474F454449205954494C4942495441504D4F43204B4A43202020202020206F4C2023202020202020202020202044373335203B46435F434B464E203B2020202020202020203033384632,
  0x33333846322D48504152474F454449205954494C4942495441504D4F43204B4A432E2E31333846322D48504152474F454449205954494C4942495441504D4F43204B4A43205D335B2020206F4C2023202020202020202020202046373335203B46435F434B464E203B202033333846322E2E3133384632,
  0x34333846322D48504152474F454449205954494C4942495441504D4F43204B4A43202020202020206F4C2023202020202020202020204332413032203B46435F434B464E203B2020202020202020203433384632,
  0x35333846322D48504152474F454449205954494C4942495441504D4F43204B4A43202020202020206F4C2023202020202020202020202030373037203B46435F434B464E203B2020202020202020203533384632,
  0x36333846322D48504152474F454449205954494C4942495441504D4F43204B4A43202020202020206F4C2023202020202020202020202041433335203B46435F434B464E203B2020202020202020203633384632,
  0x37333846322D48504152474F454449205954494C4942495441504D4F43204B4A43202020202020206F4C2023202020202020202020202046443335203B46435F434B464E203B2020202020202020203733384632,
  0x38333846322D48504152474F454449205954494C4942495441504D4F43204B4A43202020202020206F4C2023202020202020202020203336423032203B46435F434B464E203B2020202020202020203833384632,
  0x39333846322D48504152474F454449205954494C4942495441504D4F43204B4A43202020202020206F4C2023202020202020202020202042453335203B46435F434B464E203B2020202020202020203933384632,
  0x41333846322D48504152474F454449205954494C4942495441504D4F43204B4A43202020202020206F4C2023202020202020202020202031463335203B46435F434B464E203B2020202020202020204133384632,
  0x42333846322D48504152474F454449205954494C4942495441504D4F43204B4A43202020202020206F4C2023202020202020202020202036303435203B46435F434B464E203B2020202020202020204233384632,
  0x43333846322D48504152474F454449205954494C4942495441504D4F43204B4A43202020202020206F4C2023202020202020202020202045393435203B46435F434B464E203B2020202020202020204333384632,
  0x44333846322D48504152474F454449205954494C4942495441504D4F43204B4A43202020202020206F4C2023202020202020202020202038333435203B46435F434B464E203B2020202020202020204433384632,
  0x45333846322D48504152474F454449205954494C4942495441504D4F43204B4A43202020202020206F4C2023202020202020202020202038343435203B46435F434B464E203B2020202020202020204533384632,
  0x46333846322D48504152474F454449205954494C4942495441504D4F43204B4A43202020202020206F4C2023202020202020202020202038363435203B46435F434B464E203B2020202020202020204633384632,
  0x30343846322D48504152474F454449205954494C4942495441504D4F43204B4A43202020202020206F4C2023202020202020202020202032413435203B46435F434B464E203B2020202020202020203034384632,
  0x31343846322D48504152474F454449205954494C4942495441504D4F43204B4A43202020202020206F4C2023202020202020202020202036463435203B46435F434B464E203B2020202020202020203134384632,
  0x32343846322D48504152474F454449205954494C4942495441504D4F43204B4A43202020202020206F4C2023202020202020202020202030313535203B46435F434B464E203B2020202020202020203234384632,
  0x33343846322D48504152474F454449205954494C4942495441504D4F43204B4A43202020202020206F4C2023202020202020202020202033353535203B46435F434B464E203B2020202020202020203334384632,
  0x34343846322D48504152474F454449205954494C4942495441504D4F43204B4A43202020202020206F4C2023202020202020202020202033363535203B46435F434B464E203B2020202020202020203434384632,
  0x36343846322D48504152474F454449205954494C4942495441504D4F43204B4A432E2E35343846322D48504152474F454449205954494C4942495441504D4F43204B4A43205D325B2020206F4C2023202020202020202020202034383535203B46435F434B464E203B202036343846322E2E3534384632,
  0x37343846322D48504152474F454449205954494C4942495441504D4F43204B4A43202020202020206F4C2023202020202020202020202039393535203B46435F434B464E203B2020202020202020203734384632,
  0x38343846322D48504152474F454449205954494C4942495441504D4F43204B4A43202020202020206F4C2023202020202020202020202042413535203B46435F434B464E203B2020202020202020203834384632,
  0x39343846322D48504152474F454449205954494C4942495441504D4F43204B4A43202020202020206F4C2023202020202020202020202033423535203B46435F434B464E203B2020202020202020203934384632,
  0x41343846322D48504152474F454449205954494C4942495441504D4F43204B4A43202020202020206F4C2023202020202020202020202032433535203B46435F434B464E203B2020202020202020204134384632,
  0x42343846322D48504152474F454449205954494C4942495441504D4F43204B4A43202020202020206F4C2023202020202020202020202036313735203B46435F434B464E203B2020202020202020204234384632,
  0x43343846322D48504152474F454449205954494C4942495441504D4F43204B4A43202020202020206F4C2023202020202020202020202036303635203B46435F434B464E203B2020202020202020204334384632,
  0x44343846322D48504152474F454449205954494C4942495441504D4F43204B4A43202020202020206F4C2023202020202020202020202037313735203B46435F434B464E203B2020202020202020204434384632,
  0x45343846322D48504152474F454449205954494C4942495441504D4F43204B4A43202020202020206F4C2023202020202020202020202031353635203B46435F434B464E203B2020202020202020204534384632,
  0x46343846322D48504152474F454449205954494C4942495441504D4F43204B4A43202020202020206F4C2023202020202020202020202034373635203B46435F434B464E203B2020202020202020204634384632,
  0x30353846322D48504152474F454449205954494C4942495441504D4F43204B4A43202020202020206F4C2023202020202020202020202037303235203B46435F434B464E203B2020202020202020203035384632,
  0x31353846322D48504152474F454449205954494C4942495441504D4F43204B4A43202020202020206F4C2023202020202020202020202045453835203B46435F434B464E203B2020202020202020203135384632,
  0x32353846322D48504152474F454449205954494C4942495441504D4F43204B4A43202020202020206F4C2023202020202020202020202045433735203B46435F434B464E203B2020202020202020203235384632,
  0x33353846322D48504152474F454449205954494C4942495441504D4F43204B4A43202020202020206F4C2023202020202020202020202034463735203B46435F434B464E203B2020202020202020203335384632,
  0x34353846322D48504152474F454449205954494C4942495441504D4F43204B4A43202020202020206F4C2023202020202020202020202044303835203B46435F434B464E203B2020202020202020203435384632,
  0x35353846322D48504152474F454449205954494C4942495441504D4F43204B4A43202020202020206F4C2023202020202020202020202042383735203B46435F434B464E203B2020202020202020203535384632,
  0x36353846322D48504152474F454449205954494C4942495441504D4F43204B4A43202020202020206F4C2023202020202020202020202032333835203B46435F434B464E203B2020202020202020203635384632,
  0x37353846322D48504152474F454449205954494C4942495441504D4F43204B4A43202020202020206F4C2023202020202020202020202031333835203B46435F434B464E203B2020202020202020203735384632,
  0x38353846322D48504152474F454449205954494C4942495441504D4F43204B4A43202020202020206F4C2023202020202020202020202043413835203B46435F434B464E203B2020202020202020203835384632,
  0x39353846322D48504152474F454449205954494C4942495441504D4F43204B4A43202020202020206F4C2023202020202020202020203445343132203B46435F434B464E203B2020202020202020203935384632,
  0x41353846322D48504152474F454449205954494C4942495441504D4F43204B4A43202020202020206F4C2023202020202020202020202032463835203B46435F434B464E203B2020202020202020204135384632,
  0x42353846322D48504152474F454449205954494C4942495441504D4F43204B4A43202020202020206F4C2023202020202020202020202037463835203B46435F434B464E203B2020202020202020204235384632,
  0x43353846322D48504152474F454449205954494C4942495441504D4F43204B4A43202020202020206F4C2023202020202020202020202036303935203B46435F434B464E203B2020202020202020204335384632,
  0x44353846322D48504152474F454449205954494C4942495441504D4F43204B4A43202020202020206F4C2023202020202020202020202041313935203B46435F434B464E203B2020202020202020204435384632,
  0x45353846322D48504152474F454449205954494C4942495441504D4F43204B4A43202020202020206F4C2023202020202020202020202032323935203B46435F434B464E203B2020202020202020204535384632,
  0x46353846322D48504152474F454449205954494C4942495441504D4F43204B4A43202020202020206F4C2023202020202020202020202032363935203B46435F434B464E203B2020202020202020204635384632,
  0x30363846322D48504152474F454449205954494C4942495441504D4F43204B4A43202020202020206F4C2023202020202020202020203841363132203B46435F434B464E203B2020202020202020203036384632,
  0x31363846322D48504152474F454449205954494C4942495441504D4F43204B4A43202020202020206F4C2023202020202020202020204145363132203B46435F434B464E203B2020202020202020203136384632,
  0x32363846322D48504152474F454449205954494C4942495441504D4F43204B4A43202020202020206F4C2023202020202020202020202043453935203B46435F434B464E203B2020202020202020203236384632,
  0x33363846322D48504152474F454449205954494C4942495441504D4F43204B4A43202020202020206F4C2023202020202020202020202042314135203B46435F434B464E203B2020202020202020203336384632,
  0x34363846322D48504152474F454449205954494C4942495441504D4F43204B4A43202020202020206F4C2023202020202020202020202037324135203B46435F434B464E203B2020202020202020203436384632,
  0x35363846322D48504152474F454449205954494C4942495441504D4F43204B4A43202020202020206F4C2023202020202020202020202038443935203B46435F434B464E203B2020202020202020203536384632,
  0x36363846322D48504152474F454449205954494C4942495441504D4F43204B4A43202020202020206F4C2023202020202020202020202036364135203B46435F434B464E203B2020202020202020203636384632,
  0x37363846322D48504152474F454449205954494C4942495441504D4F43204B4A43202020202020206F4C2023202020202020202020202045453633203B46435F434B464E203B2020202020202020203736384632,
  0x38363846322D48504152474F454449205954494C4942495441504D4F43204B4A43202020202020206F4C2023202020202020202020202043463633203B46435F434B464E203B2020202020202020203836384632,
  0x39363846322D48504152474F454449205954494C4942495441504D4F43204B4A43202020202020206F4C2023202020202020202020202038304235203B46435F434B464E203B2020202020202020203936384632,
  0x42363846322D48504152474F454449205954494C4942495441504D4F43204B4A432E2E41363846322D48504152474F454449205954494C4942495441504D4F43204B4A43205D325B2020206F4C2023202020202020202020202045334235203B46435F434B464E203B202042363846322E2E4136384632,
  0x43363846322D48504152474F454449205954494C4942495441504D4F43204B4A43202020202020206F4C2023202020202020202020203843393132203B46435F434B464E203B2020202020202020204336384632,
  0x44363846322D48504152474F454449205954494C4942495441504D4F43204B4A43202020202020206F4C2023202020202020202020202033434235203B46435F434B464E203B2020202020202020204436384632,
  0x45363846322D48504152474F454449205954494C4942495441504D4F43204B4A43202020202020206F4C2023202020202020202020202038444235203B46435F434B464E203B2020202020202020204536384632,
  0x46363846322D48504152474F454449205954494C4942495441504D4F43204B4A43202020202020206F4C2023202020202020202020202037454235203B46435F434B464E203B2020202020202020204636384632,
  0x30373846322D48504152474F454449205954494C4942495441504D4F43204B4A43202020202020206F4C2023202020202020202020202033464235203B46435F434B464E203B2020202020202020203037384632,
  0x31373846322D48504152474F454449205954494C4942495441504D4F43204B4A43202020202020206F4C2023202020202020202020203831423132203B46435F434B464E203B2020202020202020203137384632,
  0x32373846322D48504152474F454449205954494C4942495441504D4F43204B4A43202020202020206F4C2023202020202020202020202046464235203B46435F434B464E203B2020202020202020203237384632,
  0x33373846322D48504152474F454449205954494C4942495441504D4F43204B4A43202020202020206F4C2023202020202020202020202036304335203B46435F434B464E203B2020202020202020203337384632,
  0x34373846322D48504152474F454449205954494C4942495441504D4F43204B4A43202020202020206F4C2023202020202020202020202033354635203B46435F434B464E203B2020202020202020203437384632,
  0x35373846322D48504152474F454449205954494C4942495441504D4F43204B4A43202020202020206F4C2023202020202020202020202032324335203B46435F434B464E203B2020202020202020203537384632,
  0x36373846322D48504152474F454449205954494C4942495441504D4F43204B4A43202020202020206F4C2023202020202020202020202031383733203B46435F434B464E203B2020202020202020203637384632,
  0x37373846322D48504152474F454449205954494C4942495441504D4F43204B4A43202020202020206F4C2023202020202020202020202030364335203B46435F434B464E203B2020202020202020203737384632,
  0x38373846322D48504152474F454449205954494C4942495441504D4F43204B4A43202020202020206F4C2023202020202020202020202045364335203B46435F434B464E203B2020202020202020203837384632,
  0x39373846322D48504152474F454449205954494C4942495441504D4F43204B4A43202020202020206F4C2023202020202020202020202030434335203B46435F434B464E203B2020202020202020203937384632,
  0x41373846322D48504152474F454449205954494C4942495441504D4F43204B4A43202020202020206F4C2023202020202020202020202044384335203B46435F434B464E203B2020202020202020204137384632,
  0x42373846322D48504152474F454449205954494C4942495441504D4F43204B4A43202020202020206F4C2023202020202020202020203445443132203B46435F434B464E203B2020202020202020204237384632,
  0x43373846322D48504152474F454449205954494C4942495441504D4F43204B4A43202020202020206F4C2023202020202020202020202033344435203B46435F434B464E203B2020202020202020204337384632,
  0x44373846322D48504152474F454449205954494C4942495441504D4F43204B4A43202020202020206F4C2023202020202020202020203645443132203B46435F434B464E203B2020202020202020204437384632,
  0x45373846322D48504152474F454449205954494C4942495441504D4F43204B4A43202020202020206F4C2023202020202020202020202045364435203B46435F434B464E203B2020202020202020204537384632,
  0x46373846322D48504152474F454449205954494C4942495441504D4F43204B4A43202020202020206F4C2023202020202020202020202042364435203B46435F434B464E203B2020202020202020204637384632,
  0x30383846322D48504152474F454449205954494C4942495441504D4F43204B4A43202020202020206F4C2023202020202020202020202043374435203B46435F434B464E203B2020202020202020203038384632,
  0x31383846322D48504152474F454449205954494C4942495441504D4F43204B4A43202020202020206F4C2023202020202020202020202031454435203B46435F434B464E203B2020202020202020203138384632,
  0x32383846322D48504152474F454449205954494C4942495441504D4F43204B4A43202020202020206F4C2023202020202020202020202032454435203B46435F434B464E203B2020202020202020203238384632,
  0x33383846322D48504152474F454449205954494C4942495441504D4F43204B4A43202020202020206F4C2023202020202020202020202046323833203B46435F434B464E203B2020202020202020203338384632,
  0x34383846322D48504152474F454449205954494C4942495441504D4F43204B4A43202020202020206F4C2023202020202020202020202044464435203B46435F434B464E203B2020202020202020203438384632,
  0x35383846322D48504152474F454449205954494C4942495441504D4F43204B4A43202020202020206F4C2023202020202020202020202038324535203B46435F434B464E203B2020202020202020203538384632,
  0x36383846322D48504152474F454449205954494C4942495441504D4F43204B4A43202020202020206F4C2023202020202020202020202044334535203B46435F434B464E203B2020202020202020203638384632,
  0x37383846322D48504152474F454449205954494C4942495441504D4F43204B4A43202020202020206F4C2023202020202020202020202039364535203B46435F434B464E203B2020202020202020203738384632,
  0x38383846322D48504152474F454449205954494C4942495441504D4F43204B4A43202020202020206F4C2023202020202020202020202032363833203B46435F434B464E203B2020202020202020203838384632,
  0x39383846322D48504152474F454449205954494C4942495441504D4F43204B4A43202020202020206F4C2023202020202020202020203338313232203B46435F434B464E203B2020202020202020203938384632,
  0x41383846322D48504152474F454449205954494C4942495441504D4F43204B4A43202020202020206F4C2023202020202020202020202043373833203B46435F434B464E203B2020202020202020204138384632,
  0x42383846322D48504152474F454449205954494C4942495441504D4F43204B4A43202020202020206F4C2023202020202020202020202030424535203B46435F434B464E203B2020202020202020204238384632,
  0x43383846322D48504152474F454449205954494C4942495441504D4F43204B4A43202020202020206F4C2023202020202020202020202033424535203B46435F434B464E203B2020202020202020204338384632,
  0x44383846322D48504152474F454449205954494C4942495441504D4F43204B4A43202020202020206F4C2023202020202020202020202036424535203B46435F434B464E203B2020202020202020204438384632,
  0x45383846322D48504152474F454449205954494C4942495441504D4F43204B4A43202020202020206F4C2023202020202020202020202041434535203B46435F434B464E203B2020202020202020204538384632,
  0x46383846322D48504152474F454449205954494C4942495441504D4F43204B4A43202020202020206F4C2023202020202020202020203239334132203B46435F434B464E203B2020202020202020204638384632,
  0x30393846322D48504152474F454449205954494C4942495441504D4F43204B4A43202020202020206F4C2023202020202020202020202045464535203B46435F434B464E203B2020202020202020203039384632,
  0x32393846322D48504152474F454449205954494C4942495441504D4F43204B4A432E2E31393846322D48504152474F454449205954494C4942495441504D4F43204B4A43205D325B2020206F4C2023202020202020202020203133333232203B46435F434B464E203B202032393846322E2E3139384632,
  0x33393846322D48504152474F454449205954494C4942495441504D4F43204B4A43202020202020206F4C2023202020202020202020202031303238203B46435F434B464E203B2020202020202020203339384632,
  0x35393846322D48504152474F454449205954494C4942495441504D4F43204B4A432E2E34393846322D48504152474F454449205954494C4942495441504D4F43204B4A43205D325B2020206F4C2023202020202020202020202032324635203B46435F434B464E203B202035393846322E2E3439384632,
  0x36393846322D48504152474F454449205954494C4942495441504D4F43204B4A43202020202020206F4C2023202020202020202020202037433833203B46435F434B464E203B2020202020202020203639384632,
  0x37393846322D48504152474F454449205954494C4942495441504D4F43204B4A43202020202020206F4C2023202020202020202020203842323332203B46435F434B464E203B2020202020202020203739384632,
  0x38393846322D48504152474F454449205954494C4942495441504D4F43204B4A43202020202020206F4C2023202020202020202020204144313632203B46435F434B464E203B2020202020202020203839384632,
  0x39393846322D48504152474F454449205954494C4942495441504D4F43204B4A43202020202020206F4C2023202020202020202020202032364635203B46435F434B464E203B2020202020202020203939384632,
  0x41393846322D48504152474F454449205954494C4942495441504D4F43204B4A43202020202020206F4C2023202020202020202020202042364635203B46435F434B464E203B2020202020202020204139384632,
  0x42393846322D48504152474F454449205954494C4942495441504D4F43204B4A43202020202020206F4C2023202020202020202020202033453833203B46435F434B464E203B2020202020202020204239384632,
  0x43393846322D48504152474F454449205954494C4942495441504D4F43204B4A43202020202020206F4C2023202020202020202020202041394635203B46435F434B464E203B2020202020202020204339384632,
  0x44393846322D48504152474F454449205954494C4942495441504D4F43204B4A43202020202020206F4C2023202020202020202020202044434635203B46435F434B464E203B2020202020202020204439384632,
  0x45393846322D48504152474F454449205954494C4942495441504D4F43204B4A43202020202020206F4C2023202020202020202020202037444635203B46435F434B464E203B2020202020202020204539384632,
  0x46393846322D48504152474F454449205954494C4942495441504D4F43204B4A43202020202020206F4C2023202020202020202020202039464635203B46435F434B464E203B2020202020202020204639384632,
  0x30413846322D48504152474F454449205954494C4942495441504D4F43204B4A43202020202020206F4C2023202020202020202020202031383036203B46435F434B464E203B2020202020202020203041384632,
  0x31413846322D48504152474F454449205954494C4942495441504D4F43204B4A43202020202020206F4C2023202020202020202020202041333933203B46435F434B464E203B2020202020202020203141384632,
  0x32413846322D48504152474F454449205954494C4942495441504D4F43204B4A43202020202020206F4C2023202020202020202020202043313933203B46435F434B464E203B2020202020202020203241384632,
  0x33413846322D48504152474F454449205954494C4942495441504D4F43204B4A43202020202020206F4C2023202020202020202020202034393036203B46435F434B464E203B2020202020202020203341384632,
  0x34413846322D48504152474F454449205954494C4942495441504D4F43204B4A43202020202020206F4C2023202020202020202020203444363232203B46435F434B464E203B2020202020202020203441384632,
  0x35413846322D48504152474F454449205954494C4942495441504D4F43204B4A43202020202020206F4C2023202020202020202020202037433036203B46435F434B464E203B2020202020202020203541384632,
  0x36413846322D48504152474F454449205954494C4942495441504D4F43204B4A43202020202020206F4C2023202020202020202020202038343136203B46435F434B464E203B2020202020202020203641384632,
  0x37413846322D48504152474F454449205954494C4942495441504D4F43204B4A43202020202020206F4C2023202020202020202020202043343136203B46435F434B464E203B2020202020202020203741384632,
  0x38413846322D48504152474F454449205954494C4942495441504D4F43204B4A43202020202020206F4C2023202020202020202020202045343136203B46435F434B464E203B2020202020202020203841384632,
  0x39413846322D48504152474F454449205954494C4942495441504D4F43204B4A43202020202020206F4C2023202020202020202020202043343136203B46435F434B464E203B2020202020202020203941384632,
  0x41413846322D48504152474F454449205954494C4942495441504D4F43204B4A43202020202020206F4C2023202020202020202020202041373136203B46435F434B464E203B2020202020202020204141384632,
  0x42413846322D48504152474F454449205954494C4942495441504D4F43204B4A43202020202020206F4C2023202020202020202020202045383136203B46435F434B464E203B2020202020202020204241384632,
  0x43413846322D48504152474F454449205954494C4942495441504D4F43204B4A43202020202020206F4C2023202020202020202020202032423136203B46435F434B464E203B2020202020202020204341384632,
  0x44413846322D48504152474F454449205954494C4942495441504D4F43204B4A43202020202020206F4C2023202020202020202020202034413136203B46435F434B464E203B2020202020202020204441384632,
  0x45413846322D48504152474F454449205954494C4942495441504D4F43204B4A43202020202020206F4C2023202020202020202020202046413136203B46435F434B464E203B2020202020202020204541384632,
  0x46413846322D48504152474F454449205954494C4942495441504D4F43204B4A43202020202020206F4C2023202020202020202020202045443136203B46435F434B464E203B2020202020202020204641384632,
  0x30423846322D48504152474F454449205954494C4942495441504D4F43204B4A43202020202020206F4C2023202020202020202020202032463136203B46435F434B464E203B2020202020202020203042384632,
  0x31423846322D48504152474F454449205954494C4942495441504D4F43204B4A43202020202020206F4C2023202020202020202020202036463136203B46435F434B464E203B2020202020202020203142384632,
  0x32423846322D48504152474F454449205954494C4942495441504D4F43204B4A43202020202020206F4C2023202020202020202020202030313236203B46435F434B464E203B2020202020202020203242384632,
  0x33423846322D48504152474F454449205954494C4942495441504D4F43204B4A43202020202020206F4C2023202020202020202020202042313236203B46435F434B464E203B2020202020202020203342384632,
  0x34423846322D48504152474F454449205954494C4942495441504D4F43204B4A43202020202020206F4C2023202020202020202020202044353236203B46435F434B464E203B2020202020202020203442384632,
  0x35423846322D48504152474F454449205954494C4942495441504D4F43204B4A43202020202020206F4C2023202020202020202020202031423236203B46435F434B464E203B2020202020202020203542384632,
  0x36423846322D48504152474F454449205954494C4942495441504D4F43204B4A43202020202020206F4C2023202020202020202020202034443236203B46435F434B464E203B2020202020202020203642384632,
  0x37423846322D48504152474F454449205954494C4942495441504D4F43204B4A43202020202020206F4C2023202020202020202020202030353336203B46435F434B464E203B2020202020202020203742384632,
  0x38423846322D48504152474F454449205954494C4942495441504D4F43204B4A43202020202020206F4C2023202020202020202020204330423232203B46435F434B464E203B2020202020202020203842384632,
  0x39423846322D48504152474F454449205954494C4942495441504D4F43204B4A43202020202020206F4C2023202020202020202020202044333336203B46435F434B464E203B2020202020202020203942384632,
  0x41423846322D48504152474F454449205954494C4942495441504D4F43204B4A43202020202020206F4C2023202020202020202020202043463236203B46435F434B464E203B2020202020202020204142384632,
  0x42423846322D48504152474F454449205954494C4942495441504D4F43204B4A43202020202020206F4C2023202020202020202020202038363336203B46435F434B464E203B2020202020202020204242384632,
  0x43423846322D48504152474F454449205954494C4942495441504D4F43204B4A43202020202020206F4C2023202020202020202020202033383336203B46435F434B464E203B2020202020202020204342384632,
  0x44423846322D48504152474F454449205954494C4942495441504D4F43204B4A43202020202020206F4C2023202020202020202020202034453336203B46435F434B464E203B2020202020202020204442384632,
  0x45423846322D48504152474F454449205954494C4942495441504D4F43204B4A43202020202020206F4C2023202020202020202020203146423232203B46435F434B464E203B2020202020202020204542384632,
  0x46423846322D48504152474F454449205954494C4942495441504D4F43204B4A43202020202020206F4C2023202020202020202020202032323436203B46435F434B464E203B2020202020202020204642384632,
  0x30433846322D48504152474F454449205954494C4942495441504D4F43204B4A43202020202020206F4C2023202020202020202020202035433336203B46435F434B464E203B2020202020202020203043384632,
  0x31433846322D48504152474F454449205954494C4942495441504D4F43204B4A43202020202020206F4C2023202020202020202020202039413336203B46435F434B464E203B2020202020202020203143384632,
  0x32433846322D48504152474F454449205954494C4942495441504D4F43204B4A43202020202020206F4C2023202020202020202020202045324133203B46435F434B464E203B2020202020202020203243384632,
  0x33433846322D48504152474F454449205954494C4942495441504D4F43204B4A43202020202020206F4C2023202020202020202020202039363436203B46435F434B464E203B2020202020202020203343384632,
  0x34433846322D48504152474F454449205954494C4942495441504D4F43204B4A43202020202020206F4C2023202020202020202020202045373436203B46435F434B464E203B2020202020202020203443384632,
  0x35433846322D48504152474F454449205954494C4942495441504D4F43204B4A43202020202020206F4C2023202020202020202020202044393436203B46435F434B464E203B2020202020202020203543384632,
  0x36433846322D48504152474F454449205954494C4942495441504D4F43204B4A43202020202020206F4C2023202020202020202020202037373436203B46435F434B464E203B2020202020202020203643384632,
  0x37433846322D48504152474F454449205954494C4942495441504D4F43204B4A43202020202020206F4C2023202020202020202020202043364133203B46435F434B464E203B2020202020202020203743384632,
  0x38433846322D48504152474F454449205954494C4942495441504D4F43204B4A43202020202020206F4C2023202020202020202020202046343536203B46435F434B464E203B2020202020202020203843384632,
  0x39433846322D48504152474F454449205954494C4942495441504D4F43204B4A43202020202020206F4C2023202020202020202020202043363536203B46435F434B464E203B2020202020202020203943384632,
  0x41433846322D48504152474F454449205954494C4942495441504D4F43204B4A43202020202020206F4C2023202020202020202020204130303332203B46435F434B464E203B2020202020202020204143384632,
  0x42433846322D48504152474F454449205954494C4942495441504D4F43204B4A43202020202020206F4C2023202020202020202020202033453536203B46435F434B464E203B2020202020202020204243384632,
  0x43433846322D48504152474F454449205954494C4942495441504D4F43204B4A43202020202020206F4C2023202020202020202020202038463636203B46435F434B464E203B2020202020202020204343384632,
  0x44433846322D48504152474F454449205954494C4942495441504D4F43204B4A43202020202020206F4C2023202020202020202020202039343636203B46435F434B464E203B2020202020202020204443384632,
  0x45433846322D48504152474F454449205954494C4942495441504D4F43204B4A43202020202020206F4C2023202020202020202020202039314233203B46435F434B464E203B2020202020202020204543384632,
  0x46433846322D48504152474F454449205954494C4942495441504D4F43204B4A43202020202020206F4C2023202020202020202020202031393636203B46435F434B464E203B2020202020202020204643384632,
  0x30443846322D48504152474F454449205954494C4942495441504D4F43204B4A43202020202020206F4C2023202020202020202020202038304233203B46435F434B464E203B2020202020202020203044384632,
  0x31443846322D48504152474F454449205954494C4942495441504D4F43204B4A43202020202020206F4C2023202020202020202020202034454133203B46435F434B464E203B2020202020202020203144384632,
  0x32443846322D48504152474F454449205954494C4942495441504D4F43204B4A43202020202020206F4C2023202020202020202020202032393135203B46435F434B464E203B2020202020202020203244384632,
  0x33443846322D48504152474F454449205954494C4942495441504D4F43204B4A43202020202020206F4C2023202020202020202020202035393135203B46435F434B464E203B2020202020202020203344384632,
  0x34443846322D48504152474F454449205954494C4942495441504D4F43204B4A43202020202020206F4C2023202020202020202020202030303736203B46435F434B464E203B2020202020202020203444384632,
  0x35443846322D48504152474F454449205954494C4942495441504D4F43204B4A43202020202020206F4C2023202020202020202020202043393636203B46435F434B464E203B2020202020202020203544384632,
  0x36443846322D48504152474F454449205954494C4942495441504D4F43204B4A43202020202020206F4C2023202020202020202020202044413038203B46435F434B464E203B2020202020202020203644384632,
  0x37443846322D48504152474F454449205954494C4942495441504D4F43204B4A43202020202020206F4C2023202020202020202020202039443334203B46435F434B464E203B2020202020202020203744384632,
  0x38443846322D48504152474F454449205954494C4942495441504D4F43204B4A43202020202020206F4C2023202020202020202020202037313736203B46435F434B464E203B2020202020202020203844384632,
  0x39443846322D48504152474F454449205954494C4942495441504D4F43204B4A43202020202020206F4C2023202020202020202020202042313736203B46435F434B464E203B2020202020202020203944384632]

def qcText34 : List Nat := [
  0x41443846322D48504152474F454449205954494C4942495441504D4F43204B4A43202020202020206F4C2023202020202020202020202031323736203B46435F434B464E203B2020202020202020204144384632,
  0x42443846322D48504152474F454449205954494C4942495441504D4F43204B4A43202020202020206F4C2023202020202020202020202045353736203B46435F434B464E203B2020202020202020204244384632,
  0x43443846322D48504152474F454449205954494C4942495441504D4F43204B4A43202020202020206F4C2023202020202020202020202033353736203B46435F434B464E203B2020202020202020204344384632,
  0x44443846322D48504152474F454449205954494C4942495441504D4F43204B4A43202020202020206F4C2023202020202020202020203343333332203B46435F434B464E203B2020202020202020204444384632,
  0x45443846322D48504152474F454449205954494C4942495441504D4F43204B4A43202020202020206F4C2023202020202020202020202039344233203B46435F434B464E203B2020202020202020204544384632,
  0x46443846322D48504152474F454449205954494C4942495441504D4F43204B4A43202020202020206F4C2023202020202020202020202041463736203B46435F434B464E203B2020202020202020204644384632,
  0x30453846322D48504152474F454449205954494C4942495441504D4F43204B4A43202020202020206F4C2023202020202020202020202035383736203B46435F434B464E203B2020202020202020203045384632,
  0x31453846322D48504152474F454449205954494C4942495441504D4F43204B4A43202020202020206F4C2023202020202020202020202032353836203B46435F434B464E203B2020202020202020203145384632,
  0x32453846322D48504152474F454449205954494C4942495441504D4F43204B4A43202020202020206F4C2023202020202020202020202035383836203B46435F434B464E203B2020202020202020203245384632,
  0x33453846322D48504152474F454449205954494C4942495441504D4F43204B4A43202020202020206F4C2023202020202020202020204436343332203B46435F434B464E203B2020202020202020203345384632,
  0x34453846322D48504152474F454449205954494C4942495441504D4F43204B4A43202020202020206F4C2023202020202020202020202045383836203B46435F434B464E203B2020202020202020203445384632,
  0x35453846322D48504152474F454449205954494C4942495441504D4F43204B4A43202020202020206F4C2023202020202020202020202046313836203B46435F434B464E203B2020202020202020203545384632,
  0x36453846322D48504152474F454449205954494C4942495441504D4F43204B4A43202020202020206F4C2023202020202020202020202034313936203B46435F434B464E203B2020202020202020203645384632,
  0x37453846322D48504152474F454449205954494C4942495441504D4F43204B4A43202020202020206F4C2023202020202020202020202044394233203B46435F434B464E203B2020202020202020203745384632,
  0x38453846322D48504152474F454449205954494C4942495441504D4F43204B4A43202020202020206F4C2023202020202020202020202032343936203B46435F434B464E203B2020202020202020203845384632,
  0x39453846322D48504152474F454449205954494C4942495441504D4F43204B4A43202020202020206F4C2023202020202020202020202033413936203B46435F434B464E203B2020202020202020203945384632,
  0x41453846322D48504152474F454449205954494C4942495441504D4F43204B4A43202020202020206F4C2023202020202020202020202041453936203B46435F434B464E203B2020202020202020204145384632,
  0x42453846322D48504152474F454449205954494C4942495441504D4F43204B4A43202020202020206F4C2023202020202020202020202038414136203B46435F434B464E203B2020202020202020204245384632,
  0x43453846322D48504152474F454449205954494C4942495441504D4F43204B4A43202020202020206F4C2023202020202020202020203341363332203B46435F434B464E203B2020202020202020204345384632,
  0x44453846322D48504152474F454449205954494C4942495441504D4F43204B4A43202020202020206F4C2023202020202020202020202042444136203B46435F434B464E203B2020202020202020204445384632,
  0x45453846322D48504152474F454449205954494C4942495441504D4F43204B4A43202020202020206F4C2023202020202020202020202038314333203B46435F434B464E203B2020202020202020204545384632,
  0x46453846322D48504152474F454449205954494C4942495441504D4F43204B4A43202020202020206F4C2023202020202020202020202031324236203B46435F434B464E203B2020202020202020204645384632,
  0x30463846322D48504152474F454449205954494C4942495441504D4F43204B4A43202020202020206F4C2023202020202020202020203741383332203B46435F434B464E203B2020202020202020203046384632,
  0x31463846322D48504152474F454449205954494C4942495441504D4F43204B4A43202020202020206F4C2023202020202020202020202034354236203B46435F434B464E203B2020202020202020203146384632,
  0x32463846322D48504152474F454449205954494C4942495441504D4F43204B4A43202020202020206F4C2023202020202020202020202045344333203B46435F434B464E203B2020202020202020203246384632,
  0x33463846322D48504152474F454449205954494C4942495441504D4F43204B4A43202020202020206F4C2023202020202020202020202032374236203B46435F434B464E203B2020202020202020203346384632,
  0x34463846322D48504152474F454449205954494C4942495441504D4F43204B4A43202020202020206F4C2023202020202020202020202046394236203B46435F434B464E203B2020202020202020203446384632,
  0x35463846322D48504152474F454449205954494C4942495441504D4F43204B4A43202020202020206F4C2023202020202020202020202041424236203B46435F434B464E203B2020202020202020203546384632,
  0x36463846322D48504152474F454449205954494C4942495441504D4F43204B4A43202020202020206F4C2023202020202020202020202042424236203B46435F434B464E203B2020202020202020203646384632,
  0x37463846322D48504152474F454449205954494C4942495441504D4F43204B4A43202020202020206F4C2023202020202020202020204438413332203B46435F434B464E203B2020202020202020203746384632,
  0x38463846322D48504152474F454449205954494C4942495441504D4F43204B4A43202020202020206F4C2023202020202020202020204230443132203B46435F434B464E203B2020202020202020203846384632,
  0x39463846322D48504152474F454449205954494C4942495441504D4F43204B4A43202020202020206F4C2023202020202020202020204146413332203B46435F434B464E203B2020202020202020203946384632,
  0x41463846322D48504152474F454449205954494C4942495441504D4F43204B4A43202020202020206F4C2023202020202020202020202045344336203B46435F434B464E203B2020202020202020204146384632,
  0x42463846322D48504152474F454449205954494C4942495441504D4F43204B4A43202020202020206F4C2023202020202020202020204342433332203B46435F434B464E203B2020202020202020204246384632,
  0x43463846322D48504152474F454449205954494C4942495441504D4F43204B4A43202020202020206F4C2023202020202020202020202046424336203B46435F434B464E203B2020202020202020204346384632,
  0x44463846322D48504152474F454449205954494C4942495441504D4F43204B4A43202020202020206F4C2023202020202020202020202044434336203B46435F434B464E203B2020202020202020204446384632,
  0x45463846322D48504152474F454449205954494C4942495441504D4F43204B4A43202020202020206F4C2023202020202020202020202037364336203B46435F434B464E203B2020202020202020204546384632,
  0x46463846322D48504152474F454449205954494C4942495441504D4F43204B4A43202020202020206F4C2023202020202020202020202036314436203B46435F434B464E203B2020202020202020204646384632,
  0x30303946322D48504152474F454449205954494C4942495441504D4F43204B4A43202020202020206F4C2023202020202020202020202045334436203B46435F434B464E203B2020202020202020203030394632,
  0x31303946322D48504152474F454449205954494C4942495441504D4F43204B4A43202020202020206F4C2023202020202020202020202037374436203B46435F434B464E203B2020202020202020203130394632,
  0x32303946322D48504152474F454449205954494C4942495441504D4F43204B4A43202020202020206F4C2023202020202020202020202031344436203B46435F434B464E203B2020202020202020203230394632,
  0x33303946322D48504152474F454449205954494C4942495441504D4F43204B4A43202020202020206F4C2023202020202020202020202039364436203B46435F434B464E203B2020202020202020203330394632,
  0x34303946322D48504152474F454449205954494C4942495441504D4F43204B4A43202020202020206F4C2023202020202020202020202038374436203B46435F434B464E203B2020202020202020203430394632,
  0x35303946322D48504152474F454449205954494C4942495441504D4F43204B4A43202020202020206F4C2023202020202020202020202035384436203B46435F434B464E203B2020202020202020203530394632,
  0x36303946322D48504152474F454449205954494C4942495441504D4F43204B4A43202020202020206F4C2023202020202020202020204531443332203B46435F434B464E203B2020202020202020203630394632,
  0x37303946322D48504152474F454449205954494C4942495441504D4F43204B4A43202020202020206F4C2023202020202020202020202034334436203B46435F434B464E203B2020202020202020203730394632,
  0x38303946322D48504152474F454449205954494C4942495441504D4F43204B4A43202020202020206F4C2023202020202020202020202046324536203B46435F434B464E203B2020202020202020203830394632,
  0x39303946322D48504152474F454449205954494C4942495441504D4F43204B4A43202020202020206F4C2023202020202020202020202045364536203B46435F434B464E203B2020202020202020203930394632,
  0x41303946322D48504152474F454449205954494C4942495441504D4F43204B4A43202020202020206F4C2023202020202020202020202033334433203B46435F434B464E203B2020202020202020204130394632,
  0x42303946322D48504152474F454449205954494C4942495441504D4F43204B4A43202020202020206F4C2023202020202020202020202042434536203B46435F434B464E203B2020202020202020204230394632,
  0x43303946322D48504152474F454449205954494C4942495441504D4F43204B4A43202020202020206F4C2023202020202020202020202037434536203B46435F434B464E203B2020202020202020204330394632,
  0x44303946322D48504152474F454449205954494C4942495441504D4F43204B4A43202020202020206F4C2023202020202020202020203144453332203B46435F434B464E203B2020202020202020204430394632,
  0x45303946322D48504152474F454449205954494C4942495441504D4F43204B4A43202020202020206F4C2023202020202020202020202039464436203B46435F434B464E203B2020202020202020204530394632,
  0x46303946322D48504152474F454449205954494C4942495441504D4F43204B4A43202020202020206F4C2023202020202020202020202045364636203B46435F434B464E203B2020202020202020204630394632,
  0x30313946322D48504152474F454449205954494C4942495441504D4F43204B4A43202020202020206F4C2023202020202020202020204535463332203B46435F434B464E203B2020202020202020203031394632,
  0x31313946322D48504152474F454449205954494C4942495441504D4F43204B4A43202020202020206F4C2023202020202020202020204538463332203B46435F434B464E203B2020202020202020203131394632,
  0x32313946322D48504152474F454449205954494C4942495441504D4F43204B4A43202020202020206F4C2023202020202020202020202036434636203B46435F434B464E203B2020202020202020203231394632,
  0x33313946322D48504152474F454449205954494C4942495441504D4F43204B4A43202020202020206F4C2023202020202020202020202039333037203B46435F434B464E203B2020202020202020203331394632,
  0x34313946322D48504152474F454449205954494C4942495441504D4F43204B4A43202020202020206F4C2023202020202020202020202045313037203B46435F434B464E203B2020202020202020203431394632,
  0x35313946322D48504152474F454449205954494C4942495441504D4F43204B4A43202020202020206F4C2023202020202020202020202042313037203B46435F434B464E203B2020202020202020203531394632,
  0x36313946322D48504152474F454449205954494C4942495441504D4F43204B4A43202020202020206F4C2023202020202020202020202036394433203B46435F434B464E203B2020202020202020203631394632,
  0x37313946322D48504152474F454449205954494C4942495441504D4F43204B4A43202020202020206F4C2023202020202020202020202041343037203B46435F434B464E203B2020202020202020203731394632,
  0x38313946322D48504152474F454449205954494C4942495441504D4F43204B4A43202020202020206F4C2023202020202020202020202044373037203B46435F434B464E203B2020202020202020203831394632,
  0x39313946322D48504152474F454449205954494C4942495441504D4F43204B4A43202020202020206F4C2023202020202020202020202037373037203B46435F434B464E203B2020202020202020203931394632,
  0x41313946322D48504152474F454449205954494C4942495441504D4F43204B4A43202020202020206F4C2023202020202020202020202044413037203B46435F434B464E203B2020202020202020204131394632,
  0x42313946322D48504152474F454449205954494C4942495441504D4F43204B4A43202020202020206F4C2023202020202020202020203532353032203B46435F434B464E203B2020202020202020204231394632,
  0x43313946322D48504152474F454449205954494C4942495441504D4F43204B4A43202020202020206F4C2023202020202020202020202035343137203B46435F434B464E203B2020202020202020204331394632,
  0x44313946322D48504152474F454449205954494C4942495441504D4F43204B4A43202020202020206F4C2023202020202020202020203336323432203B46435F434B464E203B2020202020202020204431394632,
  0x45313946322D48504152474F454449205954494C4942495441504D4F43204B4A43202020202020206F4C2023202020202020202020202043393137203B46435F434B464E203B2020202020202020204531394632,
  0x46313946322D48504152474F454449205954494C4942495441504D4F43204B4A43202020202020206F4C2023202020202020202020204241333432203B46435F434B464E203B2020202020202020204631394632,
  0x30323946322D48504152474F454449205954494C4942495441504D4F43204B4A43202020202020206F4C2023202020202020202020202038323237203B46435F434B464E203B2020202020202020203032394632,
  0x31323946322D48504152474F454449205954494C4942495441504D4F43204B4A43202020202020206F4C2023202020202020202020202035333237203B46435F434B464E203B2020202020202020203132394632,
  0x32323946322D48504152474F454449205954494C4942495441504D4F43204B4A43202020202020206F4C2023202020202020202020202030353237203B46435F434B464E203B2020202020202020203232394632,
  0x33323946322D48504152474F454449205954494C4942495441504D4F43204B4A43202020202020206F4C2023202020202020202020203830363432203B46435F434B464E203B2020202020202020203332394632,
  0x34323946322D48504152474F454449205954494C4942495441504D4F43204B4A43202020202020206F4C2023202020202020202020202030383237203B46435F434B464E203B2020202020202020203432394632,
  0x35323946322D48504152474F454449205954494C4942495441504D4F43204B4A43202020202020206F4C2023202020202020202020202035393237203B46435F434B464E203B2020202020202020203532394632,
  0x36323946322D48504152474F454449205954494C4942495441504D4F43204B4A43202020202020206F4C2023202020202020202020203533373432203B46435F434B464E203B2020202020202020203632394632,
  0x37323946322D48504152474F454449205954494C4942495441504D4F43204B4A43202020202020206F4C2023202020202020202020203431383432203B46435F434B464E203B2020202020202020203732394632,
  0x38323946322D48504152474F454449205954494C4942495441504D4F43204B4A43202020202020206F4C2023202020202020202020202041373337203B46435F434B464E203B2020202020202020203832394632,
  0x39323946322D48504152474F454449205954494C4942495441504D4F43204B4A43202020202020206F4C2023202020202020202020202042383337203B46435F434B464E203B2020202020202020203932394632,
  0x41323946322D48504152474F454449205954494C4942495441504D4F43204B4A43202020202020206F4C2023202020202020202020202043414533203B46435F434B464E203B2020202020202020204132394632,
  0x42323946322D48504152474F454449205954494C4942495441504D4F43204B4A43202020202020206F4C2023202020202020202020202035413337203B46435F434B464E203B2020202020202020204232394632,
  0x44323946322D48504152474F454449205954494C4942495441504D4F43204B4A432E2E43323946322D48504152474F454449205954494C4942495441504D4F43204B4A43205D325B2020206F4C2023202020202020202020202038424533203B46435F434B464E203B202044323946322E2E4332394632,
  0x45323946322D48504152474F454449205954494C4942495441504D4F43204B4A43202020202020206F4C2023202020202020202020202037343437203B46435F434B464E203B2020202020202020204532394632,
  0x46323946322D48504152474F454449205954494C4942495441504D4F43204B4A43202020202020206F4C2023202020202020202020202043353437203B46435F434B464E203B2020202020202020204632394632,
  0x30333946322D48504152474F454449205954494C4942495441504D4F43204B4A43202020202020206F4C2023202020202020202020202031373437203B46435F434B464E203B2020202020202020203033394632,
  0x31333946322D48504152474F454449205954494C4942495441504D4F43204B4A43202020202020206F4C2023202020202020202020202035383437203B46435F434B464E203B2020202020202020203133394632,
  0x32333946322D48504152474F454449205954494C4942495441504D4F43204B4A43202020202020206F4C2023202020202020202020202041433437203B46435F434B464E203B2020202020202020203233394632,
  0x33333946322D48504152474F454449205954494C4942495441504D4F43204B4A43202020202020206F4C2023202020202020202020202042314633203B46435F434B464E203B2020202020202020203333394632,
  0x34333946322D48504152474F454449205954494C4942495441504D4F43204B4A43202020202020206F4C2023202020202020202020202034323537203B46435F434B464E203B2020202020202020203433394632,
  0x35333946322D48504152474F454449205954494C4942495441504D4F43204B4A43202020202020206F4C2023202020202020202020203633433432203B46435F434B464E203B2020202020202020203533394632,
  0x36333946322D48504152474F454449205954494C4942495441504D4F43204B4A43202020202020206F4C2023202020202020202020202045333537203B46435F434B464E203B2020202020202020203633394632,
  0x37333946322D48504152474F454449205954494C4942495441504D4F43204B4A43202020202020206F4C2023202020202020202020203239433432203B46435F434B464E203B2020202020202020203733394632,
  0x38333946322D48504152474F454449205954494C4942495441504D4F43204B4A43202020202020206F4C2023202020202020202020202030373537203B46435F434B464E203B2020202020202020203833394632,
  0x39333946322D48504152474F454449205954494C4942495441504D4F43204B4A43202020202020206F4C2023202020202020202020204639313232203B46435F434B464E203B2020202020202020203933394632,
  0x41333946322D48504152474F454449205954494C4942495441504D4F43204B4A43202020202020206F4C2023202020202020202020202030313637203B46435F434B464E203B2020202020202020204133394632,
  0x42333946322D48504152474F454449205954494C4942495441504D4F43204B4A43202020202020206F4C2023202020202020202020203141463432203B46435F434B464E203B2020202020202020204233394632,
  0x43333946322D48504152474F454449205954494C4942495441504D4F43204B4A43202020202020206F4C2023202020202020202020203842463432203B46435F434B464E203B2020202020202020204333394632,
  0x44333946322D48504152474F454449205954494C4942495441504D4F43204B4A43202020202020206F4C2023202020202020202020203434303532203B46435F434B464E203B2020202020202020204433394632,
  0x45333946322D48504152474F454449205954494C4942495441504D4F43204B4A43202020202020206F4C2023202020202020202020202043464633203B46435F434B464E203B2020202020202020204533394632,
  0x46333946322D48504152474F454449205954494C4942495441504D4F43204B4A43202020202020206F4C2023202020202020202020202038303034203B46435F434B464E203B2020202020202020204633394632,
  0x30343946322D48504152474F454449205954494C4942495441504D4F43204B4A43202020202020206F4C2023202020202020202020202034463637203B46435F434B464E203B2020202020202020203034394632,
  0x31343946322D48504152474F454449205954494C4942495441504D4F43204B4A43202020202020206F4C2023202020202020202020203346303532203B46435F434B464E203B2020202020202020203134394632,
  0x32343946322D48504152474F454449205954494C4942495441504D4F43204B4A43202020202020206F4C2023202020202020202020203246303532203B46435F434B464E203B2020202020202020203234394632,
  0x33343946322D48504152474F454449205954494C4942495441504D4F43204B4A43202020202020206F4C2023202020202020202020203931313532203B46435F434B464E203B2020202020202020203334394632,
  0x34343946322D48504152474F454449205954494C4942495441504D4F43204B4A43202020202020206F4C2023202020202020202020203333313532203B46435F434B464E203B2020202020202020203434394632,
  0x35343946322D48504152474F454449205954494C4942495441504D4F43204B4A43202020202020206F4C2023202020202020202020202045313737203B46435F434B464E203B2020202020202020203534394632,
  0x37343946322D48504152474F454449205954494C4942495441504D4F43204B4A432E2E36343946322D48504152474F454449205954494C4942495441504D4F43204B4A43205D325B2020206F4C2023202020202020202020202046313737203B46435F434B464E203B202037343946322E2E3634394632,
  0x38343946322D48504152474F454449205954494C4942495441504D4F43204B4A43202020202020206F4C2023202020202020202020202041343737203B46435F434B464E203B2020202020202020203834394632,
  0x39343946322D48504152474F454449205954494C4942495441504D4F43204B4A43202020202020206F4C2023202020202020202020202039333034203B46435F434B464E203B2020202020202020203934394632,
  0x41343946322D48504152474F454449205954494C4942495441504D4F43204B4A43202020202020206F4C2023202020202020202020202042383737203B46435F434B464E203B2020202020202020204134394632,
  0x42343946322D48504152474F454449205954494C4942495441504D4F43204B4A43202020202020206F4C2023202020202020202020202036343034203B46435F434B464E203B2020202020202020204234394632,
  0x43343946322D48504152474F454449205954494C4942495441504D4F43204B4A43202020202020206F4C2023202020202020202020202036393034203B46435F434B464E203B2020202020202020204334394632,
  0x44343946322D48504152474F454449205954494C4942495441504D4F43204B4A43202020202020206F4C2023202020202020202020204431343532203B46435F434B464E203B2020202020202020204434394632,
  0x45343946322D48504152474F454449205954494C4942495441504D4F43204B4A43202020202020206F4C2023202020202020202020202045343837203B46435F434B464E203B2020202020202020204534394632,
  0x46343946322D48504152474F454449205954494C4942495441504D4F43204B4A43202020202020206F4C2023202020202020202020202043383837203B46435F434B464E203B2020202020202020204634394632,
  0x30353946322D48504152474F454449205954494C4942495441504D4F43204B4A43202020202020206F4C2023202020202020202020202043433837203B46435F434B464E203B2020202020202020203035394632,
  0x31353946322D48504152474F454449205954494C4942495441504D4F43204B4A43202020202020206F4C2023202020202020202020202033453034203B46435F434B464E203B2020202020202020203135394632,
  0x32353946322D48504152474F454449205954494C4942495441504D4F43204B4A43202020202020206F4C2023202020202020202020203632363532203B46435F434B464E203B2020202020202020203235394632,
  0x33353946322D48504152474F454449205954494C4942495441504D4F43204B4A43202020202020206F4C2023202020202020202020202036353937203B46435F434B464E203B2020202020202020203335394632,
  0x34353946322D48504152474F454449205954494C4942495441504D4F43204B4A43202020202020206F4C2023202020202020202020204139363532203B46435F434B464E203B2020202020202020203435394632,
  0x35353946322D48504152474F454449205954494C4942495441504D4F43204B4A43202020202020206F4C2023202020202020202020203543363532203B46435F434B464E203B2020202020202020203535394632,
  0x36353946322D48504152474F454449205954494C4942495441504D4F43204B4A43202020202020206F4C2023202020202020202020202046383937203B46435F434B464E203B2020202020202020203635394632,
  0x37353946322D48504152474F454449205954494C4942495441504D4F43204B4A43202020202020206F4C2023202020202020202020202042453937203B46435F434B464E203B2020202020202020203735394632,
  0x38353946322D48504152474F454449205954494C4942495441504D4F43204B4A43202020202020206F4C2023202020202020202020202046323134203B46435F434B464E203B2020202020202020203835394632,
  0x39353946322D48504152474F454449205954494C4942495441504D4F43204B4A43202020202020206F4C2023202020202020202020202030344137203B46435F434B464E203B2020202020202020203935394632,
  0x41353946322D48504152474F454449205954494C4942495441504D4F43204B4A43202020202020206F4C2023202020202020202020202041344137203B46435F434B464E203B2020202020202020204135394632,
  0x42353946322D48504152474F454449205954494C4942495441504D4F43204B4A43202020202020206F4C2023202020202020202020202046344137203B46435F434B464E203B2020202020202020204235394632,
  0x43353946322D48504152474F454449205954494C4942495441504D4F43204B4A43202020202020206F4C2023202020202020202020204337393532203B46435F434B464E203B2020202020202020204335394632,
  0x45353946322D48504152474F454449205954494C4942495441504D4F43204B4A432E2E44353946322D48504152474F454449205954494C4942495441504D4F43204B4A43205D325B2020206F4C2023202020202020202020203741413532203B46435F434B464E203B202045353946322E2E4435394632,
  0x46353946322D48504152474F454449205954494C4942495441504D4F43204B4A43202020202020206F4C2023202020202020202020202045454137203B46435F434B464E203B2020202020202020204635394632,
  0x30363946322D48504152474F454449205954494C4942495441504D4F43204B4A43202020202020206F4C2023202020202020202020202032303234203B46435F434B464E203B2020202020202020203036394632,
  0x31363946322D48504152474F454449205954494C4942495441504D4F43204B4A43202020202020206F4C2023202020202020202020204241423532203B46435F434B464E203B2020202020202020203136394632,
  0x32363946322D48504152474F454449205954494C4942495441504D4F43204B4A43202020202020206F4C2023202020202020202020202036434237203B46435F434B464E203B2020202020202020203236394632,
  0x33363946322D48504152474F454449205954494C4942495441504D4F43204B4A43202020202020206F4C2023202020202020202020202039434237203B46435F434B464E203B2020202020202020203336394632,
  0x34363946322D48504152474F454449205954494C4942495441504D4F43204B4A43202020202020206F4C2023202020202020202020202037323234203B46435F434B464E203B2020202020202020203436394632,
  0x35363946322D48504152474F454449205954494C4942495441504D4F43204B4A43202020202020206F4C2023202020202020202020203038433532203B46435F434B464E203B2020202020202020203536394632,
  0x36363946322D48504152474F454449205954494C4942495441504D4F43204B4A43202020202020206F4C2023202020202020202020202032444337203B46435F434B464E203B2020202020202020203636394632,
  0x37363946322D48504152474F454449205954494C4942495441504D4F43204B4A43202020202020206F4C2023202020202020202020202030413234203B46435F434B464E203B2020202020202020203736394632,
  0x38363946322D48504152474F454449205954494C4942495441504D4F43204B4A43202020202020206F4C2023202020202020202020202038454337203B46435F434B464E203B2020202020202020203836394632,
  0x39363946322D48504152474F454449205954494C4942495441504D4F43204B4A43202020202020206F4C2023202020202020202020202033454337203B46435F434B464E203B2020202020202020203936394632,
  0x41363946322D48504152474F454449205954494C4942495441504D4F43204B4A43202020202020206F4C2023202020202020202020202030304437203B46435F434B464E203B2020202020202020204136394632,
  0x42363946322D48504152474F454449205954494C4942495441504D4F43204B4A43202020202020206F4C2023202020202020202020203638463532203B46435F434B464E203B2020202020202020204236394632,
  0x43363946322D48504152474F454449205954494C4942495441504D4F43204B4A43202020202020206F4C2023202020202020202020202033364437203B46435F434B464E203B2020202020202020204336394632,
  0x44363946322D48504152474F454449205954494C4942495441504D4F43204B4A43202020202020206F4C2023202020202020202020202031303334203B46435F434B464E203B2020202020202020204436394632,
  0x45363946322D48504152474F454449205954494C4942495441504D4F43204B4A43202020202020206F4C2023202020202020202020202037434437203B46435F434B464E203B2020202020202020204536394632,
  0x46363946322D48504152474F454449205954494C4942495441504D4F43204B4A43202020202020206F4C2023202020202020202020202032304537203B46435F434B464E203B2020202020202020204636394632,
  0x30373946322D48504152474F454449205954494C4942495441504D4F43204B4A43202020202020206F4C2023202020202020202020202035344537203B46435F434B464E203B2020202020202020203037394632,
  0x31373946322D48504152474F454449205954494C4942495441504D4F43204B4A43202020202020206F4C2023202020202020202020202034333334203B46435F434B464E203B2020202020202020203137394632,
  0x32373946322D48504152474F454449205954494C4942495441504D4F43204B4A43202020202020206F4C2023202020202020202020203832323632203B46435F434B464E203B2020202020202020203237394632,
  0x33373946322D48504152474F454449205954494C4942495441504D4F43204B4A43202020202020206F4C2023202020202020202020203734323632203B46435F434B464E203B2020202020202020203337394632,
  0x34373946322D48504152474F454449205954494C4942495441504D4F43204B4A43202020202020206F4C2023202020202020202020202039353334203B46435F434B464E203B2020202020202020203437394632,
  0x35373946322D48504152474F454449205954494C4942495441504D4F43204B4A43202020202020206F4C2023202020202020202020203944323632203B46435F434B464E203B2020202020202020203537394632,
  0x36373946322D48504152474F454449205954494C4942495441504D4F43204B4A43202020202020206F4C2023202020202020202020202041374637203B46435F434B464E203B2020202020202020203637394632,
  0x37373946322D48504152474F454449205954494C4942495441504D4F43204B4A43202020202020206F4C2023202020202020202020204533333632203B46435F434B464E203B2020202020202020203737394632,
  0x38373946322D48504152474F454449205954494C4942495441504D4F43204B4A43202020202020206F4C2023202020202020202020202035394637203B46435F434B464E203B2020202020202020203837394632,
  0x39373946322D48504152474F454449205954494C4942495441504D4F43204B4A43202020202020206F4C2023202020202020202020202041464637203B46435F434B464E203B2020202020202020203937394632,
  0x41373946322D48504152474F454449205954494C4942495441504D4F43204B4A43202020202020206F4C2023202020202020202020202035303038203B46435F434B464E203B2020202020202020204137394632,
  0x42373946322D48504152474F454449205954494C4942495441504D4F43204B4A43202020202020206F4C2023202020202020202020204144343632203B46435F434B464E203B2020202020202020204237394632,
  0x43373946322D48504152474F454449205954494C4942495441504D4F43204B4A43202020202020206F4C2023202020202020202020203332353632203B46435F434B464E203B2020202020202020204337394632,
  0x44373946322D48504152474F454449205954494C4942495441504D4F43204B4A43202020202020206F4C2023202020202020202020202030363038203B46435F434B464E203B2020202020202020204437394632,
  0x45373946322D48504152474F454449205954494C4942495441504D4F43204B4A43202020202020206F4C2023202020202020202020203841353632203B46435F434B464E203B2020202020202020204537394632,
  0x46373946322D48504152474F454449205954494C4942495441504D4F43204B4A43202020202020206F4C2023202020202020202020202030373038203B46435F434B464E203B2020202020202020204637394632,
  0x30383946322D48504152474F454449205954494C4942495441504D4F43204B4A43202020202020206F4C2023202020202020202020204635333332203B46435F434B464E203B2020202020202020203038394632,
  0x31383946322D48504152474F454449205954494C4942495441504D4F43204B4A43202020202020206F4C2023202020202020202020202035443334203B46435F434B464E203B2020202020202020203138394632,
  0x32383946322D48504152474F454449205954494C4942495441504D4F43204B4A43202020202020206F4C2023202020202020202020202032423038203B46435F434B464E203B2020202020202020203238394632,
  0x33383946322D48504152474F454449205954494C4942495441504D4F43204B4A43202020202020206F4C2023202020202020202020202033303138203B46435F434B464E203B2020202020202020203338394632,
  0x34383946322D48504152474F454449205954494C4942495441504D4F43204B4A43202020202020206F4C2023202020202020202020202042303434203B46435F434B464E203B2020202020202020203438394632,
  0x35383946322D48504152474F454449205954494C4942495441504D4F43204B4A43202020202020206F4C2023202020202020202020202045333138203B46435F434B464E203B2020202020202020203538394632,
  0x36383946322D48504152474F454449205954494C4942495441504D4F43204B4A43202020202020206F4C2023202020202020202020202035424135203B46435F434B464E203B2020202020202020203638394632,
  0x37383946322D48504152474F454449205954494C4942495441504D4F43204B4A43202020202020206F4C2023202020202020202020203741373632203B46435F434B464E203B2020202020202020203738394632,
  0x38383946322D48504152474F454449205954494C4942495441504D4F43204B4A43202020202020206F4C2023202020202020202020203542373632203B46435F434B464E203B2020202020202020203838394632,
  0x39383946322D48504152474F454449205954494C4942495441504D4F43204B4A43202020202020206F4C2023202020202020202020203339333332203B46435F434B464E203B2020202020202020203938394632,
  0x41383946322D48504152474F454449205954494C4942495441504D4F43204B4A43202020202020206F4C2023202020202020202020204339333332203B46435F434B464E203B2020202020202020204138394632,
  0x42383946322D48504152474F454449205954494C4942495441504D4F43204B4A43202020202020206F4C2023202020202020202020202031303238203B46435F434B464E203B2020202020202020204238394632,
  0x43383946322D48504152474F454449205954494C4942495441504D4F43204B4A43202020202020206F4C2023202020202020202020202034303238203B46435F434B464E203B2020202020202020204338394632,
  0x44383946322D48504152474F454449205954494C4942495441504D4F43204B4A43202020202020206F4C2023202020202020202020202045394638203B46435F434B464E203B2020202020202020204438394632,
  0x45383946322D48504152474F454449205954494C4942495441504D4F43204B4A43202020202020206F4C2023202020202020202020202042363434203B46435F434B464E203B2020202020202020204538394632,
  0x46383946322D48504152474F454449205954494C4942495441504D4F43204B4A43202020202020206F4C2023202020202020202020202031393238203B46435F434B464E203B2020202020202020204638394632,
  0x30393946322D48504152474F454449205954494C4942495441504D4F43204B4A43202020202020206F4C2023202020202020202020202042383238203B46435F434B464E203B2020202020202020203039394632,
  0x31393946322D48504152474F454449205954494C4942495441504D4F43204B4A43202020202020206F4C2023202020202020202020202044393238203B46435F434B464E203B2020202020202020203139394632,
  0x32393946322D48504152474F454449205954494C4942495441504D4F43204B4A43202020202020206F4C2023202020202020202020202033423235203B46435F434B464E203B2020202020202020203239394632,
  0x33393946322D48504152474F454449205954494C4942495441504D4F43204B4A43202020202020206F4C2023202020202020202020202031423238203B46435F434B464E203B2020202020202020203339394632,
  0x34393946322D48504152474F454449205954494C4942495441504D4F43204B4A43202020202020206F4C2023202020202020202020202033423238203B46435F434B464E203B2020202020202020203439394632,
  0x35393946322D48504152474F454449205954494C4942495441504D4F43204B4A43202020202020206F4C2023202020202020202020202044423238203B46435F434B464E203B2020202020202020203539394632,
  0x36393946322D48504152474F454449205954494C4942495441504D4F43204B4A43202020202020206F4C2023202020202020202020202036453238203B46435F434B464E203B2020202020202020203639394632,
  0x37393946322D48504152474F454449205954494C4942495441504D4F43204B4A43202020202020206F4C2023202020202020202020204333423632203B46435F434B464E203B2020202020202020203739394632,
  0x38393946322D48504152474F454449205954494C4942495441504D4F43204B4A43202020202020206F4C2023202020202020202020202035453238203B46435F434B464E203B2020202020202020203839394632,
  0x39393946322D48504152474F454449205954494C4942495441504D4F43204B4A43202020202020206F4C2023202020202020202020202044313338203B46435F434B464E203B2020202020202020203939394632,
  0x41393946322D48504152474F454449205954494C4942495441504D4F43204B4A43202020202020206F4C2023202020202020202020202033363338203B46435F434B464E203B2020202020202020204139394632,
  0x42393946322D48504152474F454449205954494C4942495441504D4F43204B4A43202020202020206F4C2023202020202020202020202044413338203B46435F434B464E203B2020202020202020204239394632,
  0x43393946322D48504152474F454449205954494C4942495441504D4F43204B4A43202020202020206F4C2023202020202020202020202033323338203B46435F434B464E203B2020202020202020204339394632,
  0x44393946322D48504152474F454449205954494C4942495441504D4F43204B4A43202020202020206F4C2023202020202020202020202044423338203B46435F434B464E203B2020202020202020204439394632,
  0x45393946322D48504152474F454449205954494C4942495441504D4F43204B4A43202020202020206F4C2023202020202020202020202037453338203B46435F434B464E203B2020202020202020204539394632,
  0x46393946322D48504152474F454449205954494C4942495441504D4F43204B4A43202020202020206F4C2023202020202020202020202037353438203B46435F434B464E203B2020202020202020204639394632,
  0x30413946322D48504152474F454449205954494C4942495441504D4F43204B4A43202020202020206F4C2023202020202020202020202033353338203B46435F434B464E203B2020202020202020203041394632,
  0x31413946322D48504152474F454449205954494C4942495441504D4F43204B4A43202020202020206F4C2023202020202020202020202041433338203B46435F434B464E203B2020202020202020203141394632,
  0x32413946322D48504152474F454449205954494C4942495441504D4F43204B4A43202020202020206F4C2023202020202020202020202043433338203B46435F434B464E203B2020202020202020203241394632,
  0x33413946322D48504152474F454449205954494C4942495441504D4F43204B4A43202020202020206F4C2023202020202020202020202043443338203B46435F434B464E203B2020202020202020203341394632,
  0x34413946322D48504152474F454449205954494C4942495441504D4F43204B4A43202020202020206F4C2023202020202020202020203633433632203B46435F434B464E203B2020202020202020203441394632,
  0x35413946322D48504152474F454449205954494C4942495441504D4F43204B4A43202020202020206F4C2023202020202020202020204236443632203B46435F434B464E203B2020202020202020203541394632,
  0x36413946322D48504152474F454449205954494C4942495441504D4F43204B4A43202020202020206F4C2023202020202020202020203544433632203B46435F434B464E203B2020202020202020203641394632,
  0x37413946322D48504152474F454449205954494C4942495441504D4F43204B4A43202020202020206F4C2023202020202020202020202042323534203B46435F434B464E203B2020202020202020203741394632,
  0x38413946322D48504152474F454449205954494C4942495441504D4F43204B4A43202020202020206F4C2023202020202020202020202031463438203B46435F434B464E203B2020202020202020203841394632,
  0x39413946322D48504152474F454449205954494C4942495441504D4F43204B4A43202020202020206F4C2023202020202020202020202033463438203B46435F434B464E203B2020202020202020203941394632,
  0x41413946322D48504152474F454449205954494C4942495441504D4F43204B4A43202020202020206F4C2023202020202020202020202036313538203B46435F434B464E203B2020202020202020204141394632,
  0x42413946322D48504152474F454449205954494C4942495441504D4F43204B4A43202020202020206F4C2023202020202020202020204143333732203B46435F434B464E203B2020202020202020204241394632,
  0x43413946322D48504152474F454449205954494C4942495441504D4F43204B4A43202020202020206F4C2023202020202020202020202034363538203B46435F434B464E203B2020202020202020204341394632,
  0x44413946322D48504152474F454449205954494C4942495441504D4F43204B4A43202020202020206F4C2023202020202020202020204332463632203B46435F434B464E203B2020202020202020204441394632,
  0x45413946322D48504152474F454449205954494C4942495441504D4F43204B4A43202020202020206F4C2023202020202020202020202044353534203B46435F434B464E203B2020202020202020204541394632,
  0x46413946322D48504152474F454449205954494C4942495441504D4F43204B4A43202020202020206F4C2023202020202020202020202031363534203B46435F434B464E203B2020202020202020204641394632,
  0x30423946322D48504152474F454449205954494C4942495441504D4F43204B4A43202020202020206F4C2023202020202020202020203142463632203B46435F434B464E203B2020202020202020203042394632,
  0x31423946322D48504152474F454449205954494C4942495441504D4F43204B4A43202020202020206F4C2023202020202020202020203244303732203B46435F434B464E203B2020202020202020203142394632,
  0x32423946322D48504152474F454449205954494C4942495441504D4F43204B4A43202020202020206F4C2023202020202020202020202042363534203B46435F434B464E203B2020202020202020203242394632,
  0x33423946322D48504152474F454449205954494C4942495441504D4F43204B4A43202020202020206F4C2023202020202020202020202030353638203B46435F434B464E203B2020202020202020203342394632,
  0x34423946322D48504152474F454449205954494C4942495441504D4F43204B4A43202020202020206F4C2023202020202020202020202043353638203B46435F434B464E203B2020202020202020203442394632,
  0x35423946322D48504152474F454449205954494C4942495441504D4F43204B4A43202020202020206F4C2023202020202020202020202037363638203B46435F434B464E203B2020202020202020203542394632,
  0x36423946322D48504152474F454449205954494C4942495441504D4F43204B4A43202020202020206F4C2023202020202020202020202039363638203B46435F434B464E203B2020202020202020203642394632,
  0x37423946322D48504152474F454449205954494C4942495441504D4F43204B4A43202020202020206F4C2023202020202020202020202039413638203B46435F434B464E203B2020202020202020203742394632,
  0x38423946322D48504152474F454449205954494C4942495441504D4F43204B4A43202020202020206F4C2023202020202020202020202038383638203B46435F434B464E203B2020202020202020203842394632,
  0x39423946322D48504152474F454449205954494C4942495441504D4F43204B4A43202020202020206F4C2023202020202020202020202045303738203B46435F434B464E203B2020202020202020203942394632,
  0x41423946322D48504152474F454449205954494C4942495441504D4F43204B4A43202020202020206F4C2023202020202020202020202032453638203B46435F434B464E203B2020202020202020204142394632,
  0x42423946322D48504152474F454449205954494C4942495441504D4F43204B4A43202020202020206F4C2023202020202020202020202039373738203B46435F434B464E203B2020202020202020204242394632,
  0x43423946322D48504152474F454449205954494C4942495441504D4F43204B4A43202020202020206F4C2023202020202020202020202038323738203B46435F434B464E203B2020202020202020204342394632,
  0x44423946322D48504152474F454449205954494C4942495441504D4F43204B4A43202020202020206F4C2023202020202020202020202042363738203B46435F434B464E203B2020202020202020204442394632,
  0x45423946322D48504152474F454449205954494C4942495441504D4F43204B4A43202020202020206F4C2023202020202020202020202036383738203B46435F434B464E203B2020202020202020204542394632,
  0x46423946322D48504152474F454449205954494C4942495441504D4F43204B4A43202020202020206F4C2023202020202020202020202037443534203B46435F434B464E203B2020202020202020204642394632,
  0x30433946322D48504152474F454449205954494C4942495441504D4F43204B4A43202020202020206F4C2023202020202020202020202031453738203B46435F434B464E203B2020202020202020203043394632,
  0x31433946322D48504152474F454449205954494C4942495441504D4F43204B4A43202020202020206F4C2023202020202020202020202031303838203B46435F434B464E203B2020202020202020203143394632,
  0x32433946322D48504152474F454449205954494C4942495441504D4F43204B4A43202020202020206F4C2023202020202020202020202039463534203B46435F434B464E203B2020202020202020203243394632,
  0x33433946322D48504152474F454449205954494C4942495441504D4F43204B4A43202020202020206F4C2023202020202020202020202030363838203B46435F434B464E203B2020202020202020203343394632,
  0x34433946322D48504152474F454449205954494C4942495441504D4F43204B4A43202020202020206F4C2023202020202020202020202033363838203B46435F434B464E203B2020202020202020203443394632,
  0x35433946322D48504152474F454449205954494C4942495441504D4F43204B4A43202020202020206F4C2023202020202020202020203736363732203B46435F434B464E203B2020202020202020203543394632,
  0x36433946322D48504152474F454449205954494C4942495441504D4F43204B4A43202020202020206F4C2023202020202020202020202037443838203B46435F434B464E203B2020202020202020203643394632,
  0x37433946322D48504152474F454449205954494C4942495441504D4F43204B4A43202020202020206F4C2023202020202020202020202045443838203B46435F434B464E203B2020202020202020203743394632,
  0x38433946322D48504152474F454449205954494C4942495441504D4F43204B4A43202020202020206F4C2023202020202020202020202035333634203B46435F434B464E203B2020202020202020203843394632,
  0x39433946322D48504152474F454449205954494C4942495441504D4F43204B4A43202020202020206F4C2023202020202020202020202041463838203B46435F434B464E203B2020202020202020203943394632,
  0x41433946322D48504152474F454449205954494C4942495441504D4F43204B4A43202020202020206F4C2023202020202020202020202042423433203B46435F434B464E203B2020202020202020204143394632,
  0x42433946322D48504152474F454449205954494C4942495441504D4F43204B4A43202020202020206F4C2023202020202020202020204541383732203B46435F434B464E203B2020202020202020204243394632,
  0x43433946322D48504152474F454449205954494C4942495441504D4F43204B4A43202020202020206F4C2023202020202020202020203636393732203B46435F434B464E203B2020202020202020204343394632,
  0x44433946322D48504152474F454449205954494C4942495441504D4F43204B4A43202020202020206F4C2023202020202020202020202045423634203B46435F434B464E203B2020202020202020204443394632,
  0x45433946322D48504152474F454449205954494C4942495441504D4F43204B4A43202020202020206F4C2023202020202020202020202037433634203B46435F434B464E203B2020202020202020204543394632,
  0x46433946322D48504152474F454449205954494C4942495441504D4F43204B4A43202020202020206F4C2023202020202020202020202030414138203B46435F434B464E203B2020202020202020204643394632,
  0x30443946322D48504152474F454449205954494C4942495441504D4F43204B4A43202020202020206F4C2023202020202020202020202044454138203B46435F434B464E203B2020202020202020203044394632,
  0x31443946322D48504152474F454449205954494C4942495441504D4F43204B4A43202020202020206F4C2023202020202020202020202041384238203B46435F434B464E203B2020202020202020203144394632,
  0x32443946322D48504152474F454449205954494C4942495441504D4F43204B4A43202020202020206F4C2023202020202020202020202035354338203B46435F434B464E203B2020202020202020203244394632,
  0x33443946322D48504152474F454449205954494C4942495441504D4F43204B4A43202020202020206F4C2023202020202020202020203841433732203B46435F434B464E203B2020202020202020203344394632,
  0x34443946322D48504152474F454449205954494C4942495441504D4F43204B4A43202020202020206F4C2023202020202020202020202042414338203B46435F434B464E203B2020202020202020203444394632,
  0x35443946322D48504152474F454449205954494C4942495441504D4F43204B4A43202020202020206F4C2023202020202020202020202031434338203B46435F434B464E203B2020202020202020203544394632,
  0x36443946322D48504152474F454449205954494C4942495441504D4F43204B4A43202020202020206F4C2023202020202020202020202042314438203B46435F434B464E203B2020202020202020203644394632]

def qcText35 : List Nat := [
  0x37443946322D48504152474F454449205954494C4942495441504D4F43204B4A43202020202020206F4C2023202020202020202020202037374438203B46435F434B464E203B2020202020202020203744394632,
  0x38443946322D48504152474F454449205954494C4942495441504D4F43204B4A43202020202020206F4C2023202020202020202020204632463732203B46435F434B464E203B2020202020202020203844394632,
  0x39443946322D48504152474F454449205954494C4942495441504D4F43204B4A43202020202020206F4C2023202020202020202020203430383032203B46435F434B464E203B2020202020202020203944394632,
  0x41443946322D48504152474F454449205954494C4942495441504D4F43204B4A43202020202020206F4C2023202020202020202020202042434438203B46435F434B464E203B2020202020202020204144394632,
  0x42443946322D48504152474F454449205954494C4942495441504D4F43204B4A43202020202020206F4C2023202020202020202020202043424438203B46435F434B464E203B2020202020202020204244394632,
  0x43443946322D48504152474F454449205954494C4942495441504D4F43204B4A43202020202020206F4C2023202020202020202020202030464438203B46435F434B464E203B2020202020202020204344394632,
  0x44443946322D48504152474F454449205954494C4942495441504D4F43204B4A43202020202020206F4C2023202020202020202020204544383032203B46435F434B464E203B2020202020202020204444394632,
  0x45443946322D48504152474F454449205954494C4942495441504D4F43204B4A43202020202020206F4C2023202020202020202020202034444538203B46435F434B464E203B2020202020202020204544394632,
  0x46443946322D48504152474F454449205954494C4942495441504D4F43204B4A43202020202020206F4C2023202020202020202020202038334638203B46435F434B464E203B2020202020202020204644394632,
  0x30453946322D48504152474F454449205954494C4942495441504D4F43204B4A43202020202020206F4C2023202020202020202020203244353832203B46435F434B464E203B2020202020202020203045394632,
  0x31453946322D48504152474F454449205954494C4942495441504D4F43204B4A43202020202020206F4C2023202020202020202020204445353832203B46435F434B464E203B2020202020202020203145394632,
  0x32453946322D48504152474F454449205954494C4942495441504D4F43204B4A43202020202020206F4C2023202020202020202020202034393039203B46435F434B464E203B2020202020202020203245394632,
  0x33453946322D48504152474F454449205954494C4942495441504D4F43204B4A43202020202020206F4C2023202020202020202020202031463039203B46435F434B464E203B2020202020202020203345394632,
  0x34453946322D48504152474F454449205954494C4942495441504D4F43204B4A43202020202020206F4C2023202020202020202020202031313139203B46435F434B464E203B2020202020202020203445394632,
  0x35453946322D48504152474F454449205954494C4942495441504D4F43204B4A43202020202020206F4C2023202020202020202020204532373832203B46435F434B464E203B2020202020202020203545394632,
  0x36453946322D48504152474F454449205954494C4942495441504D4F43204B4A43202020202020206F4C2023202020202020202020202042313139203B46435F434B464E203B2020202020202020203645394632,
  0x37453946322D48504152474F454449205954494C4942495441504D4F43204B4A43202020202020206F4C2023202020202020202020202038333239203B46435F434B464E203B2020202020202020203745394632,
  0x38453946322D48504152474F454449205954494C4942495441504D4F43204B4A43202020202020206F4C2023202020202020202020202037443239203B46435F434B464E203B2020202020202020203845394632,
  0x39453946322D48504152474F454449205954494C4942495441504D4F43204B4A43202020202020206F4C2023202020202020202020202038443239203B46435F434B464E203B2020202020202020203945394632,
  0x41453946322D48504152474F454449205954494C4942495441504D4F43204B4A43202020202020206F4C2023202020202020202020202043373239203B46435F434B464E203B2020202020202020204145394632,
  0x42453946322D48504152474F454449205954494C4942495441504D4F43204B4A43202020202020206F4C2023202020202020202020202039463339203B46435F434B464E203B2020202020202020204245394632,
  0x43453946322D48504152474F454449205954494C4942495441504D4F43204B4A43202020202020206F4C2023202020202020202020202035313439203B46435F434B464E203B2020202020202020204345394632,
  0x44453946322D48504152474F454449205954494C4942495441504D4F43204B4A43202020202020206F4C2023202020202020202020204146423832203B46435F434B464E203B2020202020202020204445394632,
  0x45453946322D48504152474F454449205954494C4942495441504D4F43204B4A43202020202020206F4C2023202020202020202020202042383539203B46435F434B464E203B2020202020202020204545394632,
  0x46453946322D48504152474F454449205954494C4942495441504D4F43204B4A43202020202020206F4C2023202020202020202020202035393934203B46435F434B464E203B2020202020202020204645394632,
  0x30463946322D48504152474F454449205954494C4942495441504D4F43204B4A43202020202020206F4C2023202020202020202020202037423539203B46435F434B464E203B2020202020202020203046394632,
  0x31463946322D48504152474F454449205954494C4942495441504D4F43204B4A43202020202020206F4C2023202020202020202020203737443832203B46435F434B464E203B2020202020202020203146394632,
  0x32463946322D48504152474F454449205954494C4942495441504D4F43204B4A43202020202020206F4C2023202020202020202020202036453934203B46435F434B464E203B2020202020202020203246394632,
  0x33463946322D48504152474F454449205954494C4942495441504D4F43204B4A43202020202020206F4C2023202020202020202020202033433639203B46435F434B464E203B2020202020202020203346394632,
  0x34463946322D48504152474F454449205954494C4942495441504D4F43204B4A43202020202020206F4C2023202020202020202020202032424435203B46435F434B464E203B2020202020202020203446394632,
  0x35463946322D48504152474F454449205954494C4942495441504D4F43204B4A43202020202020206F4C2023202020202020202020202033323739203B46435F434B464E203B2020202020202020203546394632,
  0x36463946322D48504152474F454449205954494C4942495441504D4F43204B4A43202020202020206F4C2023202020202020202020203534313932203B46435F434B464E203B2020202020202020203646394632,
  0x37463946322D48504152474F454449205954494C4942495441504D4F43204B4A43202020202020206F4C2023202020202020202020204131323932203B46435F434B464E203B2020202020202020203746394632,
  0x38463946322D48504152474F454449205954494C4942495441504D4F43204B4A43202020202020206F4C2023202020202020202020202045364134203B46435F434B464E203B2020202020202020203846394632,
  0x39463946322D48504152474F454449205954494C4942495441504D4F43204B4A43202020202020206F4C2023202020202020202020202036374134203B46435F434B464E203B2020202020202020203946394632,
  0x41463946322D48504152474F454449205954494C4942495441504D4F43204B4A43202020202020206F4C2023202020202020202020202030453739203B46435F434B464E203B2020202020202020204146394632,
  0x42463946322D48504152474F454449205954494C4942495441504D4F43204B4A43202020202020206F4C2023202020202020202020204130343932203B46435F434B464E203B2020202020202020204246394632,
  0x43463946322D48504152474F454449205954494C4942495441504D4F43204B4A43202020202020206F4C2023202020202020202020202032424134203B46435F434B464E203B2020202020202020204346394632,
  0x44463946322D48504152474F454449205954494C4942495441504D4F43204B4A43202020202020206F4C2023202020202020202020203639343932203B46435F434B464E203B2020202020202020204446394632,
  0x46463946322D48504152474F454449205954494C4942495441504D4F43204B4A432E2E45463946322D48504152474F454449205954494C4942495441504D4F43204B4A43205D325B2020206F4C2023202020202020202020202042303839203B46435F434B464E203B202046463946322E2E4546394632,
  0x30304146322D48504152474F454449205954494C4942495441504D4F43204B4A43202020202020206F4C2023202020202020202020202039323839203B46435F434B464E203B2020202020202020203030414632,
  0x31304146322D48504152474F454449205954494C4942495441504D4F43204B4A43202020202020206F4C2023202020202020202020203642353932203B46435F434B464E203B2020202020202020203130414632,
  0x32304146322D48504152474F454449205954494C4942495441504D4F43204B4A43202020202020206F4C2023202020202020202020202032453839203B46435F434B464E203B2020202020202020203230414632,
  0x33304146322D48504152474F454449205954494C4942495441504D4F43204B4A43202020202020206F4C2023202020202020202020202033334234203B46435F434B464E203B2020202020202020203330414632,
  0x34304146322D48504152474F454449205954494C4942495441504D4F43204B4A43202020202020206F4C2023202020202020202020202039323939203B46435F434B464E203B2020202020202020203430414632,
  0x35304146322D48504152474F454449205954494C4942495441504D4F43204B4A43202020202020206F4C2023202020202020202020202037413939203B46435F434B464E203B2020202020202020203530414632,
  0x36304146322D48504152474F454449205954494C4942495441504D4F43204B4A43202020202020206F4C2023202020202020202020202032433939203B46435F434B464E203B2020202020202020203630414632,
  0x37304146322D48504152474F454449205954494C4942495441504D4F43204B4A43202020202020206F4C2023202020202020202020202045463939203B46435F434B464E203B2020202020202020203730414632,
  0x38304146322D48504152474F454449205954494C4942495441504D4F43204B4A43202020202020206F4C2023202020202020202020202045434234203B46435F434B464E203B2020202020202020203830414632,
  0x39304146322D48504152474F454449205954494C4942495441504D4F43204B4A43202020202020206F4C2023202020202020202020203033423932203B46435F434B464E203B2020202020202020203930414632,
  0x41304146322D48504152474F454449205954494C4942495441504D4F43204B4A43202020202020206F4C2023202020202020202020202032314239203B46435F434B464E203B2020202020202020204130414632,
  0x42304146322D48504152474F454449205954494C4942495441504D4F43204B4A43202020202020206F4C2023202020202020202020202030344339203B46435F434B464E203B2020202020202020204230414632,
  0x43304146322D48504152474F454449205954494C4942495441504D4F43204B4A43202020202020206F4C2023202020202020202020202044464339203B46435F434B464E203B2020202020202020204330414632,
  0x44304146322D48504152474F454449205954494C4942495441504D4F43204B4A43202020202020206F4C2023202020202020202020202045434334203B46435F434B464E203B2020202020202020204430414632,
  0x45304146322D48504152474F454449205954494C4942495441504D4F43204B4A43202020202020206F4C2023202020202020202020202044454334203B46435F434B464E203B2020202020202020204530414632,
  0x46304146322D48504152474F454449205954494C4942495441504D4F43204B4A43202020202020206F4C2023202020202020202020202037364439203B46435F434B464E203B2020202020202020204630414632,
  0x30314146322D48504152474F454449205954494C4942495441504D4F43204B4A43202020202020206F4C2023202020202020202020204543304132203B46435F434B464E203B2020202020202020203031414632,
  0x31314146322D48504152474F454449205954494C4942495441504D4F43204B4A43202020202020206F4C2023202020202020202020202038464334203B46435F434B464E203B2020202020202020203131414632,
  0x32314146322D48504152474F454449205954494C4942495441504D4F43204B4A43202020202020206F4C2023202020202020202020203530314132203B46435F434B464E203B2020202020202020203231414632,
  0x33314146322D48504152474F454449205954494C4942495441504D4F43204B4A43202020202020206F4C2023202020202020202020204530324132203B46435F434B464E203B2020202020202020203331414632,
  0x34314146322D48504152474F454449205954494C4942495441504D4F43204B4A43202020202020206F4C2023202020202020202020203139324132203B46435F434B464E203B2020202020202020203431414632,
  0x35314146322D48504152474F454449205954494C4942495441504D4F43204B4A43202020202020206F4C2023202020202020202020202042424539203B46435F434B464E203B2020202020202020203531414632,
  0x36314146322D48504152474F454449205954494C4942495441504D4F43204B4A43202020202020206F4C2023202020202020202020202036354434203B46435F434B464E203B2020202020202020203631414632,
  0x37314146322D48504152474F454449205954494C4942495441504D4F43204B4A43202020202020206F4C2023202020202020202020202039464539203B46435F434B464E203B2020202020202020203731414632,
  0x38314146322D48504152474F454449205954494C4942495441504D4F43204B4A43202020202020206F4C2023202020202020202020202045464539203B46435F434B464E203B2020202020202020203831414632,
  0x39314146322D48504152474F454449205954494C4942495441504D4F43204B4A43202020202020206F4C2023202020202020202020202035304639203B46435F434B464E203B2020202020202020203931414632,
  0x41314146322D48504152474F454449205954494C4942495441504D4F43204B4A43202020202020206F4C2023202020202020202020202046304639203B46435F434B464E203B2020202020202020204131414632,
  0x42314146322D48504152474F454449205954494C4942495441504D4F43204B4A43202020202020206F4C2023202020202020202020202036314639203B46435F434B464E203B2020202020202020204231414632,
  0x43314146322D48504152474F454449205954494C4942495441504D4F43204B4A43202020202020206F4C2023202020202020202020202042334639203B46435F434B464E203B2020202020202020204331414632,
  0x44314146322D48504152474F454449205954494C4942495441504D4F43204B4A43202020202020206F4C2023202020202020202020203030364132203B46435F434B464E203B2020202020202020204431414632,
  0x3E30303030452D64657672657365723C202020202020206E432023202020202020202020202020202020203B46435F434B464E203B2020202020202020203030303045,
  0x4741542045474155474E414C2020202020202066432023202020202020202020202020202020203B46435F434B464E203B2020202020202020203130303045,
  0x3E46313030452D64657672657365723C2E2E3E32303030452D64657672657365723C205D30335B20206E432023202020202020202020202020202020203B46435F434B464E203B202046313030452E2E3230303045,
  0x474154204C45434E41432E2E454341505320474154205D36395B202066432023202020202020202020202020202020203B46435F434B464E203B202046373030452E2E3032303045,
  0x3E46463030452D64657672657365723C2E2E3E30383030452D64657672657365723C205D3832315B206E432023202020202020202020202020202020203B46435F434B464E203B202046463030452E2E3038303045,
  0x3635322D524F5443454C4553204E4F495441495241562E2E37312D524F5443454C4553204E4F49544149524156205D3034325B206E4D2023202020202020202020202020202020203B46435F434B464E203B202046453130452E2E3030313045,
  0x3E46464630452D64657672657365723C2E2E3E30463130452D64657672657365723C205D303036335B206E432023202020202020202020202020202020203B46435F434B464E203B202046464630452E2E3046313045,
  0x0,
  0x3932333031203A73746E696F702065646F63206C61746F542023,
  0x0,
  0x3D3D3D3D3D3D3D3D3D3D3D3D3D3D3D3D3D3D3D3D3D3D3D3D3D3D3D3D3D3D3D3D3D3D3D3D3D3D3D3D3D3D3D3D3D3D3D3D2023,
  0x0,
  0x2946434B574328206465646C6F66657361435F434B464E5F6E6568575F7365676E6168432020203A79747265706F725020646576697265442023,
  0x2E676E697070616D20646C6F66657361435F434B464E206E61207265646E7520656C6261747320746F6E2065726120746168742073726574636172616843202023,
  0x29706328646C6F66657361435F434B464E203D212070632079622064656E69666564207341202023,
  0x0,
  0x5A2052455454454C204C415449504143204E4954414C2E2E412052455454454C204C415449504143204E4954414C205D36325B2020264C2023206465646C6F66657361435F434B464E5F6E6568575F7365676E616843203B20202020413530302E2E31343030,
  0x4543415053204B414552422D4F4E20202020202020735A2023206465646C6F66657361435F434B464E5F6E6568575F7365676E616843203B2020202020202020202030413030,
  0x534953455245414944202020202020206B532023206465646C6F66657361435F434B464E5F6E6568575F7365676E616843203B2020202020202020202038413030,
  0x524F54414349444E49204C414E4944524F20454E494E494D4546202020202020206F4C2023206465646C6F66657361435F434B464E5F6E6568575F7365676E616843203B2020202020202020202041413030,
  0x4E45485059482054464F532020202020202066432023206465646C6F66657361435F434B464E5F6E6568575F7365676E616843203B2020202020202020202044413030,
  0x4E4F5243414D202020202020206B532023206465646C6F66657361435F434B464E5F6E6568575F7365676E616843203B2020202020202020202046413030,
  0x45455248542054504952435352455055532E2E4F5754205450495243535245505553205D325B2020206F4E2023206465646C6F66657361435F434B464E5F6E6568575F7365676E616843203B20202020334230302E2E32423030,
  0x544E45434341204554554341202020202020206B532023206465646C6F66657361435F434B464E5F6E6568575F7365676E616843203B2020202020202020202034423030,
  0x4E474953204F5243494D20202020202020264C2023206465646C6F66657361435F434B464E5F6E6568575F7365676E616843203B2020202020202020202035423030,
  0x414C4C49444543202020202020206B532023206465646C6F66657361435F434B464E5F6E6568575F7365676E616843203B2020202020202020202038423030,
  0x454E4F205450495243535245505553202020202020206F4E2023206465646C6F66657361435F434B464E5F6E6568575F7365676E616843203B2020202020202020202039423030,
  0x524F54414349444E49204C414E4944524F20454E494C554353414D202020202020206F4C2023206465646C6F66657361435F434B464E5F6E6568575F7365676E616843203B2020202020202020202041423030,
  0x5352455452415551204545524854204E4F495443415246205241474C55562E2E5245545241555120454E4F204E4F495443415246205241474C5556205D335B2020206F4E2023206465646C6F66657361435F434B464E5F6E6568575F7365676E616843203B20202020454230302E2E43423030,
  0x5349534552454149442048544957204F2052455454454C204C415449504143204E4954414C2E2E4556415247204854495720412052455454454C204C415449504143204E4954414C205D33325B2020264C2023206465646C6F66657361435F434B464E5F6E6568575F7365676E616843203B20202020364430302E2E30433030,
  0x532050524148532052455454454C204C4C414D53204E4954414C2E2E454B4F5254532048544957204F2052455454454C204C415449504143204E4954414C205D385B202020264C2023206465646C6F66657361435F434B464E5F6E6568575F7365676E616843203B20202020464430302E2E38443030,
  0x4E4F5243414D204854495720412052455454454C204C415449504143204E4954414C20202020202020264C2023206465646C6F66657361435F434B464E5F6E6568575F7365676E616843203B2020202020202020202030303130,
  0x4556455242204854495720412052455454454C204C415449504143204E4954414C20202020202020264C2023206465646C6F66657361435F434B464E5F6E6568575F7365676E616843203B2020202020202020202032303130,
  0x4B454E4F474F204854495720412052455454454C204C415449504143204E4954414C20202020202020264C2023206465646C6F66657361435F434B464E5F6E6568575F7365676E616843203B2020202020202020202034303130,
  0x4554554341204854495720432052455454454C204C415449504143204E4954414C20202020202020264C2023206465646C6F66657361435F434B464E5F6E6568575F7365676E616843203B2020202020202020202036303130,
  0x58454C464D5543524943204854495720432052455454454C204C415449504143204E4954414C20202020202020264C2023206465646C6F66657361435F434B464E5F6E6568575F7365676E616843203B2020202020202020202038303130,
  0x45564F424120544F44204854495720432052455454454C204C415449504143204E4954414C20202020202020264C2023206465646C6F66657361435F434B464E5F6E6568575F7365676E616843203B2020202020202020202041303130,
  0x4E4F524143204854495720432052455454454C204C415449504143204E4954414C20202020202020264C2023206465646C6F66657361435F434B464E5F6E6568575F7365676E616843203B2020202020202020202043303130,
  0x4E4F524143204854495720442052455454454C204C415449504143204E4954414C20202020202020264C2023206465646C6F66657361435F434B464E5F6E6568575F7365676E616843203B2020202020202020202045303130,
  0x454B4F525453204854495720442052455454454C204C415449504143204E4954414C20202020202020264C2023206465646C6F66657361435F434B464E5F6E6568575F7365676E616843203B2020202020202020202030313130,
  0x4E4F5243414D204854495720452052455454454C204C415449504143204E4954414C20202020202020264C2023206465646C6F66657361435F434B464E5F6E6568575F7365676E616843203B2020202020202020202032313130,
  0x4556455242204854495720452052455454454C204C415449504143204E4954414C20202020202020264C2023206465646C6F66657361435F434B464E5F6E6568575F7365676E616843203B2020202020202020202034313130,
  0x45564F424120544F44204854495720452052455454454C204C415449504143204E4954414C20202020202020264C2023206465646C6F66657361435F434B464E5F6E6568575F7365676E616843203B2020202020202020202036313130,
  0x4B454E4F474F204854495720452052455454454C204C415449504143204E4954414C20202020202020264C2023206465646C6F66657361435F434B464E5F6E6568575F7365676E616843203B2020202020202020202038313130,
  0x4E4F524143204854495720452052455454454C204C415449504143204E4954414C20202020202020264C2023206465646C6F66657361435F434B464E5F6E6568575F7365676E616843203B2020202020202020202041313130,
  0x58454C464D5543524943204854495720472052455454454C204C415449504143204E4954414C20202020202020264C2023206465646C6F66657361435F434B464E5F6E6568575F7365676E616843203B2020202020202020202043313130,
  0x4556455242204854495720472052455454454C204C415449504143204E4954414C20202020202020264C2023206465646C6F66657361435F434B464E5F6E6568575F7365676E616843203B2020202020202020202045313130,
  0x45564F424120544F44204854495720472052455454454C204C415449504143204E4954414C20202020202020264C2023206465646C6F66657361435F434B464E5F6E6568575F7365676E616843203B2020202020202020202030323130,
  0x414C4C49444543204854495720472052455454454C204C415449504143204E4954414C20202020202020264C2023206465646C6F66657361435F434B464E5F6E6568575F7365676E616843203B2020202020202020202032323130,
  0x58454C464D5543524943204854495720482052455454454C204C415449504143204E4954414C20202020202020264C2023206465646C6F66657361435F434B464E5F6E6568575F7365676E616843203B2020202020202020202034323130,
  0x454B4F525453204854495720482052455454454C204C415449504143204E4954414C20202020202020264C2023206465646C6F66657361435F434B464E5F6E6568575F7365676E616843203B2020202020202020202036323130,
  0x45444C4954204854495720492052455454454C204C415449504143204E4954414C20202020202020264C2023206465646C6F66657361435F434B464E5F6E6568575F7365676E616843203B2020202020202020202038323130,
  0x4E4F5243414D204854495720492052455454454C204C415449504143204E4954414C20202020202020264C2023206465646C6F66657361435F434B464E5F6E6568575F7365676E616843203B2020202020202020202041323130,
  0x4556455242204854495720492052455454454C204C415449504143204E4954414C20202020202020264C2023206465646C6F66657361435F434B464E5F6E6568575F7365676E616843203B2020202020202020202043323130,
  0x4B454E4F474F204854495720492052455454454C204C415449504143204E4954414C20202020202020264C2023206465646C6F66657361435F434B464E5F6E6568575F7365676E616843203B2020202020202020202045323130,
  0x45564F424120544F44204854495720492052455454454C204C415449504143204E4954414C20202020202020264C2023206465646C6F66657361435F434B464E5F6E6568575F7365676E616843203B2020202020202020202030333130,
  0x58454C464D55435249432048544957204A2052455454454C204C415449504143204E4954414C2E2E4A4920455255544147494C204C415449504143204E4954414C205D335B202020264C2023206465646C6F66657361435F434B464E5F6E6568575F7365676E616843203B20202020343331302E2E32333130,
  0x414C4C494445432048544957204B2052455454454C204C415449504143204E4954414C20202020202020264C2023206465646C6F66657361435F434B464E5F6E6568575F7365676E616843203B2020202020202020202036333130,
  0x45545543412048544957204C2052455454454C204C415449504143204E4954414C20202020202020264C2023206465646C6F66657361435F434B464E5F6E6568575F7365676E616843203B2020202020202020202039333130,
  0x414C4C494445432048544957204C2052455454454C204C415449504143204E4954414C20202020202020264C2023206465646C6F66657361435F434B464E5F6E6568575F7365676E616843203B2020202020202020202042333130,
  0x4E4F5241432048544957204C2052455454454C204C415449504143204E4954414C20202020202020264C2023206465646C6F66657361435F434B464E5F6E6568575F7365676E616843203B2020202020202020202044333130,
  0x454B4F5254532048544957204C2052455454454C204C415449504143204E4954414C2E2E544F4420454C4444494D2048544957204C2052455454454C204C415449504143204E4954414C205D335B202020264C2023206465646C6F66657361435F434B464E5F6E6568575F7365676E616843203B20202020313431302E2E46333130,
  0x45545543412048544957204E2052455454454C204C415449504143204E4954414C20202020202020264C2023206465646C6F66657361435F434B464E5F6E6568575F7365676E616843203B2020202020202020202033343130,
  0x414C4C494445432048544957204E2052455454454C204C415449504143204E4954414C20202020202020264C2023206465646C6F66657361435F434B464E5F6E6568575F7365676E616843203B2020202020202020202035343130,
  0x4E4F5241432048544957204E2052455454454C204C415449504143204E4954414C20202020202020264C2023206465646C6F66657361435F434B464E5F6E6568575F7365676E616843203B2020202020202020202037343130,
  0x474E452052455454454C204C415449504143204E4954414C2E2E4548504F5254534F5041205942204445444543455250204E2052455454454C204C4C414D53204E4954414C205D325B202020264C2023206465646C6F66657361435F434B464E5F6E6568575F7365676E616843203B20202020413431302E2E39343130,
  0x4E4F5243414D2048544957204F2052455454454C204C415449504143204E4954414C20202020202020264C2023206465646C6F66657361435F434B464E5F6E6568575F7365676E616843203B2020202020202020202043343130,
  0x45564552422048544957204F2052455454454C204C415449504143204E4954414C20202020202020264C2023206465646C6F66657361435F434B464E5F6E6568575F7365676E616843203B2020202020202020202045343130,
  0x455455434120454C42554F442048544957204F2052455454454C204C415449504143204E4954414C20202020202020264C2023206465646C6F66657361435F434B464E5F6E6568575F7365676E616843203B2020202020202020202030353130,
  0x454F20455255544147494C204C415449504143204E4954414C20202020202020264C2023206465646C6F66657361435F434B464E5F6E6568575F7365676E616843203B2020202020202020202032353130,
  0x4554554341204854495720522052455454454C204C415449504143204E4954414C20202020202020264C2023206465646C6F66657361435F434B464E5F6E6568575F7365676E616843203B2020202020202020202034353130,
  0x414C4C49444543204854495720522052455454454C204C415449504143204E4954414C20202020202020264C2023206465646C6F66657361435F434B464E5F6E6568575F7365676E616843203B2020202020202020202036353130,
  0x4E4F524143204854495720522052455454454C204C415449504143204E4954414C20202020202020264C2023206465646C6F66657361435F434B464E5F6E6568575F7365676E616843203B2020202020202020202038353130,
  0x4554554341204854495720532052455454454C204C415449504143204E4954414C20202020202020264C2023206465646C6F66657361435F434B464E5F6E6568575F7365676E616843203B2020202020202020202041353130,
  0x58454C464D5543524943204854495720532052455454454C204C415449504143204E4954414C20202020202020264C2023206465646C6F66657361435F434B464E5F6E6568575F7365676E616843203B2020202020202020202043353130,
  0x414C4C49444543204854495720532052455454454C204C415449504143204E4954414C20202020202020264C2023206465646C6F66657361435F434B464E5F6E6568575F7365676E616843203B2020202020202020202045353130,
  0x4E4F524143204854495720532052455454454C204C415449504143204E4954414C20202020202020264C2023206465646C6F66657361435F434B464E5F6E6568575F7365676E616843203B2020202020202020202030363130,
  0x414C4C49444543204854495720542052455454454C204C415449504143204E4954414C20202020202020264C2023206465646C6F66657361435F434B464E5F6E6568575F7365676E616843203B2020202020202020202032363130,
  0x4E4F524143204854495720542052455454454C204C415449504143204E4954414C20202020202020264C2023206465646C6F66657361435F434B464E5F6E6568575F7365676E616843203B2020202020202020202034363130,
  0x454B4F525453204854495720542052455454454C204C415449504143204E4954414C20202020202020264C2023206465646C6F66657361435F434B464E5F6E6568575F7365676E616843203B2020202020202020202036363130,
  0x45444C4954204854495720552052455454454C204C415449504143204E4954414C20202020202020264C2023206465646C6F66657361435F434B464E5F6E6568575F7365676E616843203B2020202020202020202038363130,
  0x4E4F5243414D204854495720552052455454454C204C415449504143204E4954414C20202020202020264C2023206465646C6F66657361435F434B464E5F6E6568575F7365676E616843203B2020202020202020202041363130,
  0x4556455242204854495720552052455454454C204C415449504143204E4954414C20202020202020264C2023206465646C6F66657361435F434B464E5F6E6568575F7365676E616843203B2020202020202020202043363130,
  0x45564F424120474E4952204854495720552052455454454C204C415449504143204E4954414C20202020202020264C2023206465646C6F66657361435F434B464E5F6E6568575F7365676E616843203B2020202020202020202045363130,
  0x455455434120454C42554F44204854495720552052455454454C204C415449504143204E4954414C20202020202020264C2023206465646C6F66657361435F434B464E5F6E6568575F7365676E616843203B2020202020202020202030373130,
  0x4B454E4F474F204854495720552052455454454C204C415449504143204E4954414C20202020202020264C2023206465646C6F66657361435F434B464E5F6E6568575F7365676E616843203B2020202020202020202032373130,
  0x58454C464D5543524943204854495720572052455454454C204C415449504143204E4954414C20202020202020264C2023206465646C6F66657361435F434B464E5F6E6568575F7365676E616843203B2020202020202020202034373130,
  0x58454C464D5543524943204854495720592052455454454C204C415449504143204E4954414C20202020202020264C2023206465646C6F66657361435F434B464E5F6E6568575F7365676E616843203B2020202020202020202036373130,
  0x45545543412048544957205A2052455454454C204C415449504143204E4954414C2E2E534953455245414944204854495720592052455454454C204C415449504143204E4954414C205D325B202020264C2023206465646C6F66657361435F434B464E5F6E6568575F7365676E616843203B20202020393731302E2E38373130,
  0x45564F424120544F442048544957205A2052455454454C204C415449504143204E4954414C20202020202020264C2023206465646C6F66657361435F434B464E5F6E6568575F7365676E616843203B2020202020202020202042373130,
  0x4E4F5241432048544957205A2052455454454C204C415449504143204E4954414C20202020202020264C2023206465646C6F66657361435F434B464E5F6E6568575F7365676E616843203B2020202020202020202044373130,
  0x5320474E4F4C2052455454454C204C4C414D53204E4954414C20202020202020264C2023206465646C6F66657361435F434B464E5F6E6568575F7365676E616843203B2020202020202020202046373130,
  0x524142504F54204854495720422052455454454C204C415449504143204E4954414C2E2E4B4F4F48204854495720422052455454454C204C415449504143204E4954414C205D325B202020264C2023206465646C6F66657361435F434B464E5F6E6568575F7365676E616843203B20202020323831302E2E31383130,
  0x58495320454E4F542052455454454C204C415449504143204E4954414C20202020202020264C2023206465646C6F66657361435F434B464E5F6E6568575F7365676E616843203B2020202020202020202034383130,
  0x4B4F4F48204854495720432052455454454C204C415449504143204E4954414C2E2E4F204E45504F2052455454454C204C415449504143204E4954414C205D325B202020264C2023206465646C6F66657361435F434B464E5F6E6568575F7365676E616843203B20202020373831302E2E36383130,
  0x524142504F54204854495720442052455454454C204C415449504143204E4954414C2E2E44204E4143495246412052455454454C204C415449504143204E4954414C205D335B202020264C2023206465646C6F66657361435F434B464E5F6E6568575F7365676E616843203B20202020423831302E2E39383130,
  0x4B4F4F48204854495720462052455454454C204C415449504143204E4954414C2E2E452044455352455645522052455454454C204C415449504143204E4954414C205D345B202020264C2023206465646C6F66657361435F434B464E5F6E6568575F7365676E616843203B20202020313931302E2E45383130,
  0x414D4D41472052455454454C204C415449504143204E4954414C2E2E4B4F4F48204854495720472052455454454C204C415449504143204E4954414C205D325B202020264C2023206465646C6F66657361435F434B464E5F6E6568575F7365676E616843203B20202020343931302E2E33393130,
  0x4B4F4F482048544957204B2052455454454C204C415449504143204E4954414C2E2E41544F492052455454454C204C415449504143204E4954414C205D335B202020264C2023206465646C6F66657361435F434B464E5F6E6568575F7365676E616843203B20202020383931302E2E36393130,
  0x4B4F4F48205446454C2048544957204E2052455454454C204C415449504143204E4954414C2E2E4D2044454E5255542052455454454C204C415449504143204E4954414C205D325B202020264C2023206465646C6F66657361435F434B464E5F6E6568575F7365676E616843203B20202020443931302E2E43393130,
  0x4E524F482048544957204F2052455454454C204C415449504143204E4954414C2E2E45444C495420454C4444494D2048544957204F2052455454454C204C415449504143204E4954414C205D325B202020264C2023206465646C6F66657361435F434B464E5F6E6568575F7365676E616843203B20202020304131302E2E46393130,
  0x494F2052455454454C204C415449504143204E4954414C20202020202020264C2023206465646C6F66657361435F434B464E5F6E6568575F7365676E616843203B2020202020202020202032413130,
  0x4B4F4F48204854495720502052455454454C204C415449504143204E4954414C20202020202020264C2023206465646C6F66657361435F434B464E5F6E6568575F7365676E616843203B2020202020202020202034413130,
  0x4F575420454E4F542052455454454C204C415449504143204E4954414C2E2E52592052455454454C204E4954414C205D325B202020264C2023206465646C6F66657361435F434B464E5F6E6568575F7365676E616843203B20202020374131302E2E36413130,
  0x4853452052455454454C204C415449504143204E4954414C20202020202020264C2023206465646C6F66657361435F434B464E5F6E6568575F7365676E616843203B2020202020202020202039413130,
  0x4B4F4F48204854495720542052455454454C204C415449504143204E4954414C20202020202020264C2023206465646C6F66657361435F434B464E5F6E6568575F7365676E616843203B2020202020202020202043413130,
  0x4E524F48204854495720552052455454454C204C415449504143204E4954414C2E2E4B4F4F482058454C464F52544552204854495720542052455454454C204C415449504143204E4954414C205D325B202020264C2023206465646C6F66657361435F434B464E5F6E6568575F7365676E616843203B20202020464131302E2E45413130,
  0x4B4F4F48204854495720592052455454454C204C415449504143204E4954414C2E2E4E4F4C495350552052455454454C204C415449504143204E4954414C205D335B202020264C2023206465646C6F66657361435F434B464E5F6E6568575F7365676E616843203B20202020334231302E2E31423130,
  0x454B4F5254532048544957205A2052455454454C204C415449504143204E4954414C20202020202020264C2023206465646C6F66657361435F434B464E5F6E6568575F7365676E616843203B2020202020202020202035423130,
  0x444553524556455220485A452052455454454C204C415449504143204E4954414C2E2E485A452052455454454C204C415449504143204E4954414C205D325B202020264C2023206465646C6F66657361435F434B464E5F6E6568575F7365676E616843203B20202020384231302E2E37423130,
  0x4556494620454E4F542052455454454C204C415449504143204E4954414C20202020202020264C2023206465646C6F66657361435F434B464E5F6E6568575F7365676E616843203B2020202020202020202043423130,
  0x4E4F524143204854495720412052455454454C204C415449504143204E4954414C2E2E4E4F5241432048544957205A442052455454454C204C415449504143204E4954414C205D30315B2020264C2023206465646C6F66657361435F434B464E5F6E6568575F7365676E616843203B20202020444331302E2E34433130,
  0x4E4F524143204854495720492052455454454C204C415449504143204E4954414C20202020202020264C2023206465646C6F66657361435F434B464E5F6E6568575F7365676E616843203B2020202020202020202046433130,
  0x4E4F5241432048544957204F2052455454454C204C415449504143204E4954414C20202020202020264C2023206465646C6F66657361435F434B464E5F6E6568575F7365676E616843203B2020202020202020202031443130,
  0x4E4F524143204854495720552052455454454C204C415449504143204E4954414C20202020202020264C2023206465646C6F66657361435F434B464E5F6E6568575F7365676E616843203B2020202020202020202033443130,
  0x4E4F5243414D20444E4120534953455245414944204854495720552052455454454C204C415449504143204E4954414C20202020202020264C2023206465646C6F66657361435F434B464E5F6E6568575F7365676E616843203B2020202020202020202035443130,
  0x455455434120444E4120534953455245414944204854495720552052455454454C204C415449504143204E4954414C20202020202020264C2023206465646C6F66657361435F434B464E5F6E6568575F7365676E616843203B2020202020202020202037443130,
  0x4E4F52414320444E4120534953455245414944204854495720552052455454454C204C415449504143204E4954414C20202020202020264C2023206465646C6F66657361435F434B464E5F6E6568575F7365676E616843203B2020202020202020202039443130,
  0x455641524720444E4120534953455245414944204854495720552052455454454C204C415449504143204E4954414C20202020202020264C2023206465646C6F66657361435F434B464E5F6E6568575F7365676E616843203B2020202020202020202042443130,
  0x4E4F5243414D20444E4120534953455245414944204854495720412052455454454C204C415449504143204E4954414C20202020202020264C2023206465646C6F66657361435F434B464E5F6E6568575F7365676E616843203B2020202020202020202045443130,
  0x4E4F5243414D20444E412045564F424120544F44204854495720412052455454454C204C415449504143204E4954414C20202020202020264C2023206465646C6F66657361435F434B464E5F6E6568575F7365676E616843203B2020202020202020202030453130,
  0x4E4F5243414D20485449572045412052455454454C204C415449504143204E4954414C20202020202020264C2023206465646C6F66657361435F434B464E5F6E6568575F7365676E616843203B2020202020202020202032453130,
  0x454B4F525453204854495720472052455454454C204C415449504143204E4954414C20202020202020264C2023206465646C6F66657361435F434B464E5F6E6568575F7365676E616843203B2020202020202020202034453130,
  0x4E4F524143204854495720472052455454454C204C415449504143204E4954414C20202020202020264C2023206465646C6F66657361435F434B464E5F6E6568575F7365676E616843203B2020202020202020202036453130,
  0x4E4F5241432048544957204B2052455454454C204C415449504143204E4954414C20202020202020264C2023206465646C6F66657361435F434B464E5F6E6568575F7365676E616843203B2020202020202020202038453130,
  0x4B454E4F474F2048544957204F2052455454454C204C415449504143204E4954414C20202020202020264C2023206465646C6F66657361435F434B464E5F6E6568575F7365676E616843203B2020202020202020202041453130,
  0x4E4F5243414D20444E41204B454E4F474F2048544957204F2052455454454C204C415449504143204E4954414C20202020202020264C2023206465646C6F66657361435F434B464E5F6E6568575F7365676E616843203B2020202020202020202043453130,
  0x4E4F524143204854495720485A452052455454454C204C415449504143204E4954414C20202020202020264C2023206465646C6F66657361435F434B464E5F6E6568575F7365676E616843203B2020202020202020202045453130,
  0x4554554341204854495720472052455454454C204C415449504143204E4954414C2E2E5A442052455454454C204C415449504143204E4954414C205D345B202020264C2023206465646C6F66657361435F434B464E5F6E6568575F7365676E616843203B20202020344631302E2E31463130,
  0x45564152472048544957204E2052455454454C204C415449504143204E4954414C2E2E52494157482052455454454C204C415449504143204E4954414C205D335B202020264C2023206465646C6F66657361435F434B464E5F6E6568575F7365676E616843203B20202020384631302E2E36463130,
  0x455455434120444E412045564F424120474E4952204854495720412052455454454C204C415449504143204E4954414C20202020202020264C2023206465646C6F66657361435F434B464E5F6E6568575F7365676E616843203B2020202020202020202041463130,
  0x455455434120485449572045412052455454454C204C415449504143204E4954414C20202020202020264C2023206465646C6F66657361435F434B464E5F6E6568575F7365676E616843203B2020202020202020202043463130,
  0x455455434120444E4120454B4F5254532048544957204F2052455454454C204C415449504143204E4954414C20202020202020264C2023206465646C6F66657361435F434B464E5F6E6568575F7365676E616843203B2020202020202020202045463130,
  0x455641524720454C42554F44204854495720412052455454454C204C415449504143204E4954414C20202020202020264C2023206465646C6F66657361435F434B464E5F6E6568575F7365676E616843203B2020202020202020202030303230,
  0x4556455242204445545245564E49204854495720412052455454454C204C415449504143204E4954414C20202020202020264C2023206465646C6F66657361435F434B464E5F6E6568575F7365676E616843203B2020202020202020202032303230,
  0x455641524720454C42554F44204854495720452052455454454C204C415449504143204E4954414C20202020202020264C2023206465646C6F66657361435F434B464E5F6E6568575F7365676E616843203B2020202020202020202034303230,
  0x4556455242204445545245564E49204854495720452052455454454C204C415449504143204E4954414C20202020202020264C2023206465646C6F66657361435F434B464E5F6E6568575F7365676E616843203B2020202020202020202036303230,
  0x455641524720454C42554F44204854495720492052455454454C204C415449504143204E4954414C20202020202020264C2023206465646C6F66657361435F434B464E5F6E6568575F7365676E616843203B2020202020202020202038303230,
  0x4556455242204445545245564E49204854495720492052455454454C204C415449504143204E4954414C20202020202020264C2023206465646C6F66657361435F434B464E5F6E6568575F7365676E616843203B2020202020202020202041303230,
  0x455641524720454C42554F442048544957204F2052455454454C204C415449504143204E4954414C20202020202020264C2023206465646C6F66657361435F434B464E5F6E6568575F7365676E616843203B2020202020202020202043303230,
  0x4556455242204445545245564E492048544957204F2052455454454C204C415449504143204E4954414C20202020202020264C2023206465646C6F66657361435F434B464E5F6E6568575F7365676E616843203B2020202020202020202045303230,
  0x455641524720454C42554F44204854495720522052455454454C204C415449504143204E4954414C20202020202020264C2023206465646C6F66657361435F434B464E5F6E6568575F7365676E616843203B2020202020202020202030313230,
  0x4556455242204445545245564E49204854495720522052455454454C204C415449504143204E4954414C20202020202020264C2023206465646C6F66657361435F434B464E5F6E6568575F7365676E616843203B2020202020202020202032313230,
  0x455641524720454C42554F44204854495720552052455454454C204C415449504143204E4954414C20202020202020264C2023206465646C6F66657361435F434B464E5F6E6568575F7365676E616843203B2020202020202020202034313230,
  0x4556455242204445545245564E49204854495720552052455454454C204C415449504143204E4954414C20202020202020264C2023206465646C6F66657361435F434B464E5F6E6568575F7365676E616843203B2020202020202020202036313230,
  0x574F4C454220414D4D4F43204854495720532052455454454C204C415449504143204E4954414C20202020202020264C2023206465646C6F66657361435F434B464E5F6E6568575F7365676E616843203B2020202020202020202038313230,
  0x574F4C454220414D4D4F43204854495720542052455454454C204C415449504143204E4954414C20202020202020264C2023206465646C6F66657361435F434B464E5F6E6568575F7365676E616843203B2020202020202020202041313230,
  0x48474F592052455454454C204C415449504143204E4954414C20202020202020264C2023206465646C6F66657361435F434B464E5F6E6568575F7365676E616843203B2020202020202020202043313230,
  0x4E4F524143204854495720482052455454454C204C415449504143204E4954414C20202020202020264C2023206465646C6F66657361435F434B464E5F6E6568575F7365676E616843203B2020202020202020202045313230,
  0x47454C20544847495220474E4F4C2048544957204E2052455454454C204C415449504143204E4954414C20202020202020264C2023206465646C6F66657361435F434B464E5F6E6568575F7365676E616843203B2020202020202020202030323230,
  0x554F2052455454454C204C415449504143204E4954414C20202020202020264C2023206465646C6F66657361435F434B464E5F6E6568575F7365676E616843203B2020202020202020202032323230,
  0x4B4F4F482048544957205A2052455454454C204C415449504143204E4954414C20202020202020264C2023206465646C6F66657361435F434B464E5F6E6568575F7365676E616843203B2020202020202020202034323230,
  0x45564F424120544F44204854495720412052455454454C204C415449504143204E4954414C20202020202020264C2023206465646C6F66657361435F434B464E5F6E6568575F7365676E616843203B2020202020202020202036323230,
  0x414C4C49444543204854495720452052455454454C204C415449504143204E4954414C20202020202020264C2023206465646C6F66657361435F434B464E5F6E6568575F7365676E616843203B2020202020202020202038323230,
  0x4E4F5243414D20444E41205349534552454149442048544957204F2052455454454C204C415449504143204E4954414C20202020202020264C2023206465646C6F66657361435F434B464E5F6E6568575F7365676E616843203B2020202020202020202041323230,
  0x4E4F5243414D20444E412045444C49542048544957204F2052455454454C204C415449504143204E4954414C20202020202020264C2023206465646C6F66657361435F434B464E5F6E6568575F7365676E616843203B2020202020202020202043323230,
  0x45564F424120544F442048544957204F2052455454454C204C415449504143204E4954414C20202020202020264C2023206465646C6F66657361435F434B464E5F6E6568575F7365676E616843203B2020202020202020202045323230,
  0x4E4F5243414D20444E412045564F424120544F442048544957204F2052455454454C204C415449504143204E4954414C20202020202020264C2023206465646C6F66657361435F434B464E5F6E6568575F7365676E616843203B2020202020202020202030333230,
  0x4E4F5243414D204854495720592052455454454C204C415449504143204E4954414C20202020202020264C2023206465646C6F66657361435F434B464E5F6E6568575F7365676E616843203B2020202020202020202032333230,
  0x454B4F525453204854495720432052455454454C204C415449504143204E4954414C2E2E454B4F525453204854495720412052455454454C204C415449504143204E4954414C205D325B202020264C2023206465646C6F66657361435F434B464E5F6E6568575F7365676E616843203B20202020423332302E2E41333230,
  0x454B4F525453204C414E4F47414944204854495720542052455454454C204C415449504143204E4954414C2E2E5241422048544957204C2052455454454C204C415449504143204E4954414C205D325B202020264C2023206465646C6F66657361435F434B464E5F6E6568575F7365676E616843203B20202020453332302E2E44333230,
  0x504F5453204C4154544F4C472052455454454C204C415449504143204E4954414C20202020202020264C2023206465646C6F66657361435F434B464E5F6E6568575F7365676E616843203B2020202020202020202031343230,
  0x454B4F525453204854495720452052455454454C204C415449504143204E4954414C2E2E454B4F525453204854495720422052455454454C204C415449504143204E4954414C205D345B202020264C2023206465646C6F66657361435F434B464E5F6E6568575F7365676E616843203B20202020363432302E2E33343230,
  0x454B4F5254532048544957204A2052455454454C204C415449504143204E4954414C20202020202020264C2023206465646C6F66657361435F434B464E5F6E6568575F7365676E616843203B2020202020202020202038343230,
  0x4C494154204B4F4F4820485449572051204C4C414D532052455454454C204C415449504143204E4954414C20202020202020264C2023206465646C6F66657361435F434B464E5F6E6568575F7365676E616843203B2020202020202020202041343230,
  0x454B4F525453204854495720522052455454454C204C415449504143204E4954414C20202020202020264C2023206465646C6F66657361435F434B464E5F6E6568575F7365676E616843203B2020202020202020202043343230,
  0x454B4F525453204854495720592052455454454C204C415449504143204E4954414C20202020202020264C2023206465646C6F66657361435F434B464E5F6E6568575F7365676E616843203B2020202020202020202045343230,
  0x59204C4C414D532052455454454C205245494649444F4D2E2E48204C4C414D532052455454454C205245494649444F4D205D395B2020206D4C2023206465646C6F66657361435F434B464E5F6E6568575F7365676E616843203B20202020384232302E2E30423230,
  0x544E4543434120455455434120454C42554F442E2E4556455242205D365B2020206B532023206465646C6F66657361435F434B464E5F6E6568575F7365676E616843203B20202020444432302E2E38443230,
  0x504F5453204C4154544F4C47204445535245564552204C4C414D532052455454454C205245494649444F4D2E2E414D4D4147204C4C414D532052455454454C205245494649444F4D205D355B2020206D4C2023206465646C6F66657361435F434B464E5F6E6568575F7365676E616843203B20202020344532302E2E30453230,
  0x4B52414D20454E4F5420455455434120474E494E49424D4F432E2E4B52414D20454E4F5420455641524720474E494E49424D4F43205D325B2020206E4D2023206465646C6F66657361435F434B464E5F6E6568575F7365676E616843203B20202020313433302E2E30343330,
  0x494E454D4D41524745474F5059204B4545524720474E494E49424D4F432E2E53494E4F524F4B204B4545524720474E494E49424D4F43205D335B2020206E4D2023206465646C6F66657361435F434B464E5F6E6568575F7365676E616843203B20202020353433302E2E33343330,
  0x52454E494F4A20454D45485041524720474E494E49424D4F43202020202020206E4D2023206465646C6F66657361435F434B464E5F6E6568575F7365676E616843203B2020202020202020202046343330,
  0x415445482052455454454C204C415449504143204B4545524720202020202020264C2023206465646C6F66657361435F434B464E5F6E6568575F7365676E616843203B2020202020202020202030373330,
  0x49504D415320434941484352412052455454454C204C415449504143204B4545524720202020202020264C2023206465646C6F66657361435F434B464E5F6E6568575F7365676E616843203B2020202020202020202032373330,
  0x4E474953204C4152454D554E204B45455247202020202020206D4C2023206465646C6F66657361435F434B464E5F6E6568575F7365676E616843203B2020202020202020202034373330,
  0x414D4D41474944204E41494C5948504D41502052455454454C204C415449504143204B4545524720202020202020264C2023206465646C6F66657361435F434B464E5F6E6568575F7365676E616843203B2020202020202020202036373330,
  0x494E454D4D41524745474F5059204B45455247202020202020206D4C2023206465646C6F66657361435F434B464E5F6E6568575F7365676E616843203B2020202020202020202041373330,
  0x4B52414D204E4F495453455551204B45455247202020202020206F502023206465646C6F66657361435F434B464E5F6E6568575F7365676E616843203B2020202020202020202045373330,
  0x544F592052455454454C204C415449504143204B4545524720202020202020264C2023206465646C6F66657361435F434B464E5F6E6568575F7365676E616843203B2020202020202020202046373330]

def qcText36 : List Nat := [
  0x534F4E4F5420414B4954594C414944204B454552472E2E534F4E4F54204B45455247205D325B2020206B532023206465646C6F66657361435F434B464E5F6E6568575F7365676E616843203B20202020353833302E2E34383330,
  0x534F4E4F542048544957204148504C412052455454454C204C415449504143204B4545524720202020202020264C2023206465646C6F66657361435F434B464E5F6E6568575F7365676E616843203B2020202020202020202036383330,
  0x4149454C4554204F4E41204B45455247202020202020206F502023206465646C6F66657361435F434B464E5F6E6568575F7365676E616843203B2020202020202020202037383330,
  0x534F4E4F5420485449572041544F492052455454454C204C415449504143204B454552472E2E534F4E4F542048544957204E4F4C495350452052455454454C204C415449504143204B45455247205D335B202020264C2023206465646C6F66657361435F434B464E5F6E6568575F7365676E616843203B20202020413833302E2E38383330,
  0x534F4E4F542048544957204E4F5243494D4F2052455454454C204C415449504143204B4545524720202020202020264C2023206465646C6F66657361435F434B464E5F6E6568575F7365676E616843203B2020202020202020202043383330,
  0x534F4E4F542048544957204147454D4F2052455454454C204C415449504143204B454552472E2E534F4E4F542048544957204E4F4C495350552052455454454C204C415449504143204B45455247205D325B202020264C2023206465646C6F66657361435F434B464E5F6E6568575F7365676E616843203B20202020463833302E2E45383330,
  0x4F48522052455454454C204C415449504143204B454552472E2E4148504C412052455454454C204C415449504143204B45455247205D37315B2020264C2023206465646C6F66657361435F434B464E5F6E6568575F7365676E616843203B20202020314133302E2E31393330,
  0x414B4954594C4149442048544957204E4F4C495350552052455454454C204C415449504143204B454552472E2E414D4749532052455454454C204C415449504143204B45455247205D395B202020264C2023206465646C6F66657361435F434B464E5F6E6568575F7365676E616843203B20202020424133302E2E33413330,
  0x414D474953204C414E49462052455454454C204C4C414D53204B4545524720202020202020264C2023206465646C6F66657361435F434B464E5F6E6568575F7365676E616843203B2020202020202020202032433330,
  0x4C4F424D5953204950204B454552472E2E4C4F424D59532049414B204C415449504143204B45455247205D385B202020264C2023206465646C6F66657361435F434B464E5F6E6568575F7365676E616843203B20202020364433302E2E46433330,
  0x4150504F4B20434941484352412052455454454C204B4545524720202020202020264C2023206465646C6F66657361435F434B464E5F6E6568575F7365676E616843203B2020202020202020202038443330,
  0x414D474954532052455454454C204B4545524720202020202020264C2023206465646C6F66657361435F434B464E5F6E6568575F7365676E616843203B2020202020202020202041443330,
  0x414D4D414749442052455454454C204B4545524720202020202020264C2023206465646C6F66657361435F434B464E5F6E6568575F7365676E616843203B2020202020202020202043443330,
  0x4150504F4B2052455454454C204B4545524720202020202020264C2023206465646C6F66657361435F434B464E5F6E6568575F7365676E616843203B2020202020202020202045443330,
  0x49504D41532052455454454C204B4545524720202020202020264C2023206465646C6F66657361435F434B464E5F6E6568575F7365676E616843203B2020202020202020202030453330,
  0x494548532052455454454C204C41544950414320434954504F4320202020202020264C2023206465646C6F66657361435F434B464E5F6E6568575F7365676E616843203B2020202020202020202032453330,
  0x4945462052455454454C204C41544950414320434954504F4320202020202020264C2023206465646C6F66657361435F434B464E5F6E6568575F7365676E616843203B2020202020202020202034453330,
  0x4945484B2052455454454C204C41544950414320434954504F4320202020202020264C2023206465646C6F66657361435F434B464E5F6E6568575F7365676E616843203B2020202020202020202036453330,
  0x49524F482052455454454C204C41544950414320434954504F4320202020202020264C2023206465646C6F66657361435F434B464E5F6E6568575F7365676E616843203B2020202020202020202038453330,
  0x4149474E41472052455454454C204C41544950414320434954504F4320202020202020264C2023206465646C6F66657361435F434B464E5F6E6568575F7365676E616843203B2020202020202020202041453330,
  0x414D4948532052455454454C204C41544950414320434954504F4320202020202020264C2023206465646C6F66657361435F434B464E5F6E6568575F7365676E616843203B2020202020202020202043453330,
  0x4945442052455454454C204C41544950414320434954504F4320202020202020264C2023206465646C6F66657361435F434B464E5F6E6568575F7365676E616843203B2020202020202020202045453330,
  0x4C4F424D595320414D474953204554414E554C204B454552472E2E4C4F424D595320415050414B204B45455247205D335B202020264C2023206465646C6F66657361435F434B464E5F6E6568575F7365676E616843203B20202020324633302E2E30463330,
  0x4C4F424D5953204E4F4C49535045204554414E554C204B454552472E2E4C4F424D5953204154454854204C415449504143204B45455247205D325B202020264C2023206465646C6F66657361435F434B464E5F6E6568575F7365676E616843203B20202020354633302E2E34463330,
  0x4F48532052455454454C204C415449504143204B4545524720202020202020264C2023206465646C6F66657361435F434B464E5F6E6568575F7365676E616843203B2020202020202020202037463330,
  0x4E41532052455454454C204C415449504143204B454552472E2E4C4F424D595320414D474953204554414E554C204C415449504143204B45455247205D325B202020264C2023206465646C6F66657361435F434B464E5F6E6568575F7365676E616843203B20202020414633302E2E39463330,
  0x41592052455454454C204C4154495041432043494C4C495259432E2E4C4F424D595320414D474953204554414E554C204445535245564552204C415449504143204B45455247205D31355B2020264C2023206465646C6F66657361435F434B464E5F6E6568575F7365676E616843203B20202020463234302E2E44463330,
  0x4147454D4F2052455454454C204C4154495041432043494C4C4952594320202020202020264C2023206465646C6F66657361435F434B464E5F6E6568575F7365676E616843203B2020202020202020202030363430,
  0x5441592052455454454C204C4154495041432043494C4C4952594320202020202020264C2023206465646C6F66657361435F434B464E5F6E6568575F7365676E616843203B2020202020202020202032363430,
  0x45204445494649544F492052455454454C204C4154495041432043494C4C4952594320202020202020264C2023206465646C6F66657361435F434B464E5F6E6568575F7365676E616843203B2020202020202020202034363430,
  0x53555920454C5454494C2052455454454C204C4154495041432043494C4C4952594320202020202020264C2023206465646C6F66657361435F434B464E5F6E6568575F7365676E616843203B2020202020202020202036363430,
  0x53555920454C5454494C204445494649544F492052455454454C204C4154495041432043494C4C4952594320202020202020264C2023206465646C6F66657361435F434B464E5F6E6568575F7365676E616843203B2020202020202020202038363430,
  0x535559204749422052455454454C204C4154495041432043494C4C4952594320202020202020264C2023206465646C6F66657361435F434B464E5F6E6568575F7365676E616843203B2020202020202020202041363430,
  0x53555920474942204445494649544F492052455454454C204C4154495041432043494C4C4952594320202020202020264C2023206465646C6F66657361435F434B464E5F6E6568575F7365676E616843203B2020202020202020202043363430,
  0x49534B2052455454454C204C4154495041432043494C4C4952594320202020202020264C2023206465646C6F66657361435F434B464E5F6E6568575F7365676E616843203B2020202020202020202045363430,
  0x4953502052455454454C204C4154495041432043494C4C4952594320202020202020264C2023206465646C6F66657361435F434B464E5F6E6568575F7365676E616843203B2020202020202020202030373430,
  0x415449462052455454454C204C4154495041432043494C4C4952594320202020202020264C2023206465646C6F66657361435F434B464E5F6E6568575F7365676E616843203B2020202020202020202032373430,
  0x41535449485A492052455454454C204C4154495041432043494C4C4952594320202020202020264C2023206465646C6F66657361435F434B464E5F6E6568575F7365676E616843203B2020202020202020202034373430,
  0x544E4543434120455641524720454C42554F4420485449572041535449485A492052455454454C204C4154495041432043494C4C4952594320202020202020264C2023206465646C6F66657361435F434B464E5F6E6568575F7365676E616843203B2020202020202020202036373430,
  0x4B552052455454454C204C4154495041432043494C4C4952594320202020202020264C2023206465646C6F66657361435F434B464E5F6E6568575F7365676E616843203B2020202020202020202038373430,
  0x4147454D4F20444E554F522052455454454C204C4154495041432043494C4C4952594320202020202020264C2023206465646C6F66657361435F434B464E5F6E6568575F7365676E616843203B2020202020202020202041373430,
  0x4F4C5449542048544957204147454D4F2052455454454C204C4154495041432043494C4C4952594320202020202020264C2023206465646C6F66657361435F434B464E5F6E6568575F7365676E616843203B2020202020202020202043373430,
  0x544F2052455454454C204C4154495041432043494C4C4952594320202020202020264C2023206465646C6F66657361435F434B464E5F6E6568575F7365676E616843203B2020202020202020202045373430,
  0x4150504F4B2052455454454C204C4154495041432043494C4C4952594320202020202020264C2023206465646C6F66657361435F434B464E5F6E6568575F7365676E616843203B2020202020202020202030383430,
  0x4C494154204854495720492054524F48532052455454454C204C4154495041432043494C4C4952594320202020202020264C2023206465646C6F66657361435F434B464E5F6E6568575F7365676E616843203B2020202020202020202041383430,
  0x4E4749532054464F53494D45532052455454454C204C4154495041432043494C4C4952594320202020202020264C2023206465646C6F66657361435F434B464E5F6E6568575F7365676E616843203B2020202020202020202043383430,
  0x4B43495420485449572052452052455454454C204C4154495041432043494C4C4952594320202020202020264C2023206465646C6F66657361435F434B464E5F6E6568575F7365676E616843203B2020202020202020202045383430,
  0x4E52555450552048544957204548472052455454454C204C4154495041432043494C4C4952594320202020202020264C2023206465646C6F66657361435F434B464E5F6E6568575F7365676E616843203B2020202020202020202030393430,
  0x454B4F5254532048544957204548472052455454454C204C4154495041432043494C4C4952594320202020202020264C2023206465646C6F66657361435F434B464E5F6E6568575F7365676E616843203B2020202020202020202032393430,
  0x4B4F4F4820454C4444494D2048544957204548472052455454454C204C4154495041432043494C4C4952594320202020202020264C2023206465646C6F66657361435F434B464E5F6E6568575F7365676E616843203B2020202020202020202034393430,
  0x5245444E454353454420485449572045485A2052455454454C204C4154495041432043494C4C4952594320202020202020264C2023206465646C6F66657361435F434B464E5F6E6568575F7365676E616843203B2020202020202020202036393430,
  0x5245444E4543534544204854495720455A2052455454454C204C4154495041432043494C4C4952594320202020202020264C2023206465646C6F66657361435F434B464E5F6E6568575F7365676E616843203B2020202020202020202038393430,
  0x5245444E4543534544204854495720414B2052455454454C204C4154495041432043494C4C4952594320202020202020264C2023206465646C6F66657361435F434B464E5F6E6568575F7365676E616843203B2020202020202020202041393430,
  0x454B4F525453204C41434954524556204854495720414B2052455454454C204C4154495041432043494C4C4952594320202020202020264C2023206465646C6F66657361435F434B464E5F6E6568575F7365676E616843203B2020202020202020202043393430,
  0x454B4F525453204854495720414B2052455454454C204C4154495041432043494C4C4952594320202020202020264C2023206465646C6F66657361435F434B464E5F6E6568575F7365676E616843203B2020202020202020202045393430,
  0x414B2052494B485341422052455454454C204C4154495041432043494C4C4952594320202020202020264C2023206465646C6F66657361435F434B464E5F6E6568575F7365676E616843203B2020202020202020202030413430,
  0x5245444E45435345442048544957204E452052455454454C204C4154495041432043494C4C4952594320202020202020264C2023206465646C6F66657361435F434B464E5F6E6568575F7365676E616843203B2020202020202020202032413430,
  0x454847204E4520455255544147494C204C4154495041432043494C4C4952594320202020202020264C2023206465646C6F66657361435F434B464E5F6E6568575F7365676E616843203B2020202020202020202034413430,
  0x4B4F4F4820454C4444494D20485449572045502052455454454C204C4154495041432043494C4C4952594320202020202020264C2023206465646C6F66657361435F434B464E5F6E6568575F7365676E616843203B2020202020202020202036413430,
  0x4148204E41495341484B42412052455454454C204C4154495041432043494C4C4952594320202020202020264C2023206465646C6F66657361435F434B464E5F6E6568575F7365676E616843203B2020202020202020202038413430,
  0x5245444E454353454420485449572053452052455454454C204C4154495041432043494C4C4952594320202020202020264C2023206465646C6F66657361435F434B464E5F6E6568575F7365676E616843203B2020202020202020202041413430,
  0x5245444E454353454420485449572045542052455454454C204C4154495041432043494C4C4952594320202020202020264C2023206465646C6F66657361435F434B464E5F6E6568575F7365676E616843203B2020202020202020202043413430,
  0x552054484749415254532052455454454C204C4154495041432043494C4C4952594320202020202020264C2023206465646C6F66657361435F434B464E5F6E6568575F7365676E616843203B2020202020202020202045413430,
  0x454B4F525453204854495720552054484749415254532052455454454C204C4154495041432043494C4C4952594320202020202020264C2023206465646C6F66657361435F434B464E5F6E6568575F7365676E616843203B2020202020202020202030423430,
  0x5245444E454353454420485449572041482052455454454C204C4154495041432043494C4C4952594320202020202020264C2023206465646C6F66657361435F434B464E5F6E6568575F7365676E616843203B2020202020202020202032423430,
  0x45535420455420455255544147494C204C4154495041432043494C4C4952594320202020202020264C2023206465646C6F66657361435F434B464E5F6E6568575F7365676E616843203B2020202020202020202034423430,
  0x5245444E45435345442048544957204548432052455454454C204C4154495041432043494C4C4952594320202020202020264C2023206465646C6F66657361435F434B464E5F6E6568575F7365676E616843203B2020202020202020202036423430,
  0x454B4F525453204C414349545245562048544957204548432052455454454C204C4154495041432043494C4C4952594320202020202020264C2023206465646C6F66657361435F434B464E5F6E6568575F7365676E616843203B2020202020202020202038423430,
  0x414848532052455454454C204C4154495041432043494C4C4952594320202020202020264C2023206465646C6F66657361435F434B464E5F6E6568575F7365676E616843203B2020202020202020202041423430,
  0x454843204E41495341484B42412052455454454C204C4154495041432043494C4C4952594320202020202020264C2023206465646C6F66657361435F434B464E5F6E6568575F7365676E616843203B2020202020202020202043423430,
  0x5245444E4543534544204854495720454843204E41495341484B42412052455454454C204C4154495041432043494C4C4952594320202020202020264C2023206465646C6F66657361435F434B464E5F6E6568575F7365676E616843203B2020202020202020202045423430,
  0x455645524220485449572045485A2052455454454C204C4154495041432043494C4C495259432E2E414B48434F4C41502052455454454C2043494C4C49525943205D325B202020264C2023206465646C6F66657361435F434B464E5F6E6568575F7365676E616843203B20202020314334302E2E30433430,
  0x4B4F4F48204854495720414B2052455454454C204C4154495041432043494C4C4952594320202020202020264C2023206465646C6F66657361435F434B464E5F6E6568575F7365676E616843203B2020202020202020202033433430,
  0x4C4941542048544957204C452052455454454C204C4154495041432043494C4C4952594320202020202020264C2023206465646C6F66657361435F434B464E5F6E6568575F7365676E616843203B2020202020202020202035433430,
  0x4B4F4F482048544957204E452052455454454C204C4154495041432043494C4C4952594320202020202020264C2023206465646C6F66657361435F434B464E5F6E6568575F7365676E616843203B2020202020202020202037433430,
  0x4C4941542048544957204E452052455454454C204C4154495041432043494C4C4952594320202020202020264C2023206465646C6F66657361435F434B464E5F6E6568575F7365676E616843203B2020202020202020202039433430,
  0x454843204E41495353414B41484B2052455454454C204C4154495041432043494C4C4952594320202020202020264C2023206465646C6F66657361435F434B464E5F6E6568575F7365676E616843203B2020202020202020202042433430,
  0x4C4941542048544957204D452052455454454C204C4154495041432043494C4C4952594320202020202020264C2023206465646C6F66657361435F434B464E5F6E6568575F7365676E616843203B2020202020202020202044433430,
  0x4556455242204854495720412052455454454C204C4154495041432043494C4C4952594320202020202020264C2023206465646C6F66657361435F434B464E5F6E6568575F7365676E616843203B2020202020202020202030443430,
  0x534953455245414944204854495720412052455454454C204C4154495041432043494C4C4952594320202020202020264C2023206465646C6F66657361435F434B464E5F6E6568575F7365676E616843203B2020202020202020202032443430,
  0x4549204120455255544147494C204C4154495041432043494C4C4952594320202020202020264C2023206465646C6F66657361435F434B464E5F6E6568575F7365676E616843203B2020202020202020202034443430,
  0x455645524220485449572045492052455454454C204C4154495041432043494C4C4952594320202020202020264C2023206465646C6F66657361435F434B464E5F6E6568575F7365676E616843203B2020202020202020202036443430,
  0x41574843532052455454454C204C4154495041432043494C4C4952594320202020202020264C2023206465646C6F66657361435F434B464E5F6E6568575F7365676E616843203B2020202020202020202038443430,
  0x53495345524541494420485449572041574843532052455454454C204C4154495041432043494C4C4952594320202020202020264C2023206465646C6F66657361435F434B464E5F6E6568575F7365676E616843203B2020202020202020202041443430,
  0x53495345524541494420485449572045485A2052455454454C204C4154495041432043494C4C4952594320202020202020264C2023206465646C6F66657361435F434B464E5F6E6568575F7365676E616843203B2020202020202020202043443430,
  0x534953455245414944204854495720455A2052455454454C204C4154495041432043494C4C4952594320202020202020264C2023206465646C6F66657361435F434B464E5F6E6568575F7365676E616843203B2020202020202020202045443430,
  0x455A44204E41495341484B42412052455454454C204C4154495041432043494C4C4952594320202020202020264C2023206465646C6F66657361435F434B464E5F6E6568575F7365676E616843203B2020202020202020202030453430,
  0x4E4F5243414D204854495720492052455454454C204C4154495041432043494C4C4952594320202020202020264C2023206465646C6F66657361435F434B464E5F6E6568575F7365676E616843203B2020202020202020202032453430,
  0x534953455245414944204854495720492052455454454C204C4154495041432043494C4C4952594320202020202020264C2023206465646C6F66657361435F434B464E5F6E6568575F7365676E616843203B2020202020202020202034453430,
  0x5349534552454149442048544957204F2052455454454C204C4154495041432043494C4C4952594320202020202020264C2023206465646C6F66657361435F434B464E5F6E6568575F7365676E616843203B2020202020202020202036453430,
  0x4F204445525241422052455454454C204C4154495041432043494C4C4952594320202020202020264C2023206465646C6F66657361435F434B464E5F6E6568575F7365676E616843203B2020202020202020202038453430,
  0x5349534552454149442048544957204F204445525241422052455454454C204C4154495041432043494C4C4952594320202020202020264C2023206465646C6F66657361435F434B464E5F6E6568575F7365676E616843203B2020202020202020202041453430,
  0x534953455245414944204854495720452052455454454C204C4154495041432043494C4C4952594320202020202020264C2023206465646C6F66657361435F434B464E5F6E6568575F7365676E616843203B2020202020202020202043453430,
  0x4E4F5243414D204854495720552052455454454C204C4154495041432043494C4C4952594320202020202020264C2023206465646C6F66657361435F434B464E5F6E6568575F7365676E616843203B2020202020202020202045453430,
  0x534953455245414944204854495720552052455454454C204C4154495041432043494C4C4952594320202020202020264C2023206465646C6F66657361435F434B464E5F6E6568575F7365676E616843203B2020202020202020202030463430,
  0x455455434120454C42554F44204854495720552052455454454C204C4154495041432043494C4C4952594320202020202020264C2023206465646C6F66657361435F434B464E5F6E6568575F7365676E616843203B2020202020202020202032463430,
  0x5349534552454149442048544957204548432052455454454C204C4154495041432043494C4C4952594320202020202020264C2023206465646C6F66657361435F434B464E5F6E6568575F7365676E616843203B2020202020202020202034463430,
  0x5245444E45435345442048544957204548472052455454454C204C4154495041432043494C4C4952594320202020202020264C2023206465646C6F66657361435F434B464E5F6E6568575F7365676E616843203B2020202020202020202036463430,
  0x534953455245414944204854495720555245592052455454454C204C4154495041432043494C4C4952594320202020202020264C2023206465646C6F66657361435F434B464E5F6E6568575F7365676E616843203B2020202020202020202038463430,
  0x4B4F4F4820444E4120454B4F5254532048544957204548472052455454454C204C4154495041432043494C4C4952594320202020202020264C2023206465646C6F66657361435F434B464E5F6E6568575F7365676E616843203B2020202020202020202041463430,
  0x4B4F4F4820485449572041482052455454454C204C4154495041432043494C4C4952594320202020202020264C2023206465646C6F66657361435F434B464E5F6E6568575F7365676E616843203B2020202020202020202043463430,
  0x454B4F52545320485449572041482052455454454C204C4154495041432043494C4C4952594320202020202020264C2023206465646C6F66657361435F434B464E5F6E6568575F7365676E616843203B2020202020202020202045463430,
  0x454420494D4F4B2052455454454C204C4154495041432043494C4C4952594320202020202020264C2023206465646C6F66657361435F434B464E5F6E6568575F7365676E616843203B2020202020202020202030303530,
  0x454A4420494D4F4B2052455454454C204C4154495041432043494C4C4952594320202020202020264C2023206465646C6F66657361435F434B464E5F6E6568575F7365676E616843203B2020202020202020202032303530,
  0x454A5A20494D4F4B2052455454454C204C4154495041432043494C4C4952594320202020202020264C2023206465646C6F66657361435F434B464E5F6E6568575F7365676E616843203B2020202020202020202034303530,
  0x454A5A4420494D4F4B2052455454454C204C4154495041432043494C4C4952594320202020202020264C2023206465646C6F66657361435F434B464E5F6E6568575F7365676E616843203B2020202020202020202036303530,
  0x454A4C20494D4F4B2052455454454C204C4154495041432043494C4C4952594320202020202020264C2023206465646C6F66657361435F434B464E5F6E6568575F7365676E616843203B2020202020202020202038303530,
  0x454A4E20494D4F4B2052455454454C204C4154495041432043494C4C4952594320202020202020264C2023206465646C6F66657361435F434B464E5F6E6568575F7365676E616843203B2020202020202020202041303530,
  0x454A5320494D4F4B2052455454454C204C4154495041432043494C4C4952594320202020202020264C2023206465646C6F66657361435F434B464E5F6E6568575F7365676E616843203B2020202020202020202043303530,
  0x454A5420494D4F4B2052455454454C204C4154495041432043494C4C4952594320202020202020264C2023206465646C6F66657361435F434B464E5F6E6568575F7365676E616843203B2020202020202020202045303530,
  0x455A2044455352455645522052455454454C204C4154495041432043494C4C4952594320202020202020264C2023206465646C6F66657361435F434B464E5F6E6568575F7365676E616843203B2020202020202020202030313530,
  0x4B4F4F482048544957204C452052455454454C204C4154495041432043494C4C4952594320202020202020264C2023206465646C6F66657361435F434B464E5F6E6568575F7365676E616843203B2020202020202020202032313530,
  0x41484C2052455454454C204C4154495041432043494C4C4952594320202020202020264C2023206465646C6F66657361435F434B464E5F6E6568575F7365676E616843203B2020202020202020202034313530,
  0x4148522052455454454C204C4154495041432043494C4C4952594320202020202020264C2023206465646C6F66657361435F434B464E5F6E6568575F7365676E616843203B2020202020202020202036313530,
  0x4541592052455454454C204C4154495041432043494C4C4952594320202020202020264C2023206465646C6F66657361435F434B464E5F6E6568575F7365676E616843203B2020202020202020202038313530,
  0x41512052455454454C204C4154495041432043494C4C4952594320202020202020264C2023206465646C6F66657361435F434B464E5F6E6568575F7365676E616843203B2020202020202020202041313530,
  0x45572052455454454C204C4154495041432043494C4C4952594320202020202020264C2023206465646C6F66657361435F434B464E5F6E6568575F7365676E616843203B2020202020202020202043313530,
  0x414B205455454C412052455454454C204C4154495041432043494C4C4952594320202020202020264C2023206465646C6F66657361435F434B464E5F6E6568575F7365676E616843203B2020202020202020202045313530,
  0x4B4F4F4820454C4444494D2048544957204C452052455454454C204C4154495041432043494C4C4952594320202020202020264C2023206465646C6F66657361435F434B464E5F6E6568575F7365676E616843203B2020202020202020202030323530,
  0x4B4F4F4820454C4444494D2048544957204E452052455454454C204C4154495041432043494C4C4952594320202020202020264C2023206465646C6F66657361435F434B464E5F6E6568575F7365676E616843203B2020202020202020202032323530,
  0x5245444E454353454420485449572045502052455454454C204C4154495041432043494C4C4952594320202020202020264C2023206465646C6F66657361435F434B464E5F6E6568575F7365676E616843203B2020202020202020202034323530,
  0x5245444E4543534544204854495720414848532052455454454C204C4154495041432043494C4C4952594320202020202020264C2023206465646C6F66657361435F434B464E5F6E6568575F7365676E616843203B2020202020202020202036323530,
  0x4B4F4F48205446454C2048544957204E452052455454454C204C4154495041432043494C4C4952594320202020202020264C2023206465646C6F66657361435F434B464E5F6E6568575F7365676E616843203B2020202020202020202038323530,
  0x45485A5A442052455454454C204C4154495041432043494C4C4952594320202020202020264C2023206465646C6F66657361435F434B464E5F6E6568575F7365676E616843203B2020202020202020202041323530,
  0x454843442052455454454C204C4154495041432043494C4C4952594320202020202020264C2023206465646C6F66657361435F434B464E5F6E6568575F7365676E616843203B2020202020202020202043323530,
  0x5245444E45435345442048544957204C452052455454454C204C4154495041432043494C4C4952594320202020202020264C2023206465646C6F66657361435F434B464E5F6E6568575F7365676E616843203B2020202020202020202045323530,
  0x4845462052455454454C204C415449504143204E41494E454D52412E2E4259412052455454454C204C415449504143204E41494E454D5241205D38335B2020264C2023206465646C6F66657361435F434B464E5F6E6568575F7365676E616843203B20202020363535302E2E31333530,
  0x4E5749592048434520455255544147494C204C4C414D53204E41494E454D524120202020202020264C2023206465646C6F66657361435F434B464E5F6E6568575F7365676E616843203B2020202020202020202037383530,
  0x4B52414D2052455454454C204349424152412020202020202066432023206465646C6F66657361435F434B464E5F6E6568575F7365676E616843203B2020202020202020202043313630,
  0x48455920415A4D414820484749482052455454454C204349424152412E2E46454C4120415A4D414820484749482052455454454C20434942415241205D345B2020206F4C2023206465646C6F66657361435F434B464E5F6E6568575F7365676E616843203B20202020383736302E2E35373630,
  0x4159592052455454454C2049524147414E415645442E2E41512052455454454C2049524147414E41564544205D385B2020206F4C2023206465646C6F66657361435F434B464E5F6E6568575F7365676E616843203B20202020463539302E2E38353930,
  0x4148522052455454454C20494C41474E45422E2E4152522052455454454C20494C41474E4542205D325B2020206F4C2023206465646C6F66657361435F434B464E5F6E6568575F7365676E616843203B20202020444439302E2E43443930,
  0x4159592052455454454C20494C41474E4542202020202020206F4C2023206465646C6F66657361435F434B464E5F6E6568575F7365676E616843203B2020202020202020202046443930,
  0x414C4C2052455454454C2049484B554D525547202020202020206F4C2023206465646C6F66657361435F434B464E5F6E6568575F7365676E616843203B2020202020202020202033334130,
  0x4148532052455454454C2049484B554D525547202020202020206F4C2023206465646C6F66657361435F434B464E5F6E6568575F7365676E616843203B2020202020202020202036334130,
  0x415A2052455454454C2049484B554D5255472E2E4148484B2052455454454C2049484B554D525547205D335B2020206F4C2023206465646C6F66657361435F434B464E5F6E6568575F7365676E616843203B20202020423541302E2E39354130,
  0x41462052455454454C2049484B554D525547202020202020206F4C2023206465646C6F66657361435F434B464E5F6E6568575F7365676E616843203B2020202020202020202045354130,
  0x4148522052455454454C20415949524F2E2E4152522052455454454C20415949524F205D325B2020206F4C2023206465646C6F66657361435F434B464E5F6E6568575F7365676E616843203B20202020443542302E2E43354230,
  0x4D412041524153205245544341524148432049414854202020202020206F4C2023206465646C6F66657361435F434B464E5F6E6568575F7365676E616843203B2020202020202020202033334530,
  0x4D41204E474953204C45574F56204F414C202020202020206F4C2023206465646C6F66657361435F434B464E5F6E6568575F7365676E616843203B2020202020202020202033424530,
  0x4F4D204F48204F414C2E2E4F4E204F48204F414C205D325B2020206F4C2023206465646C6F66657361435F434B464E5F6E6568575F7365676E616843203B20202020444445302E2E43444530,
  0x524154534220474548535420524554494D494C4544204B52414D204E415445424954202020202020206F502023206465646C6F66657361435F434B464E5F6E6568575F7365676E616843203B2020202020202020202043304630,
  0x4148472052455454454C204E415445424954202020202020206F4C2023206465646C6F66657361435F434B464E5F6E6568575F7365676E616843203B2020202020202020202033344630,
  0x414844442052455454454C204E415445424954202020202020206F4C2023206465646C6F66657361435F434B464E5F6E6568575F7365676E616843203B2020202020202020202044344630,
  0x4148442052455454454C204E415445424954202020202020206F4C2023206465646C6F66657361435F434B464E5F6E6568575F7365676E616843203B2020202020202020202032354630,
  0x4148422052455454454C204E415445424954202020202020206F4C2023206465646C6F66657361435F434B464E5F6E6568575F7365676E616843203B2020202020202020202037354630,
  0x41485A442052455454454C204E415445424954202020202020206F4C2023206465646C6F66657361435F434B464E5F6E6568575F7365676E616843203B2020202020202020202043354630,
  0x4153534B2052455454454C204E415445424954202020202020206F4C2023206465646C6F66657361435F434B464E5F6E6568575F7365676E616843203B2020202020202020202039364630,
  0x4949204E474953204C45574F56204E415445424954202020202020206E4D2023206465646C6F66657361435F434B464E5F6E6568575F7365676E616843203B2020202020202020202033374630,
  0x4C4C2043494C41434F56204E474953204C45574F56204E4154454249542E2E5555204E474953204C45574F56204E415445424954205D355B2020206E4D2023206465646C6F66657361435F434B464E5F6E6568575F7365676E616843203B20202020393746302E2E35374630,
  0x4949204445535245564552204E474953204C45574F56204E415445424954202020202020206E4D2023206465646C6F66657361435F434B464E5F6E6568575F7365676E616843203B2020202020202020202031384630,
  0x4148472052455454454C2044454E494F4A425553204E415445424954202020202020206E4D2023206465646C6F66657361435F434B464E5F6E6568575F7365676E616843203B2020202020202020202033394630,
  0x414844442052455454454C2044454E494F4A425553204E415445424954202020202020206E4D2023206465646C6F66657361435F434B464E5F6E6568575F7365676E616843203B2020202020202020202044394630,
  0x4148442052455454454C2044454E494F4A425553204E415445424954202020202020206E4D2023206465646C6F66657361435F434B464E5F6E6568575F7365676E616843203B2020202020202020202032414630,
  0x4148422052455454454C2044454E494F4A425553204E415445424954202020202020206E4D2023206465646C6F66657361435F434B464E5F6E6568575F7365676E616843203B2020202020202020202037414630,
  0x41485A442052455454454C2044454E494F4A425553204E415445424954202020202020206E4D2023206465646C6F66657361435F434B464E5F6E6568575F7365676E616843203B2020202020202020202043414630,
  0x4153534B2052455454454C2044454E494F4A425553204E415445424954202020202020206E4D2023206465646C6F66657361435F434B464E5F6E6568575F7365676E616843203B2020202020202020202039424630,
  0x454F482052455454454C204C415449504143204E414947524F45472E2E4E412052455454454C204C415449504143204E414947524F4547205D38335B2020264C2023206465646C6F66657361435F434B464E5F6E6568575F7365676E616843203B20202020354330312E2E30413031,
  0x4E592052455454454C204C415449504143204E414947524F454720202020202020264C2023206465646C6F66657361435F434B464E5F6E6568575F7365676E616843203B2020202020202020202037433031,
  0x4E45412052455454454C204C415449504143204E414947524F454720202020202020264C2023206465646C6F66657361435F434B464E5F6E6568575F7365676E616843203B2020202020202020202044433031,
  0x52414E204E414947524F45472052455454454C205245494649444F4D202020202020206D4C2023206465646C6F66657361435F434B464E5F6E6568575F7365676E616843203B2020202020202020202043463031,
  0x52454C4C494620474E4F4553474E554A204C55474E41482E2E52454C4C494620474E4F45534F4843204C55474E4148205D325B2020206F4C2023206465646C6F66657361435F434B464E5F6E6568575F7365676E616843203B20202020303631312E2E46353131,
  0x564D2052455454454C204C4C414D532045454B4F524548432E2E45592052455454454C204C4C414D532045454B4F52454843205D365B202020264C2023206465646C6F66657361435F434B464E5F6E6568575F7365676E616843203B20202020444633312E2E38463331,
  0x414120544E455245484E49204C45574F562052454D484B2E2E514120544E455245484E49204C45574F562052454D484B205D325B2020206E4D2023206465646C6F66657361435F434B464E5F6E6568575F7365676E616843203B20202020354237312E2E34423731,
  0x454552485420524F5443454C4553204E4F495441495241562045455246204E41494C4F474E4F4D2E2E454E4F20524F5443454C4553204E4F495441495241562045455246204E41494C4F474E4F4D205D335B2020206E4D2023206465646C6F66657361435F434B464E5F6E6568575F7365676E616843203B20202020443038312E2E42303831,
  0x524F54415241504553204C45574F56204E41494C4F474E4F4D2020202020202066432023206465646C6F66657361435F434B464E5F6E6568575F7365676E616843203B2020202020202020202045303831,
  0x4B55204445444E454C424E552052455454454C204C4C414D532043494C4C495259432E2E4556204445444E554F522052455454454C204C4C414D532043494C4C49525943205D395B202020264C2023206465646C6F66657361435F434B464E5F6E6568575F7365676E616843203B20202020383843312E2E30384331,
  0x4E49412052455454454C204C41544950414320494C55525641544D204E414947524F45472E2E4E412052455454454C204C41544950414320494C55525641544D204E414947524F4547205D33345B2020264C2023206465646C6F66657361435F434B464E5F6E6568575F7365676E616843203B20202020414243312E2E30394331,
  0x4E474953204C414942414C2052455454454C204C41544950414320494C55525641544D204E414947524F45472E2E4E45412052455454454C204C41544950414320494C55525641544D204E414947524F4547205D335B202020264C2023206465646C6F66657361435F434B464E5F6E6568575F7365676E616843203B20202020464243312E2E44424331,
  0x42204C4154495041432052455454454C205245494649444F4D2E2E41204C4154495041432052455454454C205245494649444F4D205D335B2020206D4C2023206465646C6F66657361435F434B464E5F6E6568575F7365676E616843203B20202020453244312E2E43324431,
  0x4E204C4154495041432052455454454C205245494649444F4D2E2E44204C4154495041432052455454454C205245494649444F4D205D31315B20206D4C2023206465646C6F66657361435F434B464E5F6E6568575F7365676E616843203B20202020413344312E2E30334431,
  0x47204C4C414D532052455454454C205245494649444F4D2E2E4F204C4154495041432052455454454C205245494649444F4D205D38315B20206D4C2023206465646C6F66657361435F434B464E5F6E6568575F7365676E616843203B20202020443444312E2E43334431,
  0x4948432052455454454C204C4C414D5320545049524353425553204B454552472E2E4B204C4C414D532052455454454C205245494649444F4D205D38325B20206D4C2023206465646C6F66657361435F434B464E5F6E6568575F7365676E616843203B20202020413644312E2E46344431,
  0x4E452043494C4C495259432052455454454C205245494649444F4D202020202020206D4C2023206465646C6F66657361435F434B464E5F6E6568575F7365676E616843203B2020202020202020202038374431,
  0x4154454854204C4C414D532052455454454C205245494649444F4D2E2E4148504C412044454E525554204C4C414D532052455454454C205245494649444F4D205D37335B20206D4C2023206465646C6F66657361435F434B464E5F6E6568575F7365676E616843203B20202020464244312E2E42394431,
  0x574F4C454220474E4952204854495720412052455454454C204C415449504143204E4954414C20202020202020264C2023206465646C6F66657361435F434B464E5F6E6568575F7365676E616843203B2020202020202020202030304531,
  0x45564F424120544F44204854495720422052455454454C204C415449504143204E4954414C20202020202020264C2023206465646C6F66657361435F434B464E5F6E6568575F7365676E616843203B2020202020202020202032304531,
  0x574F4C454220544F44204854495720422052455454454C204C415449504143204E4954414C20202020202020264C2023206465646C6F66657361435F434B464E5F6E6568575F7365676E616843203B2020202020202020202034304531,
  0x574F4C454220454E494C204854495720422052455454454C204C415449504143204E4954414C20202020202020264C2023206465646C6F66657361435F434B464E5F6E6568575F7365676E616843203B2020202020202020202036304531,
  0x455455434120444E4120414C4C49444543204854495720432052455454454C204C415449504143204E4954414C20202020202020264C2023206465646C6F66657361435F434B464E5F6E6568575F7365676E616843203B2020202020202020202038304531,
  0x45564F424120544F44204854495720442052455454454C204C415449504143204E4954414C20202020202020264C2023206465646C6F66657361435F434B464E5F6E6568575F7365676E616843203B2020202020202020202041304531,
  0x574F4C454220544F44204854495720442052455454454C204C415449504143204E4954414C20202020202020264C2023206465646C6F66657361435F434B464E5F6E6568575F7365676E616843203B2020202020202020202043304531,
  0x574F4C454220454E494C204854495720442052455454454C204C415449504143204E4954414C20202020202020264C2023206465646C6F66657361435F434B464E5F6E6568575F7365676E616843203B2020202020202020202045304531,
  0x414C4C49444543204854495720442052455454454C204C415449504143204E4954414C20202020202020264C2023206465646C6F66657361435F434B464E5F6E6568575F7365676E616843203B2020202020202020202030314531,
  0x574F4C45422058454C464D5543524943204854495720442052455454454C204C415449504143204E4954414C20202020202020264C2023206465646C6F66657361435F434B464E5F6E6568575F7365676E616843203B2020202020202020202032314531,
  0x455641524720444E41204E4F5243414D204854495720452052455454454C204C415449504143204E4954414C20202020202020264C2023206465646C6F66657361435F434B464E5F6E6568575F7365676E616843203B2020202020202020202034314531,
  0x455455434120444E41204E4F5243414D204854495720452052455454454C204C415449504143204E4954414C20202020202020264C2023206465646C6F66657361435F434B464E5F6E6568575F7365676E616843203B2020202020202020202036314531,
  0x574F4C45422058454C464D5543524943204854495720452052455454454C204C415449504143204E4954414C20202020202020264C2023206465646C6F66657361435F434B464E5F6E6568575F7365676E616843203B2020202020202020202038314531,
  0x574F4C45422045444C4954204854495720452052455454454C204C415449504143204E4954414C20202020202020264C2023206465646C6F66657361435F434B464E5F6E6568575F7365676E616843203B2020202020202020202041314531,
  0x455645524220444E4120414C4C49444543204854495720452052455454454C204C415449504143204E4954414C20202020202020264C2023206465646C6F66657361435F434B464E5F6E6568575F7365676E616843203B2020202020202020202043314531,
  0x45564F424120544F44204854495720462052455454454C204C415449504143204E4954414C20202020202020264C2023206465646C6F66657361435F434B464E5F6E6568575F7365676E616843203B2020202020202020202045314531,
  0x4E4F5243414D204854495720472052455454454C204C415449504143204E4954414C20202020202020264C2023206465646C6F66657361435F434B464E5F6E6568575F7365676E616843203B2020202020202020202030324531,
  0x45564F424120544F44204854495720482052455454454C204C415449504143204E4954414C20202020202020264C2023206465646C6F66657361435F434B464E5F6E6568575F7365676E616843203B2020202020202020202032324531,
  0x574F4C454220544F44204854495720482052455454454C204C415449504143204E4954414C20202020202020264C2023206465646C6F66657361435F434B464E5F6E6568575F7365676E616843203B2020202020202020202034324531,
  0x534953455245414944204854495720482052455454454C204C415449504143204E4954414C20202020202020264C2023206465646C6F66657361435F434B464E5F6E6568575F7365676E616843203B2020202020202020202036324531,
  0x414C4C49444543204854495720482052455454454C204C415449504143204E4954414C20202020202020264C2023206465646C6F66657361435F434B464E5F6E6568575F7365676E616843203B2020202020202020202038324531,
  0x574F4C4542204556455242204854495720482052455454454C204C415449504143204E4954414C20202020202020264C2023206465646C6F66657361435F434B464E5F6E6568575F7365676E616843203B2020202020202020202041324531,
  0x574F4C45422045444C4954204854495720492052455454454C204C415449504143204E4954414C20202020202020264C2023206465646C6F66657361435F434B464E5F6E6568575F7365676E616843203B2020202020202020202043324531,
  0x455455434120444E4120534953455245414944204854495720492052455454454C204C415449504143204E4954414C20202020202020264C2023206465646C6F66657361435F434B464E5F6E6568575F7365676E616843203B2020202020202020202045324531,
  0x45545543412048544957204B2052455454454C204C415449504143204E4954414C20202020202020264C2023206465646C6F66657361435F434B464E5F6E6568575F7365676E616843203B2020202020202020202030334531,
  0x574F4C454220544F442048544957204B2052455454454C204C415449504143204E4954414C20202020202020264C2023206465646C6F66657361435F434B464E5F6E6568575F7365676E616843203B2020202020202020202032334531,
  0x574F4C454220454E494C2048544957204B2052455454454C204C415449504143204E4954414C20202020202020264C2023206465646C6F66657361435F434B464E5F6E6568575F7365676E616843203B2020202020202020202034334531,
  0x574F4C454220544F442048544957204C2052455454454C204C415449504143204E4954414C20202020202020264C2023206465646C6F66657361435F434B464E5F6E6568575F7365676E616843203B2020202020202020202036334531,
  0x4E4F5243414D20444E4120574F4C454220544F442048544957204C2052455454454C204C415449504143204E4954414C20202020202020264C2023206465646C6F66657361435F434B464E5F6E6568575F7365676E616843203B2020202020202020202038334531,
  0x574F4C454220454E494C2048544957204C2052455454454C204C415449504143204E4954414C20202020202020264C2023206465646C6F66657361435F434B464E5F6E6568575F7365676E616843203B2020202020202020202041334531,
  0x574F4C45422058454C464D55435249432048544957204C2052455454454C204C415449504143204E4954414C20202020202020264C2023206465646C6F66657361435F434B464E5F6E6568575F7365676E616843203B2020202020202020202043334531,
  0x45545543412048544957204D2052455454454C204C415449504143204E4954414C20202020202020264C2023206465646C6F66657361435F434B464E5F6E6568575F7365676E616843203B2020202020202020202045334531,
  0x45564F424120544F442048544957204D2052455454454C204C415449504143204E4954414C20202020202020264C2023206465646C6F66657361435F434B464E5F6E6568575F7365676E616843203B2020202020202020202030344531,
  0x574F4C454220544F442048544957204D2052455454454C204C415449504143204E4954414C20202020202020264C2023206465646C6F66657361435F434B464E5F6E6568575F7365676E616843203B2020202020202020202032344531,
  0x45564F424120544F442048544957204E2052455454454C204C415449504143204E4954414C20202020202020264C2023206465646C6F66657361435F434B464E5F6E6568575F7365676E616843203B2020202020202020202034344531,
  0x574F4C454220544F442048544957204E2052455454454C204C415449504143204E4954414C20202020202020264C2023206465646C6F66657361435F434B464E5F6E6568575F7365676E616843203B2020202020202020202036344531,
  0x574F4C454220454E494C2048544957204E2052455454454C204C415449504143204E4954414C20202020202020264C2023206465646C6F66657361435F434B464E5F6E6568575F7365676E616843203B2020202020202020202038344531,
  0x574F4C45422058454C464D55435249432048544957204E2052455454454C204C415449504143204E4954414C20202020202020264C2023206465646C6F66657361435F434B464E5F6E6568575F7365676E616843203B2020202020202020202041344531,
  0x455455434120444E412045444C49542048544957204F2052455454454C204C415449504143204E4954414C20202020202020264C2023206465646C6F66657361435F434B464E5F6E6568575F7365676E616843203B2020202020202020202043344531,
  0x53495345524541494420444E412045444C49542048544957204F2052455454454C204C415449504143204E4954414C20202020202020264C2023206465646C6F66657361435F434B464E5F6E6568575F7365676E616843203B2020202020202020202045344531,
  0x455641524720444E41204E4F5243414D2048544957204F2052455454454C204C415449504143204E4954414C20202020202020264C2023206465646C6F66657361435F434B464E5F6E6568575F7365676E616843203B2020202020202020202030354531,
  0x455455434120444E41204E4F5243414D2048544957204F2052455454454C204C415449504143204E4954414C20202020202020264C2023206465646C6F66657361435F434B464E5F6E6568575F7365676E616843203B2020202020202020202032354531,
  0x4554554341204854495720502052455454454C204C415449504143204E4954414C20202020202020264C2023206465646C6F66657361435F434B464E5F6E6568575F7365676E616843203B2020202020202020202034354531,
  0x45564F424120544F44204854495720502052455454454C204C415449504143204E4954414C20202020202020264C2023206465646C6F66657361435F434B464E5F6E6568575F7365676E616843203B2020202020202020202036354531,
  0x45564F424120544F44204854495720522052455454454C204C415449504143204E4954414C20202020202020264C2023206465646C6F66657361435F434B464E5F6E6568575F7365676E616843203B2020202020202020202038354531,
  0x574F4C454220544F44204854495720522052455454454C204C415449504143204E4954414C20202020202020264C2023206465646C6F66657361435F434B464E5F6E6568575F7365676E616843203B2020202020202020202041354531,
  0x4E4F5243414D20444E4120574F4C454220544F44204854495720522052455454454C204C415449504143204E4954414C20202020202020264C2023206465646C6F66657361435F434B464E5F6E6568575F7365676E616843203B2020202020202020202043354531,
  0x574F4C454220454E494C204854495720522052455454454C204C415449504143204E4954414C20202020202020264C2023206465646C6F66657361435F434B464E5F6E6568575F7365676E616843203B2020202020202020202045354531,
  0x45564F424120544F44204854495720532052455454454C204C415449504143204E4954414C20202020202020264C2023206465646C6F66657361435F434B464E5F6E6568575F7365676E616843203B2020202020202020202030364531,
  0x574F4C454220544F44204854495720532052455454454C204C415449504143204E4954414C20202020202020264C2023206465646C6F66657361435F434B464E5F6E6568575F7365676E616843203B2020202020202020202032364531,
  0x45564F424120544F4420444E41204554554341204854495720532052455454454C204C415449504143204E4954414C20202020202020264C2023206465646C6F66657361435F434B464E5F6E6568575F7365676E616843203B2020202020202020202034364531,
  0x45564F424120544F4420444E41204E4F524143204854495720532052455454454C204C415449504143204E4954414C20202020202020264C2023206465646C6F66657361435F434B464E5F6E6568575F7365676E616843203B2020202020202020202036364531,
  0x45564F424120544F4420444E4120574F4C454220544F44204854495720532052455454454C204C415449504143204E4954414C20202020202020264C2023206465646C6F66657361435F434B464E5F6E6568575F7365676E616843203B2020202020202020202038364531,
  0x45564F424120544F44204854495720542052455454454C204C415449504143204E4954414C20202020202020264C2023206465646C6F66657361435F434B464E5F6E6568575F7365676E616843203B2020202020202020202041364531,
  0x574F4C454220544F44204854495720542052455454454C204C415449504143204E4954414C20202020202020264C2023206465646C6F66657361435F434B464E5F6E6568575F7365676E616843203B2020202020202020202043364531,
  0x574F4C454220454E494C204854495720542052455454454C204C415449504143204E4954414C20202020202020264C2023206465646C6F66657361435F434B464E5F6E6568575F7365676E616843203B2020202020202020202045364531,
  0x574F4C45422058454C464D5543524943204854495720542052455454454C204C415449504143204E4954414C20202020202020264C2023206465646C6F66657361435F434B464E5F6E6568575F7365676E616843203B2020202020202020202030374531,
  0x574F4C454220534953455245414944204854495720552052455454454C204C415449504143204E4954414C20202020202020264C2023206465646C6F66657361435F434B464E5F6E6568575F7365676E616843203B2020202020202020202032374531,
  0x574F4C45422045444C4954204854495720552052455454454C204C415449504143204E4954414C20202020202020264C2023206465646C6F66657361435F434B464E5F6E6568575F7365676E616843203B2020202020202020202034374531,
  0x574F4C45422058454C464D5543524943204854495720552052455454454C204C415449504143204E4954414C20202020202020264C2023206465646C6F66657361435F434B464E5F6E6568575F7365676E616843203B2020202020202020202036374531,
  0x455455434120444E412045444C4954204854495720552052455454454C204C415449504143204E4954414C20202020202020264C2023206465646C6F66657361435F434B464E5F6E6568575F7365676E616843203B2020202020202020202038374531,
  0x53495345524541494420444E41204E4F5243414D204854495720552052455454454C204C415449504143204E4954414C20202020202020264C2023206465646C6F66657361435F434B464E5F6E6568575F7365676E616843203B2020202020202020202041374531,
  0x45444C4954204854495720562052455454454C204C415449504143204E4954414C20202020202020264C2023206465646C6F66657361435F434B464E5F6E6568575F7365676E616843203B2020202020202020202043374531,
  0x574F4C454220544F44204854495720562052455454454C204C415449504143204E4954414C20202020202020264C2023206465646C6F66657361435F434B464E5F6E6568575F7365676E616843203B2020202020202020202045374531,
  0x4556415247204854495720572052455454454C204C415449504143204E4954414C20202020202020264C2023206465646C6F66657361435F434B464E5F6E6568575F7365676E616843203B2020202020202020202030384531,
  0x4554554341204854495720572052455454454C204C415449504143204E4954414C20202020202020264C2023206465646C6F66657361435F434B464E5F6E6568575F7365676E616843203B2020202020202020202032384531,
  0x534953455245414944204854495720572052455454454C204C415449504143204E4954414C20202020202020264C2023206465646C6F66657361435F434B464E5F6E6568575F7365676E616843203B2020202020202020202034384531,
  0x45564F424120544F44204854495720572052455454454C204C415449504143204E4954414C20202020202020264C2023206465646C6F66657361435F434B464E5F6E6568575F7365676E616843203B2020202020202020202036384531,
  0x574F4C454220544F44204854495720572052455454454C204C415449504143204E4954414C20202020202020264C2023206465646C6F66657361435F434B464E5F6E6568575F7365676E616843203B2020202020202020202038384531,
  0x45564F424120544F44204854495720582052455454454C204C415449504143204E4954414C20202020202020264C2023206465646C6F66657361435F434B464E5F6E6568575F7365676E616843203B2020202020202020202041384531,
  0x534953455245414944204854495720582052455454454C204C415449504143204E4954414C20202020202020264C2023206465646C6F66657361435F434B464E5F6E6568575F7365676E616843203B2020202020202020202043384531,
  0x45564F424120544F44204854495720592052455454454C204C415449504143204E4954414C20202020202020264C2023206465646C6F66657361435F434B464E5F6E6568575F7365676E616843203B2020202020202020202045384531,
  0x58454C464D55435249432048544957205A2052455454454C204C415449504143204E4954414C20202020202020264C2023206465646C6F66657361435F434B464E5F6E6568575F7365676E616843203B2020202020202020202030394531,
  0x574F4C454220544F442048544957205A2052455454454C204C415449504143204E4954414C20202020202020264C2023206465646C6F66657361435F434B464E5F6E6568575F7365676E616843203B2020202020202020202032394531,
  0x574F4C454220454E494C2048544957205A2052455454454C204C415449504143204E4954414C20202020202020264C2023206465646C6F66657361435F434B464E5F6E6568575F7365676E616843203B2020202020202020202034394531]

def qcText37 : List Nat := [
  0x45564F424120544F442048544957205320474E4F4C2052455454454C204C4C414D53204E4954414C2E2E474E495220464C4148205448474952204854495720412052455454454C204C4C414D53204E4954414C205D325B202020264C2023206465646C6F66657361435F434B464E5F6E6568575F7365676E616843203B20202020423945312E2E41394531,
  0x532050524148532052455454454C204C415449504143204E4954414C20202020202020264C2023206465646C6F66657361435F434B464E5F6E6568575F7365676E616843203B2020202020202020202045394531,
  0x574F4C454220544F44204854495720412052455454454C204C415449504143204E4954414C20202020202020264C2023206465646C6F66657361435F434B464E5F6E6568575F7365676E616843203B2020202020202020202030414531,
  0x45564F4241204B4F4F48204854495720412052455454454C204C415449504143204E4954414C20202020202020264C2023206465646C6F66657361435F434B464E5F6E6568575F7365676E616843203B2020202020202020202032414531,
  0x455455434120444E412058454C464D5543524943204854495720412052455454454C204C415449504143204E4954414C20202020202020264C2023206465646C6F66657361435F434B464E5F6E6568575F7365676E616843203B2020202020202020202034414531,
  0x455641524720444E412058454C464D5543524943204854495720412052455454454C204C415449504143204E4954414C20202020202020264C2023206465646C6F66657361435F434B464E5F6E6568575F7365676E616843203B2020202020202020202036414531,
  0x45564F4241204B4F4F4820444E412058454C464D5543524943204854495720412052455454454C204C415449504143204E4954414C20202020202020264C2023206465646C6F66657361435F434B464E5F6E6568575F7365676E616843203B2020202020202020202038414531,
  0x45444C495420444E412058454C464D5543524943204854495720412052455454454C204C415449504143204E4954414C20202020202020264C2023206465646C6F66657361435F434B464E5F6E6568575F7365676E616843203B2020202020202020202041414531,
  0x574F4C454220544F4420444E412058454C464D5543524943204854495720412052455454454C204C415449504143204E4954414C20202020202020264C2023206465646C6F66657361435F434B464E5F6E6568575F7365676E616843203B2020202020202020202043414531,
  0x455455434120444E41204556455242204854495720412052455454454C204C415449504143204E4954414C20202020202020264C2023206465646C6F66657361435F434B464E5F6E6568575F7365676E616843203B2020202020202020202045414531,
  0x455641524720444E41204556455242204854495720412052455454454C204C415449504143204E4954414C20202020202020264C2023206465646C6F66657361435F434B464E5F6E6568575F7365676E616843203B2020202020202020202030424531,
  0x45564F4241204B4F4F4820444E41204556455242204854495720412052455454454C204C415449504143204E4954414C20202020202020264C2023206465646C6F66657361435F434B464E5F6E6568575F7365676E616843203B2020202020202020202032424531,
  0x45444C495420444E41204556455242204854495720412052455454454C204C415449504143204E4954414C20202020202020264C2023206465646C6F66657361435F434B464E5F6E6568575F7365676E616843203B2020202020202020202034424531,
  0x574F4C454220544F4420444E41204556455242204854495720412052455454454C204C415449504143204E4954414C20202020202020264C2023206465646C6F66657361435F434B464E5F6E6568575F7365676E616843203B2020202020202020202036424531,
  0x574F4C454220544F44204854495720452052455454454C204C415449504143204E4954414C20202020202020264C2023206465646C6F66657361435F434B464E5F6E6568575F7365676E616843203B2020202020202020202038424531,
  0x45564F4241204B4F4F48204854495720452052455454454C204C415449504143204E4954414C20202020202020264C2023206465646C6F66657361435F434B464E5F6E6568575F7365676E616843203B2020202020202020202041424531,
  0x45444C4954204854495720452052455454454C204C415449504143204E4954414C20202020202020264C2023206465646C6F66657361435F434B464E5F6E6568575F7365676E616843203B2020202020202020202043424531,
  0x455455434120444E412058454C464D5543524943204854495720452052455454454C204C415449504143204E4954414C20202020202020264C2023206465646C6F66657361435F434B464E5F6E6568575F7365676E616843203B2020202020202020202045424531,
  0x455641524720444E412058454C464D5543524943204854495720452052455454454C204C415449504143204E4954414C20202020202020264C2023206465646C6F66657361435F434B464E5F6E6568575F7365676E616843203B2020202020202020202030434531,
  0x45564F4241204B4F4F4820444E412058454C464D5543524943204854495720452052455454454C204C415449504143204E4954414C20202020202020264C2023206465646C6F66657361435F434B464E5F6E6568575F7365676E616843203B2020202020202020202032434531,
  0x45444C495420444E412058454C464D5543524943204854495720452052455454454C204C415449504143204E4954414C20202020202020264C2023206465646C6F66657361435F434B464E5F6E6568575F7365676E616843203B2020202020202020202034434531,
  0x574F4C454220544F4420444E412058454C464D5543524943204854495720452052455454454C204C415449504143204E4954414C20202020202020264C2023206465646C6F66657361435F434B464E5F6E6568575F7365676E616843203B2020202020202020202036434531,
  0x45564F4241204B4F4F48204854495720492052455454454C204C415449504143204E4954414C20202020202020264C2023206465646C6F66657361435F434B464E5F6E6568575F7365676E616843203B2020202020202020202038434531,
  0x574F4C454220544F44204854495720492052455454454C204C415449504143204E4954414C20202020202020264C2023206465646C6F66657361435F434B464E5F6E6568575F7365676E616843203B2020202020202020202041434531,
  0x574F4C454220544F442048544957204F2052455454454C204C415449504143204E4954414C20202020202020264C2023206465646C6F66657361435F434B464E5F6E6568575F7365676E616843203B2020202020202020202043434531,
  0x45564F4241204B4F4F482048544957204F2052455454454C204C415449504143204E4954414C20202020202020264C2023206465646C6F66657361435F434B464E5F6E6568575F7365676E616843203B2020202020202020202045434531,
  0x455455434120444E412058454C464D55435249432048544957204F2052455454454C204C415449504143204E4954414C20202020202020264C2023206465646C6F66657361435F434B464E5F6E6568575F7365676E616843203B2020202020202020202030444531,
  0x455641524720444E412058454C464D55435249432048544957204F2052455454454C204C415449504143204E4954414C20202020202020264C2023206465646C6F66657361435F434B464E5F6E6568575F7365676E616843203B2020202020202020202032444531,
  0x45564F4241204B4F4F4820444E412058454C464D55435249432048544957204F2052455454454C204C415449504143204E4954414C20202020202020264C2023206465646C6F66657361435F434B464E5F6E6568575F7365676E616843203B2020202020202020202034444531,
  0x45444C495420444E412058454C464D55435249432048544957204F2052455454454C204C415449504143204E4954414C20202020202020264C2023206465646C6F66657361435F434B464E5F6E6568575F7365676E616843203B2020202020202020202036444531,
  0x574F4C454220544F4420444E412058454C464D55435249432048544957204F2052455454454C204C415449504143204E4954414C20202020202020264C2023206465646C6F66657361435F434B464E5F6E6568575F7365676E616843203B2020202020202020202038444531,
  0x455455434120444E41204E524F482048544957204F2052455454454C204C415449504143204E4954414C20202020202020264C2023206465646C6F66657361435F434B464E5F6E6568575F7365676E616843203B2020202020202020202041444531,
  0x455641524720444E41204E524F482048544957204F2052455454454C204C415449504143204E4954414C20202020202020264C2023206465646C6F66657361435F434B464E5F6E6568575F7365676E616843203B2020202020202020202043444531,
  0x45564F4241204B4F4F4820444E41204E524F482048544957204F2052455454454C204C415449504143204E4954414C20202020202020264C2023206465646C6F66657361435F434B464E5F6E6568575F7365676E616843203B2020202020202020202045444531,
  0x45444C495420444E41204E524F482048544957204F2052455454454C204C415449504143204E4954414C20202020202020264C2023206465646C6F66657361435F434B464E5F6E6568575F7365676E616843203B2020202020202020202030454531,
  0x574F4C454220544F4420444E41204E524F482048544957204F2052455454454C204C415449504143204E4954414C20202020202020264C2023206465646C6F66657361435F434B464E5F6E6568575F7365676E616843203B2020202020202020202032454531,
  0x574F4C454220544F44204854495720552052455454454C204C415449504143204E4954414C20202020202020264C2023206465646C6F66657361435F434B464E5F6E6568575F7365676E616843203B2020202020202020202034454531,
  0x45564F4241204B4F4F48204854495720552052455454454C204C415449504143204E4954414C20202020202020264C2023206465646C6F66657361435F434B464E5F6E6568575F7365676E616843203B2020202020202020202036454531,
  0x455455434120444E41204E524F48204854495720552052455454454C204C415449504143204E4954414C20202020202020264C2023206465646C6F66657361435F434B464E5F6E6568575F7365676E616843203B2020202020202020202038454531,
  0x455641524720444E41204E524F48204854495720552052455454454C204C415449504143204E4954414C20202020202020264C2023206465646C6F66657361435F434B464E5F6E6568575F7365676E616843203B2020202020202020202041454531,
  0x45564F4241204B4F4F4820444E41204E524F48204854495720552052455454454C204C415449504143204E4954414C20202020202020264C2023206465646C6F66657361435F434B464E5F6E6568575F7365676E616843203B2020202020202020202043454531,
  0x45444C495420444E41204E524F48204854495720552052455454454C204C415449504143204E4954414C20202020202020264C2023206465646C6F66657361435F434B464E5F6E6568575F7365676E616843203B2020202020202020202045454531,
  0x574F4C454220544F4420444E41204E524F48204854495720552052455454454C204C415449504143204E4954414C20202020202020264C2023206465646C6F66657361435F434B464E5F6E6568575F7365676E616843203B2020202020202020202030464531,
  0x4556415247204854495720592052455454454C204C415449504143204E4954414C20202020202020264C2023206465646C6F66657361435F434B464E5F6E6568575F7365676E616843203B2020202020202020202032464531,
  0x574F4C454220544F44204854495720592052455454454C204C415449504143204E4954414C20202020202020264C2023206465646C6F66657361435F434B464E5F6E6568575F7365676E616843203B2020202020202020202034464531,
  0x45564F4241204B4F4F48204854495720592052455454454C204C415449504143204E4954414C20202020202020264C2023206465646C6F66657361435F434B464E5F6E6568575F7365676E616843203B2020202020202020202036464531,
  0x45444C4954204854495720592052455454454C204C415449504143204E4954414C20202020202020264C2023206465646C6F66657361435F434B464E5F6E6568575F7365676E616843203B2020202020202020202038464531,
  0x4C4C2048534C45572D454C4444494D2052455454454C204C415449504143204E4954414C20202020202020264C2023206465646C6F66657361435F434B464E5F6E6568575F7365676E616843203B2020202020202020202041464531,
  0x562048534C45572D454C4444494D2052455454454C204C415449504143204E4954414C20202020202020264C2023206465646C6F66657361435F434B464E5F6E6568575F7365676E616843203B2020202020202020202043464531,
  0x504F4F4C204854495720592052455454454C204C415449504143204E4954414C20202020202020264C2023206465646C6F66657361435F434B464E5F6E6568575F7365676E616843203B2020202020202020202045464531,
  0x494E454D4F50534952455020444E412041495341442048544957204148504C412052455454454C204C415449504143204B454552472E2E494C4953502048544957204148504C412052455454454C204C415449504143204B45455247205D385B202020264C2023206465646C6F66657361435F434B464E5F6E6568575F7365676E616843203B20202020463046312E2E38304631,
  0x4149584F20444E412041495341442048544957204E4F4C495350452052455454454C204C415449504143204B454552472E2E494C4953502048544957204E4F4C495350452052455454454C204C415449504143204B45455247205D365B202020264C2023206465646C6F66657361435F434B464E5F6E6568575F7365676E616843203B20202020443146312E2E38314631,
  0x494E454D4F50534952455020444E412041495341442048544957204154452052455454454C204C415449504143204B454552472E2E494C4953502048544957204154452052455454454C204C415449504143204B45455247205D385B202020264C2023206465646C6F66657361435F434B464E5F6E6568575F7365676E616843203B20202020463246312E2E38324631,
  0x494E454D4F50534952455020444E4120414953414420485449572041544F492052455454454C204C415449504143204B454552472E2E494C49535020485449572041544F492052455454454C204C415449504143204B45455247205D385B202020264C2023206465646C6F66657361435F434B464E5F6E6568575F7365676E616843203B20202020463346312E2E38334631,
  0x4149584F20444E412041495341442048544957204E4F5243494D4F2052455454454C204C415449504143204B454552472E2E494C4953502048544957204E4F5243494D4F2052455454454C204C415449504143204B45455247205D365B202020264C2023206465646C6F66657361435F434B464E5F6E6568575F7365676E616843203B20202020443446312E2E38344631,
  0x41495341442048544957204E4F4C495350552052455454454C204C415449504143204B4545524720202020202020264C2023206465646C6F66657361435F434B464E5F6E6568575F7365676E616843203B2020202020202020202039354631,
  0x414952415620444E412041495341442048544957204E4F4C495350552052455454454C204C415449504143204B4545524720202020202020264C2023206465646C6F66657361435F434B464E5F6E6568575F7365676E616843203B2020202020202020202042354631,
  0x4149584F20444E412041495341442048544957204E4F4C495350552052455454454C204C415449504143204B4545524720202020202020264C2023206465646C6F66657361435F434B464E5F6E6568575F7365676E616843203B2020202020202020202044354631,
  0x494E454D4F50534952455020444E412041495341442048544957204E4F4C495350552052455454454C204C415449504143204B4545524720202020202020264C2023206465646C6F66657361435F434B464E5F6E6568575F7365676E616843203B2020202020202020202046354631,
  0x494E454D4F50534952455020444E412041495341442048544957204147454D4F2052455454454C204C415449504143204B454552472E2E494C4953502048544957204147454D4F2052455454454C204C415449504143204B45455247205D385B202020264C2023206465646C6F66657361435F434B464E5F6E6568575F7365676E616843203B20202020463646312E2E38364631,
  0x4149584F2048544957204148504C412052455454454C204C4C414D53204B4545524720202020202020264C2023206465646C6F66657361435F434B464E5F6E6568575F7365676E616843203B2020202020202020202031374631,
  0x4149584F2048544957204E4F4C495350452052455454454C204C4C414D53204B4545524720202020202020264C2023206465646C6F66657361435F434B464E5F6E6568575F7365676E616843203B2020202020202020202033374631,
  0x4149584F2048544957204154452052455454454C204C4C414D53204B4545524720202020202020264C2023206465646C6F66657361435F434B464E5F6E6568575F7365676E616843203B2020202020202020202035374631,
  0x4149584F20485449572041544F492052455454454C204C4C414D53204B4545524720202020202020264C2023206465646C6F66657361435F434B464E5F6E6568575F7365676E616843203B2020202020202020202037374631,
  0x4149584F2048544957204E4F5243494D4F2052455454454C204C4C414D53204B4545524720202020202020264C2023206465646C6F66657361435F434B464E5F6E6568575F7365676E616843203B2020202020202020202039374631,
  0x4149584F2048544957204E4F4C495350552052455454454C204C4C414D53204B4545524720202020202020264C2023206465646C6F66657361435F434B464E5F6E6568575F7365676E616843203B2020202020202020202042374631,
  0x4149584F2048544957204147454D4F2052455454454C204C4C414D53204B4545524720202020202020264C2023206465646C6F66657361435F434B464E5F6E6568575F7365676E616843203B2020202020202020202044374631,
  0x494E454D4D4152474547534F525020444E4120494E454D4F50534952455020444E412041495341442048544957204147454D4F2052455454454C204C415449504143204B454552472E2E494E454D4D41524745474F505920444E4120494C4953502048544957204148504C412052455454454C204C4C414D53204B45455247205D38345B2020264C2023206465646C6F66657361435F434B464E5F6E6568575F7365676E616843203B20202020464146312E2E30384631,
  0x494E454D4D41524745474F505920444E41204149584F2048544957204148504C412052455454454C204C4C414D53204B454552472E2E494E454D4D41524745474F505920444E412041495241562048544957204148504C412052455454454C204C4C414D53204B45455247205D335B202020264C2023206465646C6F66657361435F434B464E5F6E6568575F7365676E616843203B20202020344246312E2E32424631,
  0x494E454D4D4152474547534F52502048544957204148504C412052455454454C204C415449504143204B454552472E2E494E454D4D41524745474F505920444E4120494E454D4F5053495245502048544957204148504C412052455454454C204C4C414D53204B45455247205D365B202020264C2023206465646C6F66657361435F434B464E5F6E6568575F7365676E616843203B20202020434246312E2E37424631,
  0x53494E4F524F4B204B45455247202020202020206B532023206465646C6F66657361435F434B464E5F6E6568575F7365676E616843203B2020202020202020202044424631,
  0x494E454D4D4152474547534F5250204B4545524720202020202020264C2023206465646C6F66657361435F434B464E5F6E6568575F7365676E616843203B2020202020202020202045424631,
  0x494E454D4F50534952455020444E4120414B4954594C414944204B454552472E2E494C495350204B45455247205D335B2020206B532023206465646C6F66657361435F434B464E5F6E6568575F7365676E616843203B20202020314346312E2E46424631,
  0x494E454D4D41524745474F505920444E41204149584F2048544957204154452052455454454C204C4C414D53204B454552472E2E494E454D4D41524745474F505920444E412041495241562048544957204154452052455454454C204C4C414D53204B45455247205D335B202020264C2023206465646C6F66657361435F434B464E5F6E6568575F7365676E616843203B20202020344346312E2E32434631,
  0x494E454D4D4152474547534F52502048544957204154452052455454454C204C415449504143204B454552472E2E494E454D4D41524745474F505920444E4120494E454D4F5053495245502048544957204154452052455454454C204C4C414D53204B45455247205D365B202020264C2023206465646C6F66657361435F434B464E5F6E6568575F7365676E616843203B20202020434346312E2E37434631,
  0x494E454D4F50534952455020444E4120494C495350204B454552472E2E414952415620444E4120494C495350204B45455247205D335B2020206B532023206465646C6F66657361435F434B464E5F6E6568575F7365676E616843203B20202020464346312E2E44434631,
  0x4149584F20444E4120414B4954594C41494420485449572041544F492052455454454C204C4C414D53204B4545524720202020202020264C2023206465646C6F66657361435F434B464E5F6E6568575F7365676E616843203B2020202020202020202033444631,
  0x4149584F20485449572041544F492052455454454C204C415449504143204B454552472E2E59484341525620485449572041544F492052455454454C204C415449504143204B45455247205D345B202020264C2023206465646C6F66657361435F434B464E5F6E6568575F7365676E616843203B20202020424446312E2E38444631,
  0x494E454D4F50534952455020444E41204149534144204B454552472E2E414952415620444E41204149534144204B45455247205D335B2020206B532023206465646C6F66657361435F434B464E5F6E6568575F7365676E616843203B20202020464446312E2E44444631,
  0x4149584F20444E4120414B4954594C4149442048544957204E4F4C495350552052455454454C204C4C414D53204B4545524720202020202020264C2023206465646C6F66657361435F434B464E5F6E6568575F7365676E616843203B2020202020202020202033454631,
  0x41495341442048544957204F48522052455454454C204C415449504143204B454552472E2E5948434152562048544957204E4F4C495350552052455454454C204C415449504143204B45455247205D355B202020264C2023206465646C6F66657361435F434B464E5F6E6568575F7365676E616843203B20202020434546312E2E38454631,
  0x4149524156204B454552472E2E414952415620444E4120414B4954594C414944204B45455247205D335B2020206B532023206465646C6F66657361435F434B464E5F6E6568575F7365676E616843203B20202020464546312E2E44454631,
  0x494E454D4D41524745474F505920444E41204149584F2048544957204147454D4F2052455454454C204C4C414D53204B454552472E2E494E454D4D41524745474F505920444E412041495241562048544957204147454D4F2052455454454C204C4C414D53204B45455247205D335B202020264C2023206465646C6F66657361435F434B464E5F6E6568575F7365676E616843203B20202020344646312E2E32464631,
  0x494E454D4D4152474547534F52502048544957204147454D4F2052455454454C204C415449504143204B454552472E2E494E454D4D41524745474F505920444E4120494E454D4F5053495245502048544957204147454D4F2052455454454C204C4C414D53204B45455247205D365B202020264C2023206465646C6F66657361435F434B464E5F6E6568575F7365676E616843203B20202020434646312E2E37464631,
  0x4149534144204B454552472E2E4149584F204B45455247205D325B2020206B532023206465646C6F66657361435F434B464E5F6E6568575F7365676E616843203B20202020454646312E2E44464631,
  0x454341505320524941482E2E44415551204E45205D31315B2020735A2023206465646C6F66657361435F434B464E5F6E6568575F7365676E616843203B20202020413030322E2E30303032,
  0x4B52414D205446454C2D4F542D54484749522E2E4543415053204854444957204F52455A205D355B20202066432023206465646C6F66657361435F434B464E5F6E6568575F7365676E616843203B20202020463030322E2E42303032,
  0x4E454850594820474E494B414552422D4E4F4E2020202020202064502023206465646C6F66657361435F434B464E5F6E6568575F7365676E616843203B2020202020202020202031313032,
  0x454E494C20574F4C20454C42554F44202020202020206F502023206465646C6F66657361435F434B464E5F6E6568575F7365676E616843203B2020202020202020202037313032,
  0x53495350494C4C45204C41544E4F5A49524F482E2E52454441454C20544F4420454E4F205D335B2020206F502023206465646C6F66657361435F434B464E5F6E6568575F7365676E616843203B20202020363230322E2E34323032,
  0x454449525245564F205446454C2D4F542D54484749522E2E474E49444445424D452054484749522D4F542D5446454C205D355B20202066432023206465646C6F66657361435F434B464E5F6E6568575F7365676E616843203B20202020453230322E2E41323032,
  0x4543415053204B414552422D4F4E20574F5252414E20202020202020735A2023206465646C6F66657361435F434B464E5F6E6568575F7365676E616843203B2020202020202020202046323032,
  0x454D49525020454C504952542E2E454D49525020454C42554F44205D325B2020206F502023206465646C6F66657361435F434B464E5F6E6568575F7365676E616843203B20202020343330322E2E33333032,
  0x454D49525020454C504952542044455352455645522E2E454D49525020454C42554F44204445535245564552205D325B2020206F502023206465646C6F66657361435F434B464E5F6E6568575F7365676E616843203B20202020373330322E2E36333032,
  0x4B52414D204E4F4954414D414C43584520454C42554F44202020202020206F502023206465646C6F66657361435F434B464E5F6E6568575F7365676E616843203B2020202020202020202043333032,
  0x454E494C5245564F202020202020206F502023206465646C6F66657361435F434B464E5F6E6568575F7365676E616843203B2020202020202020202045333032,
  0x4B52414D204E4F495453455551204E4F4954414D414C4358452E2E4B52414D204E4F49545345555120454C42554F44205D335B2020206F502023206465646C6F66657361435F434B464E5F6E6568575F7365676E616843203B20202020393430322E2E37343032,
  0x454D49525020454C50555244415551202020202020206F502023206465646C6F66657361435F434B464E5F6E6568575F7365676E616843203B2020202020202020202037353032,
  0x4543415053204C41434954414D454854414D204D554944454D20202020202020735A2023206465646C6F66657361435F434B464E5F6E6568575F7365676E616843203B2020202020202020202046353032,
  0x53554C5020454C42495349564E492E2E52454E494F4A2044524F57205D355B20202066432023206465646C6F66657361435F434B464E5F6E6568575F7365676E616843203B20202020343630322E2E30363032,
  0x3E353630322D64657672657365723C202020202020206E432023206465646C6F66657361435F434B464E5F6E6568575F7365676E616843203B2020202020202020202035363032,
  0x534550414853205449474944204C414E494D4F4E2E2E4554414C4F53492054484749522D4F542D5446454C205D30315B202066432023206465646C6F66657361435F434B464E5F6E6568575F7365676E616843203B20202020463630322E2E36363032,
  0x4F52455A205450495243535245505553202020202020206F4E2023206465646C6F66657361435F434B464E5F6E6568575F7365676E616843203B2020202020202020202030373032,
  0x492052455454454C204C4C414D53204E4954414C205450495243535245505553202020202020206D4C2023206465646C6F66657361435F434B464E5F6E6568575F7365676E616843203B2020202020202020202031373032,
  0x454E494E2054504952435352455055532E2E52554F46205450495243535245505553205D365B2020206F4E2023206465646C6F66657361435F434B464E5F6E6568575F7365676E616843203B20202020393730322E2E34373032,
  0x4E47495320534C415551452054504952435352455055532E2E4E4749532053554C50205450495243535245505553205D335B2020206D532023206465646C6F66657361435F434B464E5F6E6568575F7365676E616843203B20202020433730322E2E41373032,
  0x5349534548544E45524150205446454C2054504952435352455055532020202020202073502023206465646C6F66657361435F434B464E5F6E6568575F7365676E616843203B2020202020202020202044373032,
  0x5349534548544E455241502054484749522054504952435352455055532020202020202065502023206465646C6F66657361435F434B464E5F6E6568575F7365676E616843203B2020202020202020202045373032,
  0x4E2052455454454C204C4C414D53204E4954414C205450495243535245505553202020202020206D4C2023206465646C6F66657361435F434B464E5F6E6568575F7365676E616843203B2020202020202020202046373032,
  0x454E494E205450495243534255532E2E4F52455A20545049524353425553205D30315B20206F4E2023206465646C6F66657361435F434B464E5F6E6568575F7365676E616843203B20202020393830322E2E30383032,
  0x4E47495320534C41555145205450495243534255532E2E4E4749532053554C5020545049524353425553205D335B2020206D532023206465646C6F66657361435F434B464E5F6E6568575F7365676E616843203B20202020433830322E2E41383032,
  0x5349534548544E45524150205446454C205450495243534255532020202020202073502023206465646C6F66657361435F434B464E5F6E6568575F7365676E616843203B2020202020202020202044383032,
  0x5349534548544E45524150205448474952205450495243534255532020202020202065502023206465646C6F66657361435F434B464E5F6E6568575F7365676E616843203B2020202020202020202045383032,
  0x542052455454454C204C4C414D5320545049524353425553204E4954414C2E2E412052455454454C204C4C414D5320545049524353425553204E4954414C205D33315B20206D4C2023206465646C6F66657361435F434B464E5F6E6568575F7365676E616843203B20202020433930322E2E30393032,
  0x4E4749532045455055522020202020202063532023206465646C6F66657361435F434B464E5F6E6568575F7365676E616843203B2020202020202020202038413032,
  0x5443454A42555320454854204F54204445535345524444412E2E464F20544E554F434341205D325B2020206F532023206465646C6F66657361435F434B464E5F6E6568575F7365676E616843203B20202020313031322E2E30303132,
  0x43204C415449504143204B43555254532D454C42554F4420202020202020264C2023206465646C6F66657361435F434B464E5F6E6568575F7365676E616843203B2020202020202020202032303132,
  0x535549534C454320454552474544202020202020206F532023206465646C6F66657361435F434B464E5F6E6568575F7365676E616843203B2020202020202020202033303132,
  0x414E5520414441432E2E464F2045524143205D325B2020206F532023206465646C6F66657361435F434B464E5F6E6568575F7365676E616843203B20202020363031322E2E35303132,
  0x544E4154534E4F432052454C554520202020202020264C2023206465646C6F66657361435F434B464E5F6E6568575F7365676E616843203B2020202020202020202037303132,
  0x544945484E455248414620454552474544202020202020206F532023206465646C6F66657361435F434B464E5F6E6568575F7365676E616843203B2020202020202020202039303132,
  0x4C204C4C414D53205450495243532E2E47204C4C414D5320545049524353205D30315B2020264C2023206465646C6F66657361435F434B464E5F6E6568575F7365676E616843203B20202020333131322E2E41303132,
  0x4E204C415449504143204B43555254532D454C42554F4420202020202020264C2023206465646C6F66657361435F434B464E5F6E6568575F7365676E616843203B2020202020202020202035313132,
  0x4E474953204F52454D554E202020202020206F532023206465646C6F66657361435F434B464E5F6E6568575F7365676E616843203B2020202020202020202036313132,
  0x52204C415449504143204B43555254532D454C42554F442E2E50204C415449504143204B43555254532D454C42554F44205D355B202020264C2023206465646C6F66657361435F434B464E5F6E6568575F7365676E616843203B20202020443131322E2E39313132,
  0x4E474953204B52414D2045444152542E2E4B52414D2045434956524553205D335B2020206F532023206465646C6F66657361435F434B464E5F6E6568575F7365676E616843203B20202020323231322E2E30323132,
  0x5A204C415449504143204B43555254532D454C42554F4420202020202020264C2023206465646C6F66657361435F434B464E5F6E6568575F7365676E616843203B2020202020202020202034323132,
  0x4E474953204D484F20202020202020264C2023206465646C6F66657361435F434B464E5F6E6568575F7365676E616843203B2020202020202020202036323132,
  0x5A204C4154495041432052455454454C2D4B43414C4220202020202020264C2023206465646C6F66657361435F434B464E5F6E6568575F7365676E616843203B2020202020202020202038323132,
  0x43204C4154495041432052455454454C2D4B43414C422E2E4E474953204E49564C454B205D345B202020264C2023206465646C6F66657361435F434B464E5F6E6568575F7365676E616843203B20202020443231322E2E41323132,
  0x4F204C4C414D53205450495243532E2E45204C4C414D5320545049524353205D365B202020264C2023206465646C6F66657361435F434B464E5F6E6568575F7365676E616843203B20202020343331322E2E46323132,
  0x4C4F424D59532054454C41442E2E4C4F424D59532046454C41205D345B2020206F4C2023206465646C6F66657361435F434B464E5F6E6568575F7365676E616843203B20202020383331322E2E35333132,
  0x454352554F53204E4F4954414D524F464E4920202020202020264C2023206465646C6F66657361435F434B464E5F6E6568575F7365676E616843203B2020202020202020202039333132,
  0x4E47495320454C494D4953434146202020202020206F532023206465646C6F66657361435F434B464E5F6E6568575F7365676E616843203B2020202020202020202042333132,
  0x4950204C415449504143204B43555254532D454C42554F442E2E4950204C4C414D53204B43555254532D454C42554F44205D345B202020264C2023206465646C6F66657361435F434B464E5F6E6568575F7365676E616843203B20202020463331322E2E43333132,
  0x4E4F4954414D4D5553205952412D4E204B43555254532D454C42554F44202020202020206D532023206465646C6F66657361435F434B464E5F6E6568575F7365676E616843203B2020202020202020202030343132,
  0x4A204C4C414D532043494C415449204B43555254532D454C42554F442E2E44204C4154495041432043494C415449204B43555254532D454C42554F44205D355B202020264C2023206465646C6F66657361435F434B464E5F6E6568575F7365676E616843203B20202020393431322E2E35343132,
  0x454E4F20524F544152454D554E204E4F4954434152462E2E48544E4556455320454E4F204E4F495443415246205241474C5556205D36315B20206F4E2023206465646C6F66657361435F434B464E5F6E6568575F7365676E616843203B20202020463531322E2E30353132,
  0x444E4153554F485420454E4F204C4152454D554E204E414D4F52204C4C414D532E2E454E4F204C4152454D554E204E414D4F52205D32335B20206C4E2023206465646C6F66657361435F434B464E5F6E6568575F7365676E616843203B20202020463731322E2E30363132,
  0x444552444E554820454E4F204445535245564552204C4152454D554E204E414D4F5220202020202020264C2023206465646C6F66657361435F434B464E5F6E6568575F7365676E616843203B2020202020202020202033383132,
  0x534452494854204F52455A204E4F495443415246205241474C5556202020202020206F4E2023206465646C6F66657361435F434B464E5F6E6568575F7365676E616843203B2020202020202020202039383132,
  0x4C41524745544E4920454C504952542E2E4C41524745544E4920454C42554F44205D325B2020206D532023206465646C6F66657361435F434B464E5F6E6568575F7365676E616843203B20202020443232322E2E43323232,
  0x4C41524745544E4920454D554C4F562E2E4C41524745544E492045434146525553205D325B2020206D532023206465646C6F66657361435F434B464E5F6E6568575F7365676E616843203B20202020303332322E2E46323232,
  0x54454B4341524220454C474E4120474E49544E494F502D5446454C2020202020202073502023206465646C6F66657361435F434B464E5F6E6568575F7365676E616843203B2020202020202020202039323332,
  0x54454B4341524220454C474E4120474E49544E494F502D54484749522020202020202065502023206465646C6F66657361435F434B464E5F6E6568575F7365676E616843203B2020202020202020202041323332,
  0x504F5453204C4C55462059544E455754205245424D554E2E2E454E4F2054494749442044454C43524943205D30365B20206F4E2023206465646C6F66657361435F434B464E5F6E6568575F7365676E616843203B20202020423934322E2E30363432,
  0x5A2052455454454C204C4C414D53204E4954414C2044454C435249432E2E412052455454454C204C4C414D53204E4954414C2044455A49534548544E45524150205D38375B20206F532023206465646C6F66657361435F434B464E5F6E6568575F7365676E616843203B20202020394534322E2E43393432,
  0x4F52455A2054494749442044454C43524943202020202020206F4E2023206465646C6F66657361435F434B464E5F6E6568575F7365676E616843203B2020202020202020202041453432,
  0x524F54415245504F204C41524745544E4920454C50555244415551202020202020206D532023206465646C6F66657361435F434B464E5F6E6568575F7365676E616843203B2020202020202020202043304132,
  0x534E47495320534C415551452045564954554345534E4F432045455248542E2E4C41555145204E4F4C4F4320454C42554F44205D335B2020206D532023206465646C6F66657361435F434B464E5F6E6568575F7365676E616843203B20202020363741322E2E34374132,
  0x474E494B524F46202020202020206D532023206465646C6F66657361435F434B464E5F6E6568575F7365676E616843203B2020202020202020202043444132,
  0x4554494C53594D204554414E4954414C2052455454454C204C41544950414320434954494C4F47414C472E2E555A412052455454454C204C41544950414320434954494C4F47414C47205D37345B2020264C2023206465646C6F66657361435F434B464E5F6E6568575F7365676E616843203B20202020453243322E2E30304332,
  0x52414220454C42554F442048544957204C2052455454454C204C415449504143204E4954414C20202020202020264C2023206465646C6F66657361435F434B464E5F6E6568575F7365676E616843203B2020202020202020202030364332,
  0x4C494154204854495720522052455454454C204C415449504143204E4954414C2E2E45444C495420454C4444494D2048544957204C2052455454454C204C415449504143204E4954414C205D335B202020264C2023206465646C6F66657361435F434B464E5F6E6568575F7365676E616843203B20202020343643322E2E32364332,
  0x5245444E4543534544204854495720482052455454454C204C415449504143204E4954414C20202020202020264C2023206465646C6F66657361435F434B464E5F6E6568575F7365676E616843203B2020202020202020202037364332,
  0x5245444E45435345442048544957204B2052455454454C204C415449504143204E4954414C20202020202020264C2023206465646C6F66657361435F434B464E5F6E6568575F7365676E616843203B2020202020202020202039364332,
  0x5245444E45435345442048544957205A2052455454454C204C415449504143204E4954414C20202020202020264C2023206465646C6F66657361435F434B464E5F6E6568575F7365676E616843203B2020202020202020202042364332,
  0x4148504C412044454E5255542052455454454C204C415449504143204E4954414C2E2E4148504C412052455454454C204C415449504143204E4954414C205D345B202020264C2023206465646C6F66657361435F434B464E5F6E6568575F7365676E616843203B20202020303743322E2E44364332,
  0x4B4F4F48204854495720572052455454454C204C415449504143204E4954414C20202020202020264C2023206465646C6F66657361435F434B464E5F6E6568575F7365676E616843203B2020202020202020202032374332,
  0x4820464C41482052455454454C204C415449504143204E4954414C20202020202020264C2023206465646C6F66657361435F434B464E5F6E6568575F7365676E616843203B2020202020202020202035374332,
  0x56204C4154495041432052455454454C205245494649444F4D2E2E4A2052455454454C204C4C414D5320545049524353425553204E4954414C205D325B2020206D4C2023206465646C6F66657361435F434B464E5F6E6568575F7365676E616843203B20202020443743322E2E43374332,
  0x41464C412052455454454C204C41544950414320434954504F432E2E4C494154204853415753204854495720532052455454454C204C415449504143204E4954414C205D335B202020264C2023206465646C6F66657361435F434B464E5F6E6568575F7365676E616843203B20202020303843322E2E45374332,
  0x414449562052455454454C204C41544950414320434954504F4320202020202020264C2023206465646C6F66657361435F434B464E5F6E6568575F7365676E616843203B2020202020202020202032384332,
  0x414D4D41472052455454454C204C41544950414320434954504F4320202020202020264C2023206465646C6F66657361435F434B464E5F6E6568575F7365676E616843203B2020202020202020202034384332,
  0x41444C41442052455454454C204C41544950414320434954504F4320202020202020264C2023206465646C6F66657361435F434B464E5F6E6568575F7365676E616843203B2020202020202020202036384332,
  0x4549452052455454454C204C41544950414320434954504F4320202020202020264C2023206465646C6F66657361435F434B464E5F6E6568575F7365676E616843203B2020202020202020202038384332,
  0x554F532052455454454C204C41544950414320434954504F4320202020202020264C2023206465646C6F66657361435F434B464E5F6E6568575F7365676E616843203B2020202020202020202041384332,
  0x4154415A2052455454454C204C41544950414320434954504F4320202020202020264C2023206465646C6F66657361435F434B464E5F6E6568575F7365676E616843203B2020202020202020202043384332,
  0x455441482052455454454C204C41544950414320434954504F4320202020202020264C2023206465646C6F66657361435F434B464E5F6E6568575F7365676E616843203B2020202020202020202045384332,
  0x4548544548542052455454454C204C41544950414320434954504F4320202020202020264C2023206465646C6F66657361435F434B464E5F6E6568575F7365676E616843203B2020202020202020202030394332,
  0x41445541492052455454454C204C41544950414320434954504F4320202020202020264C2023206465646C6F66657361435F434B464E5F6E6568575F7365676E616843203B2020202020202020202032394332,
  0x4150414B2052455454454C204C41544950414320434954504F4320202020202020264C2023206465646C6F66657361435F434B464E5F6E6568575F7365676E616843203B2020202020202020202034394332,
  0x414C55414C2052455454454C204C41544950414320434954504F4320202020202020264C2023206465646C6F66657361435F434B464E5F6E6568575F7365676E616843203B2020202020202020202036394332,
  0x494D2052455454454C204C41544950414320434954504F4320202020202020264C2023206465646C6F66657361435F434B464E5F6E6568575F7365676E616843203B2020202020202020202038394332,
  0x494E2052455454454C204C41544950414320434954504F4320202020202020264C2023206465646C6F66657361435F434B464E5F6E6568575F7365676E616843203B2020202020202020202041394332,
  0x49534B2052455454454C204C41544950414320434954504F4320202020202020264C2023206465646C6F66657361435F434B464E5F6E6568575F7365676E616843203B2020202020202020202043394332,
  0x4F2052455454454C204C41544950414320434954504F4320202020202020264C2023206465646C6F66657361435F434B464E5F6E6568575F7365676E616843203B2020202020202020202045394332,
  0x49502052455454454C204C41544950414320434954504F4320202020202020264C2023206465646C6F66657361435F434B464E5F6E6568575F7365676E616843203B2020202020202020202030414332,
  0x4F522052455454454C204C41544950414320434954504F4320202020202020264C2023206465646C6F66657361435F434B464E5F6E6568575F7365676E616843203B2020202020202020202032414332,
  0x414D49532052455454454C204C41544950414320434954504F4320202020202020264C2023206465646C6F66657361435F434B464E5F6E6568575F7365676E616843203B2020202020202020202034414332,
  0x5541542052455454454C204C41544950414320434954504F4320202020202020264C2023206465646C6F66657361435F434B464E5F6E6568575F7365676E616843203B2020202020202020202036414332,
  0x41552052455454454C204C41544950414320434954504F4320202020202020264C2023206465646C6F66657361435F434B464E5F6E6568575F7365676E616843203B2020202020202020202038414332,
  0x49462052455454454C204C41544950414320434954504F4320202020202020264C2023206465646C6F66657361435F434B464E5F6E6568575F7365676E616843203B2020202020202020202041414332,
  0x49484B2052455454454C204C41544950414320434954504F4320202020202020264C2023206465646C6F66657361435F434B464E5F6E6568575F7365676E616843203B2020202020202020202043414332,
  0x4953502052455454454C204C41544950414320434954504F4320202020202020264C2023206465646C6F66657361435F434B464E5F6E6568575F7365676E616843203B2020202020202020202045414332,
  0x554F4F2052455454454C204C41544950414320434954504F4320202020202020264C2023206465646C6F66657361435F434B464E5F6E6568575F7365676E616843203B2020202020202020202030424332,
  0x46454C4120502D5443454C4149442052455454454C204C41544950414320434954504F4320202020202020264C2023206465646C6F66657361435F434B464E5F6E6568575F7365676E616843203B2020202020202020202032424332,
  0x4E494120434954504F4320444C4F2052455454454C204C41544950414320434954504F4320202020202020264C2023206465646C6F66657361435F434B464E5F6E6568575F7365676E616843203B2020202020202020202034424332,
  0x4549452043494D4D4152474F54505952432052455454454C204C41544950414320434954504F4320202020202020264C2023206465646C6F66657361435F434B464E5F6E6568575F7365676E616843203B2020202020202020202036424332,
  0x4150414B20502D5443454C4149442052455454454C204C41544950414320434954504F4320202020202020264C2023206465646C6F66657361435F434B464E5F6E6568575F7365676E616843203B2020202020202020202038424332,
  0x494E20502D5443454C4149442052455454454C204C41544950414320434954504F4320202020202020264C2023206465646C6F66657361435F434B464E5F6E6568575F7365676E616843203B2020202020202020202041424332,
  0x494E2043494D4D4152474F54505952432052455454454C204C41544950414320434954504F4320202020202020264C2023206465646C6F66657361435F434B464E5F6E6568575F7365676E616843203B2020202020202020202043424332,
  0x554F4F20434954504F4320444C4F2052455454454C204C41544950414320434954504F4320202020202020264C2023206465646C6F66657361435F434B464E5F6E6568575F7365676E616843203B2020202020202020202045424332,
  0x49504D41532052455454454C204C41544950414320434954504F4320202020202020264C2023206465646C6F66657361435F434B464E5F6E6568575F7365676E616843203B2020202020202020202030434332,
  0x4945485320444553534F52432052455454454C204C41544950414320434954504F4320202020202020264C2023206465646C6F66657361435F434B464E5F6E6568575F7365676E616843203B2020202020202020202032434332,
  0x4945485320434954504F4320444C4F2052455454454C204C41544950414320434954504F4320202020202020264C2023206465646C6F66657361435F434B464E5F6E6568575F7365676E616843203B2020202020202020202034434332,
  0x48534520434954504F4320444C4F2052455454454C204C41544950414320434954504F4320202020202020264C2023206465646C6F66657361435F434B464E5F6E6568575F7365676E616843203B2020202020202020202036434332,
  0x4945484B2043494D494D484B412052455454454C204C41544950414320434954504F4320202020202020264C2023206465646C6F66657361435F434B464E5F6E6568575F7365676E616843203B2020202020202020202038434332,
  0x49524F4820502D5443454C4149442052455454454C204C41544950414320434954504F4320202020202020264C2023206465646C6F66657361435F434B464E5F6E6568575F7365676E616843203B2020202020202020202041434332,
  0x49524F4820434954504F4320444C4F2052455454454C204C41544950414320434954504F4320202020202020264C2023206465646C6F66657361435F434B464E5F6E6568575F7365676E616843203B2020202020202020202043434332,
  0x414820434954504F4320444C4F2052455454454C204C41544950414320434954504F4320202020202020264C2023206465646C6F66657361435F434B464E5F6E6568575F7365676E616843203B2020202020202020202045434332,
  0x4148204445504148532D4C2052455454454C204C41544950414320434954504F4320202020202020264C2023206465646C6F66657361435F434B464E5F6E6568575F7365676E616843203B2020202020202020202030444332,
  0x49454820434954504F4320444C4F2052455454454C204C41544950414320434954504F4320202020202020264C2023206465646C6F66657361435F434B464E5F6E6568575F7365676E616843203B2020202020202020202032444332,
  0x54414820434954504F4320444C4F2052455454454C204C41544950414320434954504F4320202020202020264C2023206465646C6F66657361435F434B464E5F6E6568575F7365676E616843203B2020202020202020202034444332,
  0x4149474E414720434954504F4320444C4F2052455454454C204C41544950414320434954504F4320202020202020264C2023206465646C6F66657361435F434B464E5F6E6568575F7365676E616843203B2020202020202020202036444332,
  0x414A4420434954504F4320444C4F2052455454454C204C41544950414320434954504F4320202020202020264C2023206465646C6F66657361435F434B464E5F6E6568575F7365676E616843203B2020202020202020202038444332,
  0x414D49485320434954504F4320444C4F2052455454454C204C41544950414320434954504F4320202020202020264C2023206465646C6F66657361435F434B464E5F6E6568575F7365676E616843203B2020202020202020202041444332,
  0x414D494853204E414942554E20444C4F2052455454454C204C41544950414320434954504F4320202020202020264C2023206465646C6F66657361435F434B464E5F6E6568575F7365676E616843203B2020202020202020202043444332,
  0x49474E204E414942554E20444C4F2052455454454C204C41544950414320434954504F4320202020202020264C2023206465646C6F66657361435F434B464E5F6E6568575F7365676E616843203B2020202020202020202045444332,
  0x49594E204E414942554E20444C4F2052455454454C204C41544950414320434954504F4320202020202020264C2023206465646C6F66657361435F434B464E5F6E6568575F7365676E616843203B2020202020202020202030454332,
  0x554157204E414942554E20444C4F2052455454454C204C41544950414320434954504F4320202020202020264C2023206465646C6F66657361435F434B464E5F6E6568575F7365676E616843203B2020202020202020202032454332,
  0x494548532043494D4D4152474F54505952432052455454454C204C41544950414320434954504F4320202020202020264C2023206465646C6F66657361435F434B464E5F6E6568575F7365676E616843203B2020202020202020202042454332,
  0x4149474E41472043494D4D4152474F54505952432052455454454C204C41544950414320434954504F4320202020202020264C2023206465646C6F66657361435F434B464E5F6E6568575F7365676E616843203B2020202020202020202044454332,
  0x4945484B204349524941484F422052455454454C204C41544950414320434954504F4320202020202020264C2023206465646C6F66657361435F434B464E5F6E6568575F7365676E616843203B2020202020202020202032464332,
  0x4B52414D204E4F4954415A494C414942414C2052455454454C205245494649444F4D204847414E49464954202020202020206D4C2023206465646C6F66657361435F434B464E5F6E6568575F7365676E616843203B2020202020202020202046364432,
  0x524548544F4D204C414349444152204B4A43202020202020206F532023206465646C6F66657361435F434B464E5F6E6568575F7365676E616843203B2020202020202020202046394532,
  0x454C545255542044454946494C504D49532D43204C414349444152204B4A43202020202020206F532023206465646C6F66657361435F434B464E5F6E6568575F7365676E616843203B2020202020202020202033464532,
  0x4554554C46204C414349444152204958474E414B2E2E454E4F204C414349444152204958474E414B205D3431325B206F532023206465646C6F66657361435F434B464E5F6E6568575F7365676E616843203B20202020354446322E2E30304632,
  0x454341505320434948504152474F45444920202020202020735A2023206465646C6F66657361435F434B464E5F6E6568575F7365676E616843203B2020202020202020202030303033,
  0x4B52414D204C4154534F502044454C43524943202020202020206F532023206465646C6F66657361435F434B464E5F6E6568575F7365676E616843203B2020202020202020202036333033,
  0x595452494854204C4152454D554E20554F485A474E41482E2E4E4554204C4152454D554E20554F485A474E4148205D335B2020206C4E2023206465646C6F66657361435F434B464E5F6E6568575F7365676E616843203B20202020413330332E2E38333033,
  0x4B52414D20444E554F5320444543494F562D494D455320414E4147415249482D414E414B4154414B2E2E4B52414D20444E554F5320444543494F5620414E4147415249482D414E414B4154414B205D325B2020206B532023206465646C6F66657361435F434B464E5F6E6568575F7365676E616843203B20202020433930332E2E42393033,
  0x49524F59204850415247494420414E414741524948202020202020206F4C2023206465646C6F66657361435F434B464E5F6E6568575F7365676E616843203B2020202020202020202046393033,
  0x4F544F4B204850415247494420414E414B4154414B202020202020206F4C2023206465646C6F66657361435F434B464E5F6E6568575F7365676E616843203B2020202020202020202046463033,
  0x4541454152412052455454454C204C55474E41482E2E4B4F4559494B2052455454454C204C55474E4148205D34395B20206F4C2023206465646C6F66657361435F434B464E5F6E6568575F7365676E616843203B20202020453831332E2E31333133,
  0x4B52414D2052554F46204E4F495441544F4E4E4120434948504152474F4544492E2E4B52414D20454E4F204E4F495441544F4E4E4120434948504152474F454449205D345B2020206F4E2023206465646C6F66657361435F434B464E5F6E6568575F7365676E616843203B20202020353931332E2E32393133,
  0x4B52414D204E414D204E4F495441544F4E4E4120434948504152474F4544492E2E4B52414D20504F54204E4F495441544F4E4E4120434948504152474F454449205D30315B20206F532023206465646C6F66657361435F434B464E5F6E6568575F7365676E616843203B20202020463931332E2E36393133,
  0x5548204F20524554434152414843204E4145524F4B2044455A49534548544E455241502E2E4B4F4559494B204C55474E41482044455A49534548544E45524150205D31335B20206F532023206465646C6F66657361435F434B464E5F6E6568575F7365676E616843203B20202020453132332E2E30303233,
  0x4E45542048504152474F4544492044455A49534548544E455241502E2E454E4F2048504152474F4544492044455A49534548544E45524150205D30315B20206F4E2023206465646C6F66657361435F434B464E5F6E6568575F7365676E616843203B20202020393232332E2E30323233,
  0x4F544F4B2048504152474F4544492044454C435249432E2E4E4F4F4D2048504152474F4544492044455A49534548544E45524150205D30335B20206F532023206465646C6F66657361435F434B464E5F6E6568575F7365676E616843203B20202020373432332E2E41323233,
  0x4E474953205049485352454E54524150202020202020206F532023206465646C6F66657361435F434B464E5F6E6568575F7365676E616843203B2020202020202020202030353233,
  0x4556494620595452494854205245424D554E2044454C435249432E2E454E4F2059544E455754205245424D554E2044454C43524943205D35315B20206F4E2023206465646C6F66657361435F434B464E5F6E6568575F7365676E616843203B20202020463532332E2E31353233,
  0x5520474E554549204C55474E41482044454C435249432E2E4B4F4559494B204C55474E41482044454C43524943205D31335B20206F532023206465646C6F66657361435F434B464E5F6E6568575F7365676E616843203B20202020453732332E2E30363233,
  0x4E45542048504152474F4544492044454C435249432E2E454E4F2048504152474F4544492044454C43524943205D30315B20206F4E2023206465646C6F66657361435F434B464E5F6E6568575F7365676E616843203B20202020393832332E2E30383233,
  0x544847494E2048504152474F4544492044454C435249432E2E4E4F4F4D2048504152474F4544492044454C43524943205D39335B20206F532023206465646C6F66657361435F434B464E5F6E6568575F7365676E616843203B20202020304232332E2E41383233,
  0x5954464946205245424D554E2044454C435249432E2E58495320595452494854205245424D554E2044454C43524943205D35315B20206F4E2023206465646C6F66657361435F434B464E5F6E6568575F7365676E616843203B20202020464232332E2E31423233,
  0x4C4147204552415551532E2E595241554E414A20524F46204C4F424D5953204850415247454C455420434948504152474F454449205D3032335B206F532023206465646C6F66657361435F434B464E5F6E6568575F7365676E616843203B20202020464633332E2E30433233,
  0x41594C4D455A2052455454454C204C4154495041432043494C4C4952594320202020202020264C2023206465646C6F66657361435F434B464E5F6E6568575F7365676E616843203B2020202020202020202030343641,
  0x4F4C455A442052455454454C204C4154495041432043494C4C4952594320202020202020264C2023206465646C6F66657361435F434B464E5F6E6568575F7365676E616843203B2020202020202020202032343641,
  0x455A442044455352455645522052455454454C204C4154495041432043494C4C4952594320202020202020264C2023206465646C6F66657361435F434B464E5F6E6568575F7365676E616843203B2020202020202020202034343641,
  0x41544F492052455454454C204C4154495041432043494C4C4952594320202020202020264C2023206465646C6F66657361435F434B464E5F6E6568575F7365676E616843203B2020202020202020202036343641,
  0x5652454A442052455454454C204C4154495041432043494C4C4952594320202020202020264C2023206465646C6F66657361435F434B464E5F6E6568575F7365676E616843203B2020202020202020202038343641,
  0x4B552048504152474F4E4F4D2052455454454C204C4154495041432043494C4C4952594320202020202020264C2023206465646C6F66657361435F434B464E5F6E6568575F7365676E616843203B2020202020202020202041343641,
  0x4147454D4F2044414F52422052455454454C204C4154495041432043494C4C4952594320202020202020264C2023206465646C6F66657361435F434B464E5F6E6568575F7365676E616843203B2020202020202020202043343641,
  0x524559204C41525455454E2052455454454C204C4154495041432043494C4C4952594320202020202020264C2023206465646C6F66657361435F434B464E5F6E6568575F7365676E616843203B2020202020202020202045343641,
  0x524559204B434142204854495720555245592052455454454C204C4154495041432043494C4C4952594320202020202020264C2023206465646C6F66657361435F434B464E5F6E6568575F7365676E616843203B2020202020202020202030353641,
  0x544159204445494649544F492052455454454C204C4154495041432043494C4C4952594320202020202020264C2023206465646C6F66657361435F434B464E5F6E6568575F7365676E616843203B2020202020202020202032353641,
  0x55592044455352455645522052455454454C204C4154495041432043494C4C4952594320202020202020264C2023206465646C6F66657361435F434B464E5F6E6568575F7365676E616843203B2020202020202020202034353641,
  0x41204445494649544F492052455454454C204C4154495041432043494C4C4952594320202020202020264C2023206465646C6F66657361435F434B464E5F6E6568575F7365676E616843203B2020202020202020202036353641,
  0x53555920454C5454494C204445534F4C432052455454454C204C4154495041432043494C4C4952594320202020202020264C2023206465646C6F66657361435F434B464E5F6E6568575F7365676E616843203B2020202020202020202038353641]

def qcText38 : List Nat := [
  0x535559204445444E454C422052455454454C204C4154495041432043494C4C4952594320202020202020264C2023206465646C6F66657361435F434B464E5F6E6568575F7365676E616843203B2020202020202020202041353641,
  0x53555920454C5454494C204445534F4C43204445494649544F492052455454454C204C4154495041432043494C4C4952594320202020202020264C2023206465646C6F66657361435F434B464E5F6E6568575F7365676E616843203B2020202020202020202043353641,
  0x4E592052455454454C204C4154495041432043494C4C4952594320202020202020264C2023206465646C6F66657361435F434B464E5F6E6568575F7365676E616843203B2020202020202020202045353641,
  0x4553542044455352455645522052455454454C204C4154495041432043494C4C4952594320202020202020264C2023206465646C6F66657361435F434B464E5F6E6568575F7365676E616843203B2020202020202020202030363641,
  0x45442054464F532052455454454C204C4154495041432043494C4C4952594320202020202020264C2023206465646C6F66657361435F434B464E5F6E6568575F7365676E616843203B2020202020202020202032363641,
  0x4C452054464F532052455454454C204C4154495041432043494C4C4952594320202020202020264C2023206465646C6F66657361435F434B464E5F6E6568575F7365676E616843203B2020202020202020202034363641,
  0x4D452054464F532052455454454C204C4154495041432043494C4C4952594320202020202020264C2023206465646C6F66657361435F434B464E5F6E6568575F7365676E616843203B2020202020202020202036363641,
  0x4F2052414C55434F4E4F4D2052455454454C204C4154495041432043494C4C4952594320202020202020264C2023206465646C6F66657361435F434B464E5F6E6568575F7365676E616843203B2020202020202020202038363641,
  0x4F2052414C55434F4E49422052455454454C204C4154495041432043494C4C4952594320202020202020264C2023206465646C6F66657361435F434B464E5F6E6568575F7365676E616843203B2020202020202020202041363641,
  0x4F2052414C55434F4E4F4D20454C42554F442052455454454C204C4154495041432043494C4C4952594320202020202020264C2023206465646C6F66657361435F434B464E5F6E6568575F7365676E616843203B2020202020202020202043363641,
  0x4557442052455454454C204C4154495041432043494C4C4952594320202020202020264C2023206465646C6F66657361435F434B464E5F6E6568575F7365676E616843203B2020202020202020202030383641,
  0x45575A442052455454454C204C4154495041432043494C4C4952594320202020202020264C2023206465646C6F66657361435F434B464E5F6E6568575F7365676E616843203B2020202020202020202032383641,
  0x4557485A2052455454454C204C4154495041432043494C4C4952594320202020202020264C2023206465646C6F66657361435F434B464E5F6E6568575F7365676E616843203B2020202020202020202034383641,
  0x454843432052455454454C204C4154495041432043494C4C4952594320202020202020264C2023206465646C6F66657361435F434B464E5F6E6568575F7365676E616843203B2020202020202020202036383641,
  0x455A5A442052455454454C204C4154495041432043494C4C4952594320202020202020264C2023206465646C6F66657361435F434B464E5F6E6568575F7365676E616843203B2020202020202020202038383641,
  0x4B4F4F4820454C4444494D20485449572045542052455454454C204C4154495041432043494C4C4952594320202020202020264C2023206465646C6F66657361435F434B464E5F6E6568575F7365676E616843203B2020202020202020202041383641,
  0x4557542052455454454C204C4154495041432043494C4C4952594320202020202020264C2023206465646C6F66657361435F434B464E5F6E6568575F7365676E616843203B2020202020202020202043383641,
  0x455753542052455454454C204C4154495041432043494C4C4952594320202020202020264C2023206465646C6F66657361435F434B464E5F6E6568575F7365676E616843203B2020202020202020202045383641,
  0x455353542052455454454C204C4154495041432043494C4C4952594320202020202020264C2023206465646C6F66657361435F434B464E5F6E6568575F7365676E616843203B2020202020202020202030393641,
  0x454843542052455454454C204C4154495041432043494C4C4952594320202020202020264C2023206465646C6F66657361435F434B464E5F6E6568575F7365676E616843203B2020202020202020202032393641,
  0x4557482052455454454C204C4154495041432043494C4C4952594320202020202020264C2023206465646C6F66657361435F434B464E5F6E6568575F7365676E616843203B2020202020202020202034393641,
  0x455748532052455454454C204C4154495041432043494C4C4952594320202020202020264C2023206465646C6F66657361435F434B464E5F6E6568575F7365676E616843203B2020202020202020202036393641,
  0x4F20454C42554F442052455454454C204C4154495041432043494C4C4952594320202020202020264C2023206465646C6F66657361435F434B464E5F6E6568575F7365676E616843203B2020202020202020202038393641,
  0x4F20444553534F52432052455454454C204C4154495041432043494C4C4952594320202020202020264C2023206465646C6F66657361435F434B464E5F6E6568575F7365676E616843203B2020202020202020202041393641,
  0x4E4749532054464F532043494C4C495259432052455454454C205245494649444F4D2E2E4E47495320445241482043494C4C495259432052455454454C205245494649444F4D205D325B2020206D4C2023206465646C6F66657361435F434B464E5F6E6568575F7365676E616843203B20202020443936412E2E43393641,
  0x46454C41204C414349474F4C4F54505947452052455454454C204C415449504143204E4954414C20202020202020264C2023206465646C6F66657361435F434B464E5F6E6568575F7365676E616843203B2020202020202020202032323741,
  0x4E4941204C414349474F4C4F54505947452052455454454C204C415449504143204E4954414C20202020202020264C2023206465646C6F66657361435F434B464E5F6E6568575F7365676E616843203B2020202020202020202034323741,
  0x474E45482052455454454C204C415449504143204E4954414C20202020202020264C2023206465646C6F66657361435F434B464E5F6E6568575F7365676E616843203B2020202020202020202036323741,
  0x5A542052455454454C204C415449504143204E4954414C20202020202020264C2023206465646C6F66657361435F434B464E5F6E6568575F7365676E616843203B2020202020202020202038323741,
  0x4F4C4C49534552542052455454454C204C415449504143204E4954414C20202020202020264C2023206465646C6F66657361435F434B464E5F6E6568575F7365676E616843203B2020202020202020202041323741,
  0x4F4C4C4952544155432052455454454C204C415449504143204E4954414C20202020202020264C2023206465646C6F66657361435F434B464E5F6E6568575F7365676E616843203B2020202020202020202043323741,
  0x414D4D4F432048544957204F4C4C4952544155432052455454454C204C415449504143204E4954414C20202020202020264C2023206465646C6F66657361435F434B464E5F6E6568575F7365676E616843203B2020202020202020202045323741,
  0x41412052455454454C204C415449504143204E4954414C20202020202020264C2023206465646C6F66657361435F434B464E5F6E6568575F7365676E616843203B2020202020202020202032333741,
  0x4F412052455454454C204C415449504143204E4954414C20202020202020264C2023206465646C6F66657361435F434B464E5F6E6568575F7365676E616843203B2020202020202020202034333741,
  0x55412052455454454C204C415449504143204E4954414C20202020202020264C2023206465646C6F66657361435F434B464E5F6E6568575F7365676E616843203B2020202020202020202036333741,
  0x56412052455454454C204C415449504143204E4954414C20202020202020264C2023206465646C6F66657361435F434B464E5F6E6568575F7365676E616843203B2020202020202020202038333741,
  0x524142204C41544E4F5A49524F4820485449572056412052455454454C204C415449504143204E4954414C20202020202020264C2023206465646C6F66657361435F434B464E5F6E6568575F7365676E616843203B2020202020202020202041333741,
  0x59412052455454454C204C415449504143204E4954414C20202020202020264C2023206465646C6F66657361435F434B464E5F6E6568575F7365676E616843203B2020202020202020202043333741,
  0x544F44204854495720432044455352455645522052455454454C204C415449504143204E4954414C20202020202020264C2023206465646C6F66657361435F434B464E5F6E6568575F7365676E616843203B2020202020202020202045333741,
  0x454B4F5254532048544957204B2052455454454C204C415449504143204E4954414C20202020202020264C2023206465646C6F66657361435F434B464E5F6E6568575F7365676E616843203B2020202020202020202030343741,
  0x454B4F525453204C414E4F474149442048544957204B2052455454454C204C415449504143204E4954414C20202020202020264C2023206465646C6F66657361435F434B464E5F6E6568575F7365676E616843203B2020202020202020202032343741,
  0x454B4F525453204C414E4F4741494420444E4120454B4F5254532048544957204B2052455454454C204C415449504143204E4954414C20202020202020264C2023206465646C6F66657361435F434B464E5F6E6568575F7365676E616843203B2020202020202020202034343741,
  0x4C204E454B4F52422052455454454C204C415449504143204E4954414C20202020202020264C2023206465646C6F66657361435F434B464E5F6E6568575F7365676E616843203B2020202020202020202036343741,
  0x454B4F52545320484749482048544957204C2052455454454C204C415449504143204E4954414C20202020202020264C2023206465646C6F66657361435F434B464E5F6E6568575F7365676E616843203B2020202020202020202038343741,
  0x59414C5245564F20454B4F52545320474E4F4C2048544957204F2052455454454C204C415449504143204E4954414C20202020202020264C2023206465646C6F66657361435F434B464E5F6E6568575F7365676E616843203B2020202020202020202041343741,
  0x504F4F4C2048544957204F2052455454454C204C415449504143204E4954414C20202020202020264C2023206465646C6F66657361435F434B464E5F6E6568575F7365676E616843203B2020202020202020202043343741,
  0x4F4F2052455454454C204C415449504143204E4954414C20202020202020264C2023206465646C6F66657361435F434B464E5F6E6568575F7365676E616843203B2020202020202020202045343741,
  0x5245444E4543534544204847554F52485420454B4F525453204854495720502052455454454C204C415449504143204E4954414C20202020202020264C2023206465646C6F66657361435F434B464E5F6E6568575F7365676E616843203B2020202020202020202030353741,
  0x48534952554F4C46204854495720502052455454454C204C415449504143204E4954414C20202020202020264C2023206465646C6F66657361435F434B464E5F6E6568575F7365676E616843203B2020202020202020202032353741,
  0x4C494154204C45525249555153204854495720502052455454454C204C415449504143204E4954414C20202020202020264C2023206465646C6F66657361435F434B464E5F6E6568575F7365676E616843203B2020202020202020202034353741,
  0x5245444E4543534544204847554F52485420454B4F525453204854495720512052455454454C204C415449504143204E4954414C20202020202020264C2023206465646C6F66657361435F434B464E5F6E6568575F7365676E616843203B2020202020202020202036353741,
  0x454B4F525453204C414E4F47414944204854495720512052455454454C204C415449504143204E4954414C20202020202020264C2023206465646C6F66657361435F434B464E5F6E6568575F7365676E616843203B2020202020202020202038353741,
  0x41444E55544F5220522052455454454C204C415449504143204E4954414C20202020202020264C2023206465646C6F66657361435F434B464E5F6E6568575F7365676E616843203B2020202020202020202041353741,
  0x41444E55544F52204D55522052455454454C204C415449504143204E4954414C20202020202020264C2023206465646C6F66657361435F434B464E5F6E6568575F7365676E616843203B2020202020202020202043353741,
  0x454B4F525453204C414E4F47414944204854495720562052455454454C204C415449504143204E4954414C20202020202020264C2023206465646C6F66657361435F434B464E5F6E6568575F7365676E616843203B2020202020202020202045353741,
  0x59562052455454454C204C415449504143204E4954414C20202020202020264C2023206465646C6F66657361435F434B464E5F6E6568575F7365676E616843203B2020202020202020202030363741,
  0x5A20434948544F47495349562052455454454C204C415449504143204E4954414C20202020202020264C2023206465646C6F66657361435F434B464E5F6E6568575F7365676E616843203B2020202020202020202032363741,
  0x454B4F5254532048544957204E524F48542052455454454C204C415449504143204E4954414C20202020202020264C2023206465646C6F66657361435F434B464E5F6E6568575F7365676E616843203B2020202020202020202034363741,
  0x5245444E4543534544204847554F52485420454B4F5254532048544957204E524F48542052455454454C204C415449504143204E4954414C20202020202020264C2023206465646C6F66657361435F434B464E5F6E6568575F7365676E616843203B2020202020202020202036363741,
  0x444E45562052455454454C204C415449504143204E4954414C20202020202020264C2023206465646C6F66657361435F434B464E5F6E6568575F7365676E616843203B2020202020202020202038363741,
  0x54452052455454454C204C415449504143204E4954414C20202020202020264C2023206465646C6F66657361435F434B464E5F6E6568575F7365676E616843203B2020202020202020202041363741,
  0x53492052455454454C204C415449504143204E4954414C20202020202020264C2023206465646C6F66657361435F434B464E5F6E6568575F7365676E616843203B2020202020202020202043363741,
  0x4E4F432052455454454C204C415449504143204E4954414C20202020202020264C2023206465646C6F66657361435F434B464E5F6E6568575F7365676E616843203B2020202020202020202045363741,
  0x53552052455454454C205245494649444F4D202020202020206D4C2023206465646C6F66657361435F434B464E5F6E6568575F7365676E616843203B2020202020202020202030373741,
  0x442052414C55534E492052455454454C204C415449504143204E4954414C20202020202020264C2023206465646C6F66657361435F434B464E5F6E6568575F7365676E616843203B2020202020202020202039373741,
  0x462052414C55534E492052455454454C204C415449504143204E4954414C20202020202020264C2023206465646C6F66657361435F434B464E5F6E6568575F7365676E616843203B2020202020202020202042373741,
  0x472052414C55534E492044454E5255542052455454454C204C415449504143204E4954414C2E2E472052414C55534E492052455454454C204C415449504143204E4954414C205D325B202020264C2023206465646C6F66657361435F434B464E5F6E6568575F7365676E616843203B20202020453737412E2E44373741,
  0x4C2044454E5255542052455454454C204C415449504143204E4954414C20202020202020264C2023206465646C6F66657361435F434B464E5F6E6568575F7365676E616843203B2020202020202020202030383741,
  0x522052414C55534E492052455454454C204C415449504143204E4954414C20202020202020264C2023206465646C6F66657361435F434B464E5F6E6568575F7365676E616843203B2020202020202020202032383741,
  0x532052414C55534E492052455454454C204C415449504143204E4954414C20202020202020264C2023206465646C6F66657361435F434B464E5F6E6568575F7365676E616843203B2020202020202020202034383741,
  0x542052414C55534E492052455454454C204C415449504143204E4954414C20202020202020264C2023206465646C6F66657361435F434B464E5F6E6568575F7365676E616843203B2020202020202020202036383741,
  0x4F4C4C49544C41532052455454454C204C415449504143204E4954414C20202020202020264C2023206465646C6F66657361435F434B464E5F6E6568575F7365676E616843203B2020202020202020202042383741,
  0x482044454E5255542052455454454C204C415449504143204E4954414C20202020202020264C2023206465646C6F66657361435F434B464E5F6E6568575F7365676E616843203B2020202020202020202044383741,
  0x5245444E45435345442048544957204E2052455454454C204C415449504143204E4954414C20202020202020264C2023206465646C6F66657361435F434B464E5F6E6568575F7365676E616843203B2020202020202020202030393741,
  0x524142204854495720432052455454454C204C415449504143204E4954414C20202020202020264C2023206465646C6F66657361435F434B464E5F6E6568575F7365676E616843203B2020202020202020202032393741,
  0x48534952554F4C46204854495720422052455454454C204C415449504143204E4954414C20202020202020264C2023206465646C6F66657361435F434B464E5F6E6568575F7365676E616843203B2020202020202020202036393741,
  0x454B4F525453204854495720462052455454454C204C415449504143204E4954414C20202020202020264C2023206465646C6F66657361435F434B464E5F6E6568575F7365676E616843203B2020202020202020202038393741,
  0x4541204B5550414C4F562052455454454C204C415449504143204E4954414C20202020202020264C2023206465646C6F66657361435F434B464E5F6E6568575F7365676E616843203B2020202020202020202041393741,
  0x454F204B5550414C4F562052455454454C204C415449504143204E4954414C20202020202020264C2023206465646C6F66657361435F434B464E5F6E6568575F7365676E616843203B2020202020202020202043393741,
  0x4555204B5550414C4F562052455454454C204C415449504143204E4954414C20202020202020264C2023206465646C6F66657361435F434B464E5F6E6568575F7365676E616843203B2020202020202020202045393741,
  0x454B4F52545320455551494C424F204854495720472052455454454C204C415449504143204E4954414C20202020202020264C2023206465646C6F66657361435F434B464E5F6E6568575F7365676E616843203B2020202020202020202030413741,
  0x454B4F52545320455551494C424F2048544957204B2052455454454C204C415449504143204E4954414C20202020202020264C2023206465646C6F66657361435F434B464E5F6E6568575F7365676E616843203B2020202020202020202032413741,
  0x454B4F52545320455551494C424F2048544957204E2052455454454C204C415449504143204E4954414C20202020202020264C2023206465646C6F66657361435F434B464E5F6E6568575F7365676E616843203B2020202020202020202034413741,
  0x454B4F52545320455551494C424F204854495720522052455454454C204C415449504143204E4954414C20202020202020264C2023206465646C6F66657361435F434B464E5F6E6568575F7365676E616843203B2020202020202020202036413741,
  0x454B4F52545320455551494C424F204854495720532052455454454C204C415449504143204E4954414C20202020202020264C2023206465646C6F66657361435F434B464E5F6E6568575F7365676E616843203B2020202020202020202038413741,
  0x49204C415449504143204C4C414D532052455454454C204C415449504143204E4954414C2E2E4B4F4F48204854495720482052455454454C204C415449504143204E4954414C205D355B202020264C2023206465646C6F66657361435F434B464E5F6E6568575F7365676E616843203B20202020454137412E2E41413741,
  0x415445422052455454454C204C415449504143204E4954414C2E2E4B2044454E5255542052455454454C204C415449504143204E4954414C205D355B202020264C2023206465646C6F66657361435F434B464E5F6E6568575F7365676E616843203B20202020344237412E2E30423741,
  0x4147454D4F2052455454454C204C415449504143204E4954414C20202020202020264C2023206465646C6F66657361435F434B464E5F6E6568575F7365676E616843203B2020202020202020202036423741,
  0x454B4F525453204854495720552052455454454C204C415449504143204E4954414C20202020202020264C2023206465646C6F66657361435F434B464E5F6E6568575F7365676E616843203B2020202020202020202038423741,
  0x41204C4154544F4C472052455454454C204C415449504143204E4954414C20202020202020264C2023206465646C6F66657361435F434B464E5F6E6568575F7365676E616843203B2020202020202020202041423741,
  0x49204C4154544F4C472052455454454C204C415449504143204E4954414C20202020202020264C2023206465646C6F66657361435F434B464E5F6E6568575F7365676E616843203B2020202020202020202043423741,
  0x55204C4154544F4C472052455454454C204C415449504143204E4954414C20202020202020264C2023206465646C6F66657361435F434B464E5F6E6568575F7365676E616843203B2020202020202020202045423741,
  0x5720414E4143494C474E412052455454454C204C415449504143204E4954414C20202020202020264C2023206465646C6F66657361435F434B464E5F6E6568575F7365676E616843203B2020202020202020202032433741,
  0x59414C5245564F20454B4F5254532054524F4853204854495720442052455454454C204C415449504143204E4954414C2E2E4B4F4F48204C4154414C4150204854495720432052455454454C204C415449504143204E4954414C205D345B202020264C2023206465646C6F66657361435F434B464E5F6E6568575F7365676E616843203B20202020374337412E2E34433741,
  0x59414C5245564F20454B4F5254532054524F4853204854495720532052455454454C204C415449504143204E4954414C20202020202020264C2023206465646C6F66657361435F434B464E5F6E6568575F7365676E616843203B2020202020202020202039433741,
  0x4820464C41482044455352455645522052455454454C204C415449504143204E4954414C20202020202020264C2023206465646C6F66657361435F434B464E5F6E6568575F7365676E616843203B2020202020202020202035463741,
  0x454F20455255544147494C204C4C414D532052455454454C205245494649444F4D2E2E454B4F52545320485449572048204C4154495041432052455454454C205245494649444F4D205D325B2020206D4C2023206465646C6F66657361435F434B464E5F6E6568575F7365676E616843203B20202020394637412E2E38463741,
  0x4B4F4F48205446454C20485449572055204C4C414D532052455454454C205245494649444F4D2E2E474E4548204C4C414D532052455454454C205245494649444F4D205D345B2020206D4C2023206465646C6F66657361435F434B464E5F6E6568575F7365676E616843203B20202020463542412E2E43354241,
  0x572044454E525554204C4C414D532052455454454C205245494649444F4D202020202020206D4C2023206465646C6F66657361435F434B464E5F6E6568575F7365676E616843203B2020202020202020202039364241,
  0x41592052455454454C204C4C414D532045454B4F524548432E2E412052455454454C204C4C414D532045454B4F52454843205D30385B2020264C2023206465646C6F66657361435F434B464E5F6E6568575F7365676E616843203B20202020464242412E2E30374241,
  0x443041462D48504152474F454449205954494C4942495441504D4F43204B4A432E2E303039462D48504152474F454449205954494C4942495441504D4F43204B4A43205D3037325B206F4C2023206465646C6F66657361435F434B464E5F6E6568575F7365676E616843203B20202020443041462E2E30303946,
  0x303141462D48504152474F454449205954494C4942495441504D4F43204B4A43202020202020206F4C2023206465646C6F66657361435F434B464E5F6E6568575F7365676E616843203B2020202020202020202030314146,
  0x323141462D48504152474F454449205954494C4942495441504D4F43204B4A43202020202020206F4C2023206465646C6F66657361435F434B464E5F6E6568575F7365676E616843203B2020202020202020202032314146,
  0x453141462D48504152474F454449205954494C4942495441504D4F43204B4A432E2E353141462D48504152474F454449205954494C4942495441504D4F43204B4A43205D30315B20206F4C2023206465646C6F66657361435F434B464E5F6E6568575F7365676E616843203B20202020453141462E2E35314146,
  0x303241462D48504152474F454449205954494C4942495441504D4F43204B4A43202020202020206F4C2023206465646C6F66657361435F434B464E5F6E6568575F7365676E616843203B2020202020202020202030324146,
  0x323241462D48504152474F454449205954494C4942495441504D4F43204B4A43202020202020206F4C2023206465646C6F66657361435F434B464E5F6E6568575F7365676E616843203B2020202020202020202032324146,
  0x363241462D48504152474F454449205954494C4942495441504D4F43204B4A432E2E353241462D48504152474F454449205954494C4942495441504D4F43204B4A43205D325B2020206F4C2023206465646C6F66657361435F434B464E5F6E6568575F7365676E616843203B20202020363241462E2E35324146,
  0x443641462D48504152474F454449205954494C4942495441504D4F43204B4A432E2E413241462D48504152474F454449205954494C4942495441504D4F43204B4A43205D38365B20206F4C2023206465646C6F66657361435F434B464E5F6E6568575F7365676E616843203B20202020443641462E2E41324146,
  0x394441462D48504152474F454449205954494C4942495441504D4F43204B4A432E2E303741462D48504152474F454449205954494C4942495441504D4F43204B4A43205D3630315B206F4C2023206465646C6F66657361435F434B464E5F6E6568575F7365676E616843203B20202020394441462E2E30374146,
  0x545320455255544147494C204C4C414D53204E4954414C2E2E464620455255544147494C204C4C414D53204E4954414C205D375B202020264C2023206465646C6F66657361435F434B464E5F6E6568575F7365676E616843203B20202020363042462E2E30304246,
  0x484558204E454D20455255544147494C204C4C414D53204E41494E454D52412E2E574F4E204E454D20455255544147494C204C4C414D53204E41494E454D5241205D355B202020264C2023206465646C6F66657361435F434B464E5F6E6568575F7365676E616843203B20202020373142462E2E33314246,
  0x5149524948204854495720444F592052455454454C20574552424548202020202020206F4C2023206465646C6F66657361435F434B464E5F6E6568575F7365676E616843203B2020202020202020202044314246,
  0x56415420454449572052455454454C205745524245482E2E484154415020444F5920444F59204853494444495920455255544147494C20574552424548205D30315B20206F4C2023206465646C6F66657361435F434B464E5F6E6568575F7365676E616843203B20202020383242462E2E46314246,
  0x4E4749532053554C502045564954414E5245544C412052455454454C20574552424548202020202020206D532023206465646C6F66657361435F434B464E5F6E6568575F7365676E616843203B2020202020202020202039324246,
  0x4853454741442048544957204E4959415A2052455454454C205745524245482E2E544F44204E4948532048544957204E4948532052455454454C20574552424548205D33315B20206F4C2023206465646C6F66657361435F434B464E5F6E6568575F7365676E616843203B20202020363342462E2E41324246,
  0x48534547414420485449572044454D414C2052455454454C205745524245482E2E4853454741442048544957205445542052455454454C20574552424548205D355B2020206F4C2023206465646C6F66657361435F434B464E5F6E6568575F7365676E616843203B20202020433342462E2E38334246,
  0x4853454741442048544957204D454D2052455454454C20574552424548202020202020206F4C2023206465646C6F66657361435F434B464E5F6E6568575F7365676E616843203B2020202020202020202045334246,
  0x485345474144204854495720484B454D41532052455454454C205745524245482E2E4853454741442048544957204E554E2052455454454C20574552424548205D325B2020206F4C2023206465646C6F66657361435F434B464E5F6E6568575F7365676E616843203B20202020313442462E2E30344246,
  0x48534547414420485449572045502052455454454C205745524245482E2E4853454741442048544957204550204C414E49462052455454454C20574552424548205D325B2020206F4C2023206465646C6F66657361435F434B464E5F6E6568575F7365676E616843203B20202020343442462E2E33344246,
  0x4D524F46204C414E49462045564F424120415A4D4148204854495720454552524142204845592052455454454C204349424152412E2E48534547414420485449572049444153542052455454454C20574552424548205D3830315B206F4C2023206465646C6F66657361435F434B464E5F6E6568575F7365676E616843203B20202020314242462E2E36344246,
  0x4D524F4620444554414C4F5349204E4154414854414620485449572046454C4120455255544147494C204349424152412E2E4D524F4620444554414C4F534920474E2052455454454C20434942415241205D3336335B206F4C2023206465646C6F66657361435F434B464E5F6E6568575F7365676E616843203B20202020443344462E2E33444246,
  0x4D524F46204C414954494E49204D45454D2048544957204841484B2048544957204D45454D20455255544147494C204349424152412E2E4D524F46204C414954494E49204D45454D2048544957204D45454A20485449572048455420455255544147494C20434942415241205D34365B20206F4C2023206465646C6F66657361435F434B464E5F6E6568575F7365676E616843203B20202020463844462E2E30354446,
  0x4D524F46204C414E4946204845592048544957204D45454A2048544957204E4F4F4E20455255544147494C204349424152412E2E4D524F46204C414954494E49204841484B2048544957204D45454A2048544957204D45454D20455255544147494C20434942415241205D34355B20206F4C2023206465646C6F66657361435F434B464E5F6E6568575F7365676E616843203B20202020374344462E2E32394446,
  0x554F48554F4C414C414A414C4C414A20455255544147494C204349424152412E2E4D524F4620444554414C4F5349204E47495320504F54532043494E41524F4B205341204445535520414C4C415320455255544147494C20434942415241205D32315B20206F4C2023206465646C6F66657361435F434B464E5F6E6568575F7365676E616843203B20202020424644462E2E30464446,
  0x4E474953204C4149522020202020202063532023206465646C6F66657361435F434B464E5F6E6568575F7365676E616843203B2020202020202020202043464446,
  0x36312D524F5443454C4553204E4F495441495241562E2E312D524F5443454C4553204E4F49544149524156205D36315B20206E4D2023206465646C6F66657361435F434B464E5F6E6568575F7365676E616843203B20202020463045462E2E30304546,
  0x4B52414D204E4F495453455551204C4143495452455620524F46204D524F46204E4F495441544E45534552502E2E414D4D4F43204C4143495452455620524F46204D524F46204E4F495441544E4553455250205D375B2020206F502023206465646C6F66657361435F434B464E5F6E6568575F7365676E616843203B20202020363145462E2E30314546,
  0x54454B434152422052414C554349544E454C204554494857205446454C204C4143495452455620524F46204D524F46204E4F495441544E45534552502020202020202073502023206465646C6F66657361435F434B464E5F6E6568575F7365676E616843203B2020202020202020202037314546,
  0x5445434B4152422052414C554349544E454C204554494857205448474952204C4143495452455620524F46204D524F46204E4F495441544E45534552502020202020202065502023206465646C6F66657361435F434B464E5F6E6568575F7365676E616843203B2020202020202020202038314546,
  0x53495350494C4C45204C41544E4F5A49524F48204C4143495452455620524F46204D524F46204E4F495441544E4553455250202020202020206F502023206465646C6F66657361435F434B464E5F6E6568575F7365676E616843203B2020202020202020202039314546,
  0x52454441454C20544F44204F5754204C4143495452455620524F46204D524F46204E4F495441544E4553455250202020202020206F502023206465646C6F66657361435F434B464E5F6E6568575F7365676E616843203B2020202020202020202030334546,
  0x48534144204E45204C4143495452455620524F46204D524F46204E4F495441544E45534552502E2E48534144204D45204C4143495452455620524F46204D524F46204E4F495441544E4553455250205D325B20202064502023206465646C6F66657361435F434B464E5F6E6568575F7365676E616843203B20202020323345462E2E31334546,
  0x454E494C20574F4C2059564157204C4143495452455620524F46204D524F46204E4F495441544E45534552502E2E454E494C20574F4C204C4143495452455620524F46204D524F46204E4F495441544E4553455250205D325B20202063502023206465646C6F66657361435F434B464E5F6E6568575F7365676E616843203B20202020343345462E2E33334546,
  0x5349534548544E45524150205446454C204C4143495452455620524F46204D524F46204E4F495441544E45534552502020202020202073502023206465646C6F66657361435F434B464E5F6E6568575F7365676E616843203B2020202020202020202035334546,
  0x5349534548544E45524150205448474952204C4143495452455620524F46204D524F46204E4F495441544E45534552502020202020202065502023206465646C6F66657361435F434B464E5F6E6568575F7365676E616843203B2020202020202020202036334546,
  0x54454B4341524220594C525543205446454C204C4143495452455620524F46204D524F46204E4F495441544E45534552502020202020202073502023206465646C6F66657361435F434B464E5F6E6568575F7365676E616843203B2020202020202020202037334546,
  0x54454B4341524220594C525543205448474952204C4143495452455620524F46204D524F46204E4F495441544E45534552502020202020202065502023206465646C6F66657361435F434B464E5F6E6568575F7365676E616843203B2020202020202020202038334546,
  0x54454B43415242204C4C454853204553494F54524F54205446454C204C4143495452455620524F46204D524F46204E4F495441544E45534552502020202020202073502023206465646C6F66657361435F434B464E5F6E6568575F7365676E616843203B2020202020202020202039334546,
  0x54454B43415242204C4C454853204553494F54524F54205448474952204C4143495452455620524F46204D524F46204E4F495441544E45534552502020202020202065502023206465646C6F66657361435F434B464E5F6E6568575F7365676E616843203B2020202020202020202041334546,
  0x54454B434152422052414C554349544E454C204B43414C42205446454C204C4143495452455620524F46204D524F46204E4F495441544E45534552502020202020202073502023206465646C6F66657361435F434B464E5F6E6568575F7365676E616843203B2020202020202020202042334546,
  0x54454B434152422052414C554349544E454C204B43414C42205448474952204C4143495452455620524F46204D524F46204E4F495441544E45534552502020202020202065502023206465646C6F66657361435F434B464E5F6E6568575F7365676E616843203B2020202020202020202043334546,
  0x54454B4341524220454C474E4120454C42554F44205446454C204C4143495452455620524F46204D524F46204E4F495441544E45534552502020202020202073502023206465646C6F66657361435F434B464E5F6E6568575F7365676E616843203B2020202020202020202044334546,
  0x54454B4341524220454C474E4120454C42554F44205448474952204C4143495452455620524F46204D524F46204E4F495441544E45534552502020202020202065502023206465646C6F66657361435F434B464E5F6E6568575F7365676E616843203B2020202020202020202045334546,
  0x54454B4341524220454C474E41205446454C204C4143495452455620524F46204D524F46204E4F495441544E45534552502020202020202073502023206465646C6F66657361435F434B464E5F6E6568575F7365676E616843203B2020202020202020202046334546,
  0x54454B4341524220454C474E41205448474952204C4143495452455620524F46204D524F46204E4F495441544E45534552502020202020202065502023206465646C6F66657361435F434B464E5F6E6568575F7365676E616843203B2020202020202020202030344546,
  0x54454B434152422052454E524F43205446454C204C4143495452455620524F46204D524F46204E4F495441544E45534552502020202020202073502023206465646C6F66657361435F434B464E5F6E6568575F7365676E616843203B2020202020202020202031344546,
  0x54454B434152422052454E524F43205448474952204C4143495452455620524F46204D524F46204E4F495441544E45534552502020202020202065502023206465646C6F66657361435F434B464E5F6E6568575F7365676E616843203B2020202020202020202032344546,
  0x54454B434152422052454E524F43204554494857205446454C204C4143495452455620524F46204D524F46204E4F495441544E45534552502020202020202073502023206465646C6F66657361435F434B464E5F6E6568575F7365676E616843203B2020202020202020202033344546,
  0x54454B434152422052454E524F43204554494857205448474952204C4143495452455620524F46204D524F46204E4F495441544E45534552502020202020202065502023206465646C6F66657361435F434B464E5F6E6568575F7365676E616843203B2020202020202020202034344546,
  0x54454B4341524220455241555153205446454C204C4143495452455620524F46204D524F46204E4F495441544E45534552502020202020202073502023206465646C6F66657361435F434B464E5F6E6568575F7365676E616843203B2020202020202020202037344546,
  0x54454B4341524220455241555153205448474952204C4143495452455620524F46204D524F46204E4F495441544E45534552502020202020202065502023206465646C6F66657361435F434B464E5F6E6568575F7365676E616843203B2020202020202020202038344546,
  0x454E494C5245564F205956415720454C42554F442E2E454E494C5245564F20444548534144205D345B2020206F502023206465646C6F66657361435F434B464E5F6E6568575F7365676E616843203B20202020433445462E2E39344546,
  0x454E494C20574F4C20595641572E2E454E494C20574F4C20444548534144205D335B20202063502023206465646C6F66657361435F434B464E5F6E6568575F7365676E616843203B20202020463445462E2E44344546,
  0x504F5453204C4C5546204C4C414D532E2E414D4D4F43204C4C414D53205D335B2020206F502023206465646C6F66657361435F434B464E5F6E6568575F7365676E616843203B20202020323545462E2E30354546,
  0x4B52414D204E4F4954414D414C435845204C4C414D532E2E4E4F4C4F43494D4553204C4C414D53205D345B2020206F502023206465646C6F66657361435F434B464E5F6E6568575F7365676E616843203B20202020373545462E2E34354546,
  0x48534144204D45204C4C414D532020202020202064502023206465646C6F66657361435F434B464E5F6E6568575F7365676E616843203B2020202020202020202038354546,
  0x5349534548544E45524150205446454C204C4C414D532020202020202073502023206465646C6F66657361435F434B464E5F6E6568575F7365676E616843203B2020202020202020202039354546,
  0x5349534548544E45524150205448474952204C4C414D532020202020202065502023206465646C6F66657361435F434B464E5F6E6568575F7365676E616843203B2020202020202020202041354546,
  0x54454B4341524220594C525543205446454C204C4C414D532020202020202073502023206465646C6F66657361435F434B464E5F6E6568575F7365676E616843203B2020202020202020202042354546,
  0x54454B4341524220594C525543205448474952204C4C414D532020202020202065502023206465646C6F66657361435F434B464E5F6E6568575F7365676E616843203B2020202020202020202043354546,
  0x54454B43415242204C4C454853204553494F54524F54205446454C204C4C414D532020202020202073502023206465646C6F66657361435F434B464E5F6E6568575F7365676E616843203B2020202020202020202044354546,
  0x54454B43415242204C4C454853204553494F54524F54205448474952204C4C414D532020202020202065502023206465646C6F66657361435F434B464E5F6E6568575F7365676E616843203B2020202020202020202045354546,
  0x4B53495245545341204C4C414D532E2E4E474953205245424D554E204C4C414D53205D335B2020206F502023206465646C6F66657361435F434B464E5F6E6568575F7365676E616843203B20202020313645462E2E46354546,
  0x4E4749532053554C50204C4C414D53202020202020206D532023206465646C6F66657361435F434B464E5F6E6568575F7365676E616843203B2020202020202020202032364546,
  0x53554E494D2D4E4548505948204C4C414D532020202020202064502023206465646C6F66657361435F434B464E5F6E6568575F7365676E616843203B2020202020202020202033364546,
  0x4E47495320534C41555145204C4C414D532E2E4E474953204E4148542D5353454C204C4C414D53205D335B2020206D532023206465646C6F66657361435F434B464E5F6E6568575F7365676E616843203B20202020363645462E2E34364546,
  0x535544494C4F532045535245564552204C4C414D53202020202020206F502023206465646C6F66657361435F434B464E5F6E6568575F7365676E616843203B2020202020202020202038364546,
  0x4E4749532052414C4C4F44204C4C414D532020202020202063532023206465646C6F66657361435F434B464E5F6E6568575F7365676E616843203B2020202020202020202039364546,
  0x5441204C41494352454D4D4F43204C4C414D532E2E4E47495320544E4543524550204C4C414D53205D325B2020206F502023206465646C6F66657361435F434B464E5F6E6568575F7365676E616843203B20202020423645462E2E41364546,
  0x4D524F4620444554414C4F5349204E4154414D4D4144204349424152412E2E4D524F4620444554414C4F5349204E4154414854414620434942415241205D335B2020206F4C2023206465646C6F66657361435F434B464E5F6E6568575F7365676E616843203B20202020323745462E2E30374546,
  0x4D524F4620444554414C4F5349204E4154415253414B20434942415241202020202020206F4C2023206465646C6F66657361435F434B464E5F6E6568575F7365676E616843203B2020202020202020202034374546,
  0x4D524F46204C414E49462046454C412048544957204D414C20455255544147494C204349424152412E2E4D524F4620444554414C4F534920414854414620434942415241205D3533315B206F4C2023206465646C6F66657361435F434B464E5F6E6568575F7365676E616843203B20202020434645462E2E36374546,
  0x4543415053204B414552422D4F4E204854444957204F52455A2020202020202066432023206465646C6F66657361435F434B464E5F6E6568575F7365676E616843203B2020202020202020202046464546,
  0x4E474953205245424D554E2048544449574C4C55462E2E4B52414D204E4F4954414D414C4358452048544449574C4C5546205D335B2020206F502023206465646C6F66657361435F434B464E5F6E6568575F7365676E616843203B20202020333046462E2E31304646,
  0x4E4749532052414C4C4F442048544449574C4C55462020202020202063532023206465646C6F66657361435F434B464E5F6E6568575F7365676E616843203B2020202020202020202034304646,
  0x4548504F5254534F50412048544449574C4C55462E2E4E47495320544E45435245502048544449574C4C5546205D335B2020206F502023206465646C6F66657361435F434B464E5F6E6568575F7365676E616843203B20202020373046462E2E35304646,
  0x5349534548544E45524150205446454C2048544449574C4C55462020202020202073502023206465646C6F66657361435F434B464E5F6E6568575F7365676E616843203B2020202020202020202038304646,
  0x5349534548544E455241502054484749522048544449574C4C55462020202020202065502023206465646C6F66657361435F434B464E5F6E6568575F7365676E616843203B2020202020202020202039304646,
  0x4B534952455453412048544449574C4C5546202020202020206F502023206465646C6F66657361435F434B464E5F6E6568575F7365676E616843203B2020202020202020202041304646,
  0x4E4749532053554C502048544449574C4C5546202020202020206D532023206465646C6F66657361435F434B464E5F6E6568575F7365676E616843203B2020202020202020202042304646,
  0x414D4D4F432048544449574C4C5546202020202020206F502023206465646C6F66657361435F434B464E5F6E6568575F7365676E616843203B2020202020202020202043304646,
  0x53554E494D2D4E45485059482048544449574C4C55462020202020202064502023206465646C6F66657361435F434B464E5F6E6568575F7365676E616843203B2020202020202020202044304646,
  0x535544494C4F532048544449574C4C55462E2E504F5453204C4C55462048544449574C4C5546205D325B2020206F502023206465646C6F66657361435F434B464E5F6E6568575F7365676E616843203B20202020463046462E2E45304646,
  0x454E494E2054494749442048544449574C4C55462E2E4F52455A2054494749442048544449574C4C5546205D30315B2020644E2023206465646C6F66657361435F434B464E5F6E6568575F7365676E616843203B20202020393146462E2E30314646,
  0x4E4F4C4F43494D45532048544449574C4C55462E2E4E4F4C4F432048544449574C4C5546205D325B2020206F502023206465646C6F66657361435F434B464E5F6E6568575F7365676E616843203B20202020423146462E2E41314646,
  0x4E474953204E4148542D524554414552472048544449574C4C55462E2E4E474953204E4148542D5353454C2048544449574C4C5546205D335B2020206D532023206465646C6F66657361435F434B464E5F6E6568575F7365676E616843203B20202020453146462E2E43314646,
  0x5441204C41494352454D4D4F432048544449574C4C55462E2E4B52414D204E4F4954534555512048544449574C4C5546205D325B2020206F502023206465646C6F66657361435F434B464E5F6E6568575F7365676E616843203B20202020303246462E2E46314646,
  0x5A2052455454454C204C415449504143204E4954414C2048544449574C4C55462E2E412052455454454C204C415449504143204E4954414C2048544449574C4C5546205D36325B2020264C2023206465646C6F66657361435F434B464E5F6E6568575F7365676E616843203B20202020413346462E2E31324646,
  0x54454B4341524220455241555153205446454C2048544449574C4C55462020202020202073502023206465646C6F66657361435F434B464E5F6E6568575F7365676E616843203B2020202020202020202042334646,
  0x535544494C4F5320455352455645522048544449574C4C5546202020202020206F502023206465646C6F66657361435F434B464E5F6E6568575F7365676E616843203B2020202020202020202043334646,
  0x54454B43415242204552415551532054484749522048544449574C4C55462020202020202065502023206465646C6F66657361435F434B464E5F6E6568575F7365676E616843203B2020202020202020202044334646,
  0x544E454343412058454C464D55435249432048544449574C4C5546202020202020206B532023206465646C6F66657361435F434B464E5F6E6568575F7365676E616843203B2020202020202020202045334646,
  0x454E494C20574F4C2048544449574C4C55462020202020202063502023206465646C6F66657361435F434B464E5F6E6568575F7365676E616843203B2020202020202020202046334646,
  0x544E454343412045564152472048544449574C4C5546202020202020206B532023206465646C6F66657361435F434B464E5F6E6568575F7365676E616843203B2020202020202020202030344646,
  0x5A2052455454454C204C4C414D53204E4954414C2048544449574C4C55462E2E412052455454454C204C4C414D53204E4954414C2048544449574C4C5546205D36325B2020264C2023206465646C6F66657361435F434B464E5F6E6568575F7365676E616843203B20202020413546462E2E31344646,
  0x54454B4341524220594C525543205446454C2048544449574C4C55462020202020202073502023206465646C6F66657361435F434B464E5F6E6568575F7365676E616843203B2020202020202020202042354646,
  0x454E494C204C414349545245562048544449574C4C5546202020202020206D532023206465646C6F66657361435F434B464E5F6E6568575F7365676E616843203B2020202020202020202043354646,
  0x54454B4341524220594C5255432054484749522048544449574C4C55462020202020202065502023206465646C6F66657361435F434B464E5F6E6568575F7365676E616843203B2020202020202020202044354646,
  0x45444C49542048544449574C4C5546202020202020206D532023206465646C6F66657361435F434B464E5F6E6568575F7365676E616843203B2020202020202020202045354646,
  0x5349534548544E45524150204554494857205446454C2048544449574C4C55462020202020202073502023206465646C6F66657361435F434B464E5F6E6568575F7365676E616843203B2020202020202020202046354646,
  0x5349534548544E455241502045544948572054484749522048544449574C4C55462020202020202065502023206465646C6F66657361435F434B464E5F6E6568575F7365676E616843203B2020202020202020202030364646,
  0x504F5453204C4C554620434948504152474F454449204854444957464C4148202020202020206F502023206465646C6F66657361435F434B464E5F6E6568575F7365676E616843203B2020202020202020202031364646,
  0x54454B434152422052454E524F43205446454C204854444957464C41482020202020202073502023206465646C6F66657361435F434B464E5F6E6568575F7365676E616843203B2020202020202020202032364646,
  0x54454B434152422052454E524F43205448474952204854444957464C41482020202020202065502023206465646C6F66657361435F434B464E5F6E6568575F7365676E616843203B2020202020202020202033364646,
  0x544F4420454C4444494D20414E414B4154414B204854444957464C41482E2E414D4D4F4320434948504152474F454449204854444957464C4148205D325B2020206F502023206465646C6F66657361435F434B464E5F6E6568575F7365676E616843203B20202020353646462E2E34364646,
  0x5554204C4C414D532052455454454C20414E414B4154414B204854444957464C41482E2E4F572052455454454C20414E414B4154414B204854444957464C4148205D30315B20206F4C2023206465646C6F66657361435F434B464E5F6E6568575F7365676E616843203B20202020463646462E2E36364646,
  0x4B52414D20444E554F53204445474E4F4C4F525020414E4147415249482D414E414B4154414B204854444957464C4148202020202020206D4C2023206465646C6F66657361435F434B464E5F6E6568575F7365676E616843203B2020202020202020202030374646,
  0x4E2052455454454C20414E414B4154414B204854444957464C41482E2E412052455454454C20414E414B4154414B204854444957464C4148205D35345B20206F4C2023206465646C6F66657361435F434B464E5F6E6568575F7365676E616843203B20202020443946462E2E31374646,
  0x4B52414D20444E554F5320444543494F562D494D455320414E414B4154414B204854444957464C41482E2E4B52414D20444E554F5320444543494F5620414E414B4154414B204854444957464C4148205D325B2020206D4C2023206465646C6F66657361435F434B464E5F6E6568575F7365676E616843203B20202020463946462E2E45394646,
  0x48554549482052455454454C204C55474E4148204854444957464C41482E2E52454C4C4946204C55474E4148204854444957464C4148205D31335B20206F4C2023206465646C6F66657361435F434B464E5F6E6568575F7365676E616843203B20202020454246462E2E30414646,
  0x452052455454454C204C55474E4148204854444957464C41482E2E412052455454454C204C55474E4148204854444957464C4148205D365B2020206F4C2023206465646C6F66657361435F434B464E5F6E6568575F7365676E616843203B20202020374346462E2E32434646,
  0x454F2052455454454C204C55474E4148204854444957464C41482E2E4F45592052455454454C204C55474E4148204854444957464C4148205D365B2020206F4C2023206465646C6F66657361435F434B464E5F6E6568575F7365676E616843203B20202020464346462E2E41434646,
  0x55592052455454454C204C55474E4148204854444957464C41482E2E4F592052455454454C204C55474E4148204854444957464C4148205D365B2020206F4C2023206465646C6F66657361435F434B464E5F6E6568575F7365676E616843203B20202020374446462E2E32444646,
  0x492052455454454C204C55474E4148204854444957464C41482E2E55452052455454454C204C55474E4148204854444957464C4148205D335B2020206F4C2023206465646C6F66657361435F434B464E5F6E6568575F7365676E616843203B20202020434446462E2E41444646,
  0x4E47495320444E554F502048544449574C4C55462E2E4E47495320544E45432048544449574C4C5546205D325B20202063532023206465646C6F66657361435F434B464E5F6E6568575F7365676E616843203B20202020314546462E2E30454646,
  0x4E47495320544F4E2048544449574C4C5546202020202020206D532023206465646C6F66657361435F434B464E5F6E6568575F7365676E616843203B2020202020202020202032454646,
  0x4E4F5243414D2048544449574C4C5546202020202020206B532023206465646C6F66657361435F434B464E5F6E6568575F7365676E616843203B2020202020202020202033454646,
  0x524142204E454B4F52422048544449574C4C5546202020202020206F532023206465646C6F66657361435F434B464E5F6E6568575F7365676E616843203B2020202020202020202034454646,
  0x4E474953204E4F572048544449574C4C55462E2E4E474953204E45592048544449574C4C5546205D325B20202063532023206465646C6F66657361435F434B464E5F6E6568575F7365676E616843203B20202020364546462E2E35454646,
  0x4C4143495452455620544847494C20534D524F46204854444957464C4148202020202020206F532023206465646C6F66657361435F434B464E5F6E6568575F7365676E616843203B2020202020202020202038454646,
  0x574F5252412053445241574E574F44204854444957464C41482E2E574F5252412053445241575446454C204854444957464C4148205D345B2020206D532023206465646C6F66657361435F434B464E5F6E6568575F7365676E616843203B20202020434546462E2E39454646,
  0x454C43524943204554494857204854444957464C41482E2E455241555153204B43414C42204854444957464C4148205D325B2020206F532023206465646C6F66657361435F434B464E5F6E6568575F7365676E616843203B20202020454546462E2E44454646,
  0x3E384646462D64657672657365723C2E2E3E304646462D64657672657365723C205D395B2020206E432023206465646C6F66657361435F434B464E5F6E6568575F7365676E616843203B20202020384646462E2E30464646,
  0x57452052455454454C204C41544950414320544552455345442E2E4920474E4F4C2052455454454C204C4154495041432054455245534544205D30345B2020264C2023206465646C6F66657361435F434B464E5F6E6568575F7365676E616843203B202037323430312E2E3030343031,
  0x41485A2052455454454C204C41544950414320454741534F2E2E412052455454454C204C41544950414320454741534F205D36335B2020264C2023206465646C6F66657361435F434B464E5F6E6568575F7365676E616843203B202033443430312E2E3042343031,
  0x53552052455454454C204C415449504143204E41495241474E554820444C4F2E2E412052455454454C204C415449504143204E41495241474E554820444C4F205D31355B2020264C2023206465646C6F66657361435F434B464E5F6E6568575F7365676E616843203B202032424330312E2E3038433031,
  0x4F5949562052455454454C204C415449504143204954494320474E415241572E2E4141474E2052455454454C204C415449504143204954494320474E41524157205D32335B2020264C2023206465646C6F66657361435F434B464E5F6E6568575F7365676E616843203B202046423831312E2E3041383131,
  0x592052455454454C204C415449504143204E4952444941464544454D2E2E4D2052455454454C204C415449504143204E4952444941464544454D205D32335B2020264C2023206465646C6F66657361435F434B464E5F6E6568575F7365676E616843203B202046354536312E2E3034453631,
  0x504554532050552054414D524F4620444E414854524F48532E2E50414C5245564F2052455454454C2054414D524F4620444E414854524F4853205D345B20202066432023206465646C6F66657361435F434B464E5F6E6568575F7365676E616843203B202033414342312E2E3041434231,
  0x45544F4E204854484749452D59544E45575420444552444E554820454E4F204C4F424D5953204C41434953554D2E2E45544F4E20464C4148204C4F424D5953204C41434953554D205D375B2020206F532023206465646C6F66657361435F434B464E5F6E6568575F7365676E616843203B202034363144312E2E4535314431,
  0x45534152485020444E45204C4F424D5953204C41434953554D2E2E4D414542204E49474542204C4F424D5953204C41434953554D205D385B20202066432023206465646C6F66657361435F434B464E5F6E6568575F7365676E616843203B202041373144312E2E3337314431,
  0x4B43414C422041535546204C4F424D5953204C41434953554D2E2E414D494E494D204C4F424D5953204C41434953554D205D365B2020206F532023206465646C6F66657361435F434B464E5F6E6568575F7365676E616843203B202030433144312E2E4242314431,
  0x47204C4C414D532043494C415449204C41434954414D454854414D2E2E41204C41544950414320444C4F42204C41434954414D454854414D205D35385B2020264C2023206465646C6F66657361435F434B464E5F6E6568575F7365676E616843203B202034353444312E2E3030344431,
  0x41204C41544950414320545049524353204C41434954414D454854414D2E2E49204C4C414D532043494C415449204C41434954414D454854414D205D31375B2020264C2023206465646C6F66657361435F434B464E5F6E6568575F7365676E616843203B202043393444312E2E3635344431,
  0x44204C41544950414320545049524353204C41434954414D454854414D2E2E43204C41544950414320545049524353204C41434954414D454854414D205D325B202020264C2023206465646C6F66657361435F434B464E5F6E6568575F7365676E616843203B202046393444312E2E4539344431,
  0x47204C41544950414320545049524353204C41434954414D454854414D20202020202020264C2023206465646C6F66657361435F434B464E5F6E6568575F7365676E616843203B2020202020202020203241344431,
  0x4B204C41544950414320545049524353204C41434954414D454854414D2E2E4A204C41544950414320545049524353204C41434954414D454854414D205D325B202020264C2023206465646C6F66657361435F434B464E5F6E6568575F7365676E616843203B202036413444312E2E3541344431,
  0x51204C41544950414320545049524353204C41434954414D454854414D2E2E4E204C41544950414320545049524353204C41434954414D454854414D205D345B202020264C2023206465646C6F66657361435F434B464E5F6E6568575F7365676E616843203B202043413444312E2E3941344431,
  0x44204C4C414D5320545049524353204C41434954414D454854414D2E2E53204C41544950414320545049524353204C41434954414D454854414D205D32315B2020264C2023206465646C6F66657361435F434B464E5F6E6568575F7365676E616843203B202039423444312E2E4541344431,
  0x46204C4C414D5320545049524353204C41434954414D454854414D20202020202020264C2023206465646C6F66657361435F434B464E5F6E6568575F7365676E616843203B2020202020202020204242344431,
  0x4E204C4C414D5320545049524353204C41434954414D454854414D2E2E48204C4C414D5320545049524353204C41434954414D454854414D205D375B202020264C2023206465646C6F66657361435F434B464E5F6E6568575F7365676E616843203B202033433444312E2E4442344431,
  0x42204C415449504143205255544B415246204C41434954414D454854414D2E2E50204C4C414D5320545049524353204C41434954414D454854414D205D35365B2020264C2023206465646C6F66657361435F434B464E5F6E6568575F7365676E616843203B202035303544312E2E3543344431,
  0x47204C415449504143205255544B415246204C41434954414D454854414D2E2E44204C415449504143205255544B415246204C41434954414D454854414D205D345B202020264C2023206465646C6F66657361435F434B464E5F6E6568575F7365676E616843203B202041303544312E2E3730354431,
  0x51204C415449504143205255544B415246204C41434954414D454854414D2E2E4A204C415449504143205255544B415246204C41434954414D454854414D205D385B202020264C2023206465646C6F66657361435F434B464E5F6E6568575F7365676E616843203B202034313544312E2E4430354431,
  0x59204C415449504143205255544B415246204C41434954414D454854414D2E2E53204C415449504143205255544B415246204C41434954414D454854414D205D375B202020264C2023206465646C6F66657361435F434B464E5F6E6568575F7365676E616843203B202043313544312E2E3631354431,
  0x42204C415449504143204B43555254532D454C42554F44204C41434954414D454854414D2E2E41204C4C414D53205255544B415246204C41434954414D454854414D205D38325B2020264C2023206465646C6F66657361435F434B464E5F6E6568575F7365676E616843203B202039333544312E2E4531354431,
  0x47204C415449504143204B43555254532D454C42554F44204C41434954414D454854414D2E2E44204C415449504143204B43555254532D454C42554F44204C41434954414D454854414D205D345B202020264C2023206465646C6F66657361435F434B464E5F6E6568575F7365676E616843203B202045333544312E2E4233354431,
  0x4D204C415449504143204B43555254532D454C42554F44204C41434954414D454854414D2E2E49204C415449504143204B43555254532D454C42554F44204C41434954414D454854414D205D355B202020264C2023206465646C6F66657361435F434B464E5F6E6568575F7365676E616843203B202034343544312E2E3034354431,
  0x4F204C415449504143204B43555254532D454C42554F44204C41434954414D454854414D20202020202020264C2023206465646C6F66657361435F434B464E5F6E6568575F7365676E616843203B2020202020202020203634354431,
  0x59204C415449504143204B43555254532D454C42554F44204C41434954414D454854414D2E2E53204C415449504143204B43555254532D454C42554F44204C41434954414D454854414D205D375B202020264C2023206465646C6F66657361435F434B464E5F6E6568575F7365676E616843203B202030353544312E2E4134354431]

def qcText39 : List Nat := [
  0x4A205353454C544F44204C4C414D532043494C415449204C41434954414D454854414D2E2E41204C4C414D53204B43555254532D454C42554F44204C41434954414D454854414D205D3034335B20264C2023206465646C6F66657361435F434B464E5F6E6568575F7365676E616843203B202035413644312E2E3235354431,
  0x4147454D4F204C41544950414320444C4F42204C41434954414D454854414D2E2E4148504C41204C41544950414320444C4F42204C41434954414D454854414D205D35325B2020264C2023206465646C6F66657361435F434B464E5F6E6568575F7365676E616843203B202030433644312E2E3841364431,
  0x414C42414E20444C4F42204C41434954414D454854414D202020202020206D532023206465646C6F66657361435F434B464E5F6E6568575F7365676E616843203B2020202020202020203143364431,
  0x4147454D4F204C4C414D5320444C4F42204C41434954414D454854414D2E2E4148504C41204C4C414D5320444C4F42204C41434954414D454854414D205D35325B2020264C2023206465646C6F66657361435F434B464E5F6E6568575F7365676E616843203B202041443644312E2E3243364431,
  0x4C4149544E45524546464944204C41495452415020444C4F42204C41434954414D454854414D202020202020206D532023206465646C6F66657361435F434B464E5F6E6568575F7365676E616843203B2020202020202020204244364431,
  0x4147454D4F204C4154495041432043494C415449204C41434954414D454854414D2E2E4C4F424D5953204E4F4C4953504520444C4F42204C41434954414D454854414D205D31335B2020264C2023206465646C6F66657361435F434B464E5F6E6568575F7365676E616843203B202041463644312E2E4344364431,
  0x414C42414E2043494C415449204C41434954414D454854414D202020202020206D532023206465646C6F66657361435F434B464E5F6E6568575F7365676E616843203B2020202020202020204246364431,
  0x4147454D4F204C4C414D532043494C415449204C41434954414D454854414D2E2E4148504C41204C4C414D532043494C415449204C41434954414D454854414D205D35325B2020264C2023206465646C6F66657361435F434B464E5F6E6568575F7365676E616843203B202034313744312E2E4346364431,
  0x4C4149544E45524546464944204C4149545241502043494C415449204C41434954414D454854414D202020202020206D532023206465646C6F66657361435F434B464E5F6E6568575F7365676E616843203B2020202020202020203531374431,
  0x4147454D4F204C4154495041432043494C41544920444C4F42204C41434954414D454854414D2E2E4C4F424D5953204E4F4C495350452043494C415449204C41434954414D454854414D205D31335B2020264C2023206465646C6F66657361435F434B464E5F6E6568575F7365676E616843203B202034333744312E2E3631374431,
  0x414C42414E2043494C41544920444C4F42204C41434954414D454854414D202020202020206D532023206465646C6F66657361435F434B464E5F6E6568575F7365676E616843203B2020202020202020203533374431,
  0x4147454D4F204C4C414D532043494C41544920444C4F42204C41434954414D454854414D2E2E4148504C41204C4C414D532043494C41544920444C4F42204C41434954414D454854414D205D35325B2020264C2023206465646C6F66657361435F434B464E5F6E6568575F7365676E616843203B202045343744312E2E3633374431,
  0x4C4149544E45524546464944204C4149545241502043494C41544920444C4F42204C41434954414D454854414D202020202020206D532023206465646C6F66657361435F434B464E5F6E6568575F7365676E616843203B2020202020202020204634374431,
  0x4147454D4F204C41544950414320444C4F422046495245532D534E4153204C41434954414D454854414D2E2E4C4F424D5953204E4F4C495350452043494C41544920444C4F42204C41434954414D454854414D205D31335B2020264C2023206465646C6F66657361435F434B464E5F6E6568575F7365676E616843203B202045363744312E2E3035374431,
  0x414C42414E20444C4F422046495245532D534E4153204C41434954414D454854414D202020202020206D532023206465646C6F66657361435F434B464E5F6E6568575F7365676E616843203B2020202020202020204636374431,
  0x4147454D4F204C4C414D5320444C4F422046495245532D534E4153204C41434954414D454854414D2E2E4148504C41204C4C414D5320444C4F422046495245532D534E4153204C41434954414D454854414D205D35325B2020264C2023206465646C6F66657361435F434B464E5F6E6568575F7365676E616843203B202038383744312E2E3037374431,
  0x4C4149544E45524546464944204C41495452415020444C4F422046495245532D534E4153204C41434954414D454854414D202020202020206D532023206465646C6F66657361435F434B464E5F6E6568575F7365676E616843203B2020202020202020203938374431,
  0x4147454D4F204C4154495041432043494C41544920444C4F422046495245532D534E4153204C41434954414D454854414D2E2E4C4F424D5953204E4F4C4953504520444C4F422046495245532D534E4153204C41434954414D454854414D205D31335B2020264C2023206465646C6F66657361435F434B464E5F6E6568575F7365676E616843203B202038413744312E2E4138374431,
  0x414C42414E2043494C41544920444C4F422046495245532D534E4153204C41434954414D454854414D202020202020206D532023206465646C6F66657361435F434B464E5F6E6568575F7365676E616843203B2020202020202020203941374431,
  0x4147454D4F204C4C414D532043494C41544920444C4F422046495245532D534E4153204C41434954414D454854414D2E2E4148504C41204C4C414D532043494C41544920444C4F422046495245532D534E4153204C41434954414D454854414D205D35325B2020264C2023206465646C6F66657361435F434B464E5F6E6568575F7365676E616843203B202032433744312E2E4141374431,
  0x4C4149544E45524546464944204C4149545241502043494C41544920444C4F422046495245532D534E4153204C41434954414D454854414D202020202020206D532023206465646C6F66657361435F434B464E5F6E6568575F7365676E616843203B2020202020202020203343374431,
  0x414D4D41474944204C4C414D5320444C4F42204C41434954414D454854414D2E2E4C4F424D5953204E4F4C495350452043494C41544920444C4F422046495245532D534E4153204C41434954414D454854414D205D385B202020264C2023206465646C6F66657361435F434B464E5F6E6568575F7365676E616843203B202042433744312E2E3443374431,
  0x454E494E2054494749442045434150534F4E4F4D204C41434954414D454854414D2E2E4F52455A20544947494420444C4F42204C41434954414D454854414D205D30355B2020644E2023206465646C6F66657361435F434B464E5F6E6568575F7365676E616843203B202046463744312E2E4543374431,
  0x4148532052455454454C204C415449504143204D414C44412E2E46494C412052455454454C204C415449504143204D414C4441205D34335B2020264C2023206465646C6F66657361435F434B464E5F6E6568575F7365676E616843203B202031323945312E2E3030394531,
  0x4C4144204C41434954414D454854414D204349424152412E2E46454C41204C41434954414D454854414D20434942415241205D345B2020206F4C2023206465646C6F66657361435F434B464E5F6E6568575F7365676E616843203B202033304545312E2E3030454531,
  0x464151205353454C544F44204C41434954414D454854414D204349424152412E2E574157204C41434954414D454854414D20434942415241205D37325B20206F4C2023206465646C6F66657361435F434B464E5F6E6568575F7365676E616843203B202046314545312E2E3530454531,
  0x4D45454A204C414954494E49204C41434954414D454854414D204349424152412E2E484542204C414954494E49204C41434954414D454854414D20434942415241205D325B2020206F4C2023206465646C6F66657361435F434B464E5F6E6568575F7365676E616843203B202032324545312E2E3132454531,
  0x484548204C414954494E49204C41434954414D454854414D20434942415241202020202020206F4C2023206465646C6F66657361435F434B464E5F6E6568575F7365676E616843203B2020202020202020203432454531,
  0x484148204C414954494E49204C41434954414D454854414D20434942415241202020202020206F4C2023206465646C6F66657361435F434B464E5F6E6568575F7365676E616843203B2020202020202020203732454531,
  0x464151204C414954494E49204C41434954414D454854414D204349424152412E2E484559204C414954494E49204C41434954414D454854414D20434942415241205D30315B20206F4C2023206465646C6F66657361435F434B464E5F6E6568575F7365676E616843203B202032334545312E2E3932454531,
  0x4841484B204C414954494E49204C41434954414D454854414D204349424152412E2E4E45454853204C414954494E49204C41434954414D454854414D20434942415241205D345B2020206F4C2023206465646C6F66657361435F434B464E5F6E6568575F7365676E616843203B202037334545312E2E3433454531,
  0x444144204C414954494E49204C41434954414D454854414D20434942415241202020202020206F4C2023206465646C6F66657361435F434B464E5F6E6568575F7365676E616843203B2020202020202020203933454531,
  0x4E49414847204C414954494E49204C41434954414D454854414D20434942415241202020202020206F4C2023206465646C6F66657361435F434B464E5F6E6568575F7365676E616843203B2020202020202020204233454531,
  0x4D45454A2044454C494154204C41434954414D454854414D20434942415241202020202020206F4C2023206465646C6F66657361435F434B464E5F6E6568575F7365676E616843203B2020202020202020203234454531,
  0x4841482044454C494154204C41434954414D454854414D20434942415241202020202020206F4C2023206465646C6F66657361435F434B464E5F6E6568575F7365676E616843203B2020202020202020203734454531,
  0x4845592044454C494154204C41434954414D454854414D20434942415241202020202020206F4C2023206465646C6F66657361435F434B464E5F6E6568575F7365676E616843203B2020202020202020203934454531,
  0x4D414C2044454C494154204C41434954414D454854414D20434942415241202020202020206F4C2023206465646C6F66657361435F434B464E5F6E6568575F7365676E616843203B2020202020202020204234454531,
  0x4E49412044454C494154204C41434954414D454854414D204349424152412E2E4E4F4F4E2044454C494154204C41434954414D454854414D20434942415241205D335B2020206F4C2023206465646C6F66657361435F434B464E5F6E6568575F7365676E616843203B202046344545312E2E4434454531,
  0x4641512044454C494154204C41434954414D454854414D204349424152412E2E4441532044454C494154204C41434954414D454854414D20434942415241205D325B2020206F4C2023206465646C6F66657361435F434B464E5F6E6568575F7365676E616843203B202032354545312E2E3135454531,
  0x4E454548532044454C494154204C41434954414D454854414D20434942415241202020202020206F4C2023206465646C6F66657361435F434B464E5F6E6568575F7365676E616843203B2020202020202020203435454531,
  0x4841484B2044454C494154204C41434954414D454854414D20434942415241202020202020206F4C2023206465646C6F66657361435F434B464E5F6E6568575F7365676E616843203B2020202020202020203735454531,
  0x4441442044454C494154204C41434954414D454854414D20434942415241202020202020206F4C2023206465646C6F66657361435F434B464E5F6E6568575F7365676E616843203B2020202020202020203935454531,
  0x4E494148472044454C494154204C41434954414D454854414D20434942415241202020202020206F4C2023206465646C6F66657361435F434B464E5F6E6568575F7365676E616843203B2020202020202020204235454531,
  0x4E4F4F4E205353454C544F442044454C494154204C41434954414D454854414D20434942415241202020202020206F4C2023206465646C6F66657361435F434B464E5F6E6568575F7365676E616843203B2020202020202020204435454531,
  0x464151205353454C544F442044454C494154204C41434954414D454854414D20434942415241202020202020206F4C2023206465646C6F66657361435F434B464E5F6E6568575F7365676E616843203B2020202020202020204635454531,
  0x4D45454A20444548435445525453204C41434954414D454854414D204349424152412E2E48454220444548435445525453204C41434954414D454854414D20434942415241205D325B2020206F4C2023206465646C6F66657361435F434B464E5F6E6568575F7365676E616843203B202032364545312E2E3136454531,
  0x48454820444548435445525453204C41434954414D454854414D20434942415241202020202020206F4C2023206465646C6F66657361435F434B464E5F6E6568575F7365676E616843203B2020202020202020203436454531,
  0x46414B20444548435445525453204C41434954414D454854414D204349424152412E2E48414820444548435445525453204C41434954414D454854414D20434942415241205D345B2020206F4C2023206465646C6F66657361435F434B464E5F6E6568575F7365676E616843203B202041364545312E2E3736454531,
  0x46415120444548435445525453204C41434954414D454854414D204349424152412E2E4D45454D20444548435445525453204C41434954414D454854414D20434942415241205D375B2020206F4C2023206465646C6F66657361435F434B464E5F6E6568575F7365676E616843203B202032374545312E2E4336454531,
  0x4841484B20444548435445525453204C41434954414D454854414D204349424152412E2E4E4545485320444548435445525453204C41434954414D454854414D20434942415241205D345B2020206F4C2023206465646C6F66657361435F434B464E5F6E6568575F7365676E616843203B202037374545312E2E3437454531,
  0x484542205353454C544F4420444548435445525453204C41434954414D454854414D204349424152412E2E44414420444548435445525453204C41434954414D454854414D20434942415241205D345B2020206F4C2023206465646C6F66657361435F434B464E5F6E6568575F7365676E616843203B202043374545312E2E3937454531,
  0x484546205353454C544F4420444548435445525453204C41434954414D454854414D20434942415241202020202020206F4C2023206465646C6F66657361435F434B464E5F6E6568575F7365676E616843203B2020202020202020204537454531,
  0x484559204445504F4F4C204C41434954414D454854414D204349424152412E2E46454C41204445504F4F4C204C41434954414D454854414D20434942415241205D30315B20206F4C2023206465646C6F66657361435F434B464E5F6E6568575F7365676E616843203B202039384545312E2E3038454531,
  0x4E49414847204445504F4F4C204C41434954414D454854414D204349424152412E2E4D414C204445504F4F4C204C41434954414D454854414D20434942415241205D37315B20206F4C2023206465646C6F66657361435F434B464E5F6E6568575F7365676E616843203B202042394545312E2E4238454531,
  0x4C4144204B43555254532D454C42554F44204C41434954414D454854414D204349424152412E2E484542204B43555254532D454C42554F44204C41434954414D454854414D20434942415241205D335B2020206F4C2023206465646C6F66657361435F434B464E5F6E6568575F7365676E616843203B202033414545312E2E3141454531,
  0x484559204B43555254532D454C42554F44204C41434954414D454854414D204349424152412E2E574157204B43555254532D454C42554F44204C41434954414D454854414D20434942415241205D355B2020206F4C2023206465646C6F66657361435F434B464E5F6E6568575F7365676E616843203B202039414545312E2E3541454531,
  0x4E49414847204B43555254532D454C42554F44204C41434954414D454854414D204349424152412E2E4D414C204B43555254532D454C42554F44204C41434954414D454854414D20434942415241205D37315B20206F4C2023206465646C6F66657361435F434B464E5F6E6568575F7365676E616843203B202042424545312E2E4241454531,
  0x414D4D4F4320454E494E2054494749442E2E504F5453204C4C5546204F52455A205449474944205D31315B20206F4E2023206465646C6F66657361435F434B464E5F6E6568575F7365676E616843203B202041303146312E2E3030314631,
  0x5A572044454C435249432E2E412052455454454C204C415449504143204E4954414C2044455A49534548544E45524150205D31335B20206F532023206465646C6F66657361435F434B464E5F6E6568575F7365676E616843203B202045323146312E2E3031314631,
  0x435720444552415551532E2E412052455454454C204C415449504143204E4954414C2044455241555153205D32335B20206F532023206465646C6F66657361435F434B464E5F6E6568575F7365676E616843203B202046343146312E2E3033314631,
  0x4E47495320524D204445534941522E2E4E47495320434D20444553494152205D335B2020206F532023206465646C6F66657361435F434B464E5F6E6568575F7365676E616843203B202043363146312E2E4136314631,
  0x4A4420455241555153202020202020206F532023206465646C6F66657361435F434B464E5F6E6568575F7365676E616843203B2020202020202020203039314631,
  0x415320414E414B4154414B20444552415551532E2E414B4F4820414E41474152494820455241555153205D335B2020206F532023206465646C6F66657361435F434B464E5F6E6568575F7365676E616843203B202032303246312E2E3030324631,
  0x443431392D48504152474F4544492044454946494E55204B4A4320444552415551532E2E423432362D48504152474F4544492044454946494E55204B4A432044455241555153205D34345B20206F532023206465646C6F66657361435F434B464E5F6E6568575F7365676E616843203B202042333246312E2E3031324631,
  0x373535362D48504152474F4544492044454946494E55204B4A4320444554454B43415242204C4C454853204553494F54524F542E2E433237362D48504152474F4544492044454946494E55204B4A4320444554454B43415242204C4C454853204553494F54524F54205D395B2020206F532023206465646C6F66657361435F434B464E5F6E6568575F7365676E616843203B202038343246312E2E3034324631,
  0x5450454343412048504152474F4544492044454C435249432E2E454741544E415644412048504152474F4544492044454C43524943205D325B2020206F532023206465646C6F66657361435F434B464E5F6E6568575F7365676E616843203B202031353246312E2E3035324631,
  0x454E494E205449474944204445544E454D4745532E2E4F52455A205449474944204445544E454D474553205D30315B2020644E2023206465646C6F66657361435F434B464E5F6E6568575F7365676E616843203B202039464246312E2E3046424631,
  0x44314146322D48504152474F454449205954494C4942495441504D4F43204B4A432E2E30303846322D48504152474F454449205954494C4942495441504D4F43204B4A43205D3234355B206F4C2023206465646C6F66657361435F434B464E5F6E6568575F7365676E616843203B202044314146322E2E3030384632,
  0x3E30303030452D64657672657365723C202020202020206E432023206465646C6F66657361435F434B464E5F6E6568575F7365676E616843203B2020202020202020203030303045,
  0x4741542045474155474E414C2020202020202066432023206465646C6F66657361435F434B464E5F6E6568575F7365676E616843203B2020202020202020203130303045,
  0x3E46313030452D64657672657365723C2E2E3E32303030452D64657672657365723C205D30335B20206E432023206465646C6F66657361435F434B464E5F6E6568575F7365676E616843203B202046313030452E2E3230303045,
  0x474154204C45434E41432E2E454341505320474154205D36395B202066432023206465646C6F66657361435F434B464E5F6E6568575F7365676E616843203B202046373030452E2E3032303045,
  0x3E46463030452D64657672657365723C2E2E3E30383030452D64657672657365723C205D3832315B206E432023206465646C6F66657361435F434B464E5F6E6568575F7365676E616843203B202046463030452E2E3038303045,
  0x3635322D524F5443454C4553204E4F495441495241562E2E37312D524F5443454C4553204E4F49544149524156205D3034325B206E4D2023206465646C6F66657361435F434B464E5F6E6568575F7365676E616843203B202046453130452E2E3030313045,
  0x3E46464630452D64657672657365723C2E2E3E30463130452D64657672657365723C205D303036335B206E432023206465646C6F66657361435F434B464E5F6E6568575F7365676E616843203B202046464630452E2E3046313045,
  0x0,
  0x3932333031203A73746E696F702065646F63206C61746F542023,
  0x0,
  0x464F452023]

/-- All the lines, in chunks. -/
def qcTextChunks : List (List Nat) := [
  qcText0, qcText1, qcText2, qcText3, qcText4, qcText5, qcText6, qcText7,
  qcText8, qcText9, qcText10, qcText11, qcText12, qcText13, qcText14, qcText15,
  qcText16, qcText17, qcText18, qcText19, qcText20, qcText21, qcText22, qcText23,
  qcText24, qcText25, qcText26, qcText27, qcText28, qcText29, qcText30, qcText31,
  qcText32, qcText33, qcText34, qcText35, qcText36, qcText37, qcText38, qcText39]

/-- All the lines. -/
def qcText : List Nat := qcTextChunks.flatten

end Idn2.Shipped
