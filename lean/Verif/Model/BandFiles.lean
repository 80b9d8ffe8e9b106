import Verif.Model.Lists

/-!
The ten default response curves (`kcorrect.py:896–897, 1089–1091`) as they are in `data/responses/*.dat`: the columns `lambda` and `pass`, every
row of the file in the order of the file, as integers with a common number of decimals.
-/

namespace KC

/-- one file: its name without `.dat`, the number of decimals of `lambda` and of `pass`, and the rows -/
structure BandFile where
  name : Name
  wdec : Nat
  pdec : Nat
  rows : List (Nat × Int)
  deriving DecidableEq

def rows_galex_FUV_0 : List (Nat × Int) :=
  [(1340, 0), (1341, 11540), (1342, 23080), (1343, 34620), (1344, 46160), (1345, 57700), (1346, 69240), (1347, 80780), (1348, 92320), (1349, 103860),
   (1350, 115400), (1351, 118456), (1352, 121512), (1353, 124568), (1354, 127624), (1355, 130680), (1356, 133736), (1357, 136792), (1358, 139848),
   (1359, 142904), (1360, 145960), (1361, 149016), (1362, 152072), (1363, 155128), (1364, 158184), (1365, 161240), (1366, 164296), (1367, 167352),
   (1368, 170408), (1369, 173464), (1370, 176520), (1371, 176642), (1372, 176764), (1373, 176886), (1374, 177008), (1375, 177130), (1376, 177252),
   (1377, 177374), (1378, 177496), (1379, 177618), (1380, 177740), (1381, 174928), (1382, 172116), (1383, 169304), (1384, 166492), (1385, 163680),
   (1386, 160868), (1387, 158056), (1388, 155244), (1389, 152432), (1390, 149620), (1391, 146808), (1392, 143996), (1393, 141184), (1394, 138372),
   (1395, 135560), (1396, 132748), (1397, 129936), (1398, 127124), (1399, 124312), (1400, 121500), (1401, 126744), (1402, 131988), (1403, 137232),
   (1404, 142476), (1405, 147720), (1406, 152964), (1407, 158208), (1408, 163452), (1409, 168696), (1410, 173940), (1411, 179184), (1412, 184428),
   (1413, 189672), (1414, 194916), (1415, 200160), (1416, 205404), (1417, 210648), (1418, 215892), (1419, 221136), (1420, 226380), (1421, 230784),
   (1422, 235188), (1423, 239592), (1424, 243996), (1425, 248400), (1426, 252804), (1427, 257208), (1428, 261612), (1429, 266016), (1430, 270420),
   (1431, 273984), (1432, 277548), (1433, 281112), (1434, 284676), (1435, 288240), (1436, 291804), (1437, 295368), (1438, 298932), (1439, 302496),
   (1440, 306060), (1441, 309624), (1442, 313188), (1443, 316752), (1444, 320316), (1445, 323880), (1446, 327444), (1447, 331008), (1448, 334572),
   (1449, 338136), (1450, 341700), (1451, 342944), (1452, 344188), (1453, 345432), (1454, 346676), (1455, 347920), (1456, 349164), (1457, 350408),
   (1458, 351652), (1459, 352896)]

def rows_galex_FUV_1 : List (Nat × Int) :=
  [(1460, 354140), (1461, 355384), (1462, 356628), (1463, 357872), (1464, 359116), (1465, 360360), (1466, 361604), (1467, 362848), (1468, 364092),
   (1469, 365336), (1470, 366580), (1471, 366728), (1472, 366876), (1473, 367024), (1474, 367172), (1475, 367320), (1476, 367468), (1477, 367616),
   (1478, 367764), (1479, 367912), (1480, 368060), (1481, 367112), (1482, 366164), (1483, 365216), (1484, 364268), (1485, 363320), (1486, 362372),
   (1487, 361424), (1488, 360476), (1489, 359528), (1490, 358580), (1491, 357632), (1492, 356684), (1493, 355736), (1494, 354788), (1495, 353840),
   (1496, 352892), (1497, 351944), (1498, 350996), (1499, 350048), (1500, 349100), (1501, 348988), (1502, 348876), (1503, 348764), (1504, 348652),
   (1505, 348540), (1506, 348428), (1507, 348316), (1508, 348204), (1509, 348092), (1510, 347980), (1511, 347868), (1512, 347756), (1513, 347644),
   (1514, 347532), (1515, 347420), (1516, 347308), (1517, 347196), (1518, 347084), (1519, 346972), (1520, 346860), (1521, 345116), (1522, 343372),
   (1523, 341628), (1524, 339884), (1525, 338140), (1526, 336396), (1527, 334652), (1528, 332908), (1529, 331164), (1530, 329420), (1531, 326044),
   (1532, 322668), (1533, 319292), (1534, 315916), (1535, 312540), (1536, 309164), (1537, 305788), (1538, 302412), (1539, 299036), (1540, 295660),
   (1541, 292284), (1542, 288908), (1543, 285532), (1544, 282156), (1545, 278780), (1546, 275404), (1547, 272028), (1548, 268652), (1549, 265276),
   (1550, 261900), (1551, 261797), (1552, 261693), (1553, 261590), (1554, 261487), (1555, 261383), (1556, 261280), (1557, 261177), (1558, 261074),
   (1559, 260970), (1560, 260867), (1561, 260764), (1562, 260660), (1563, 260557), (1564, 260453), (1565, 260350), (1566, 260247), (1567, 260143),
   (1568, 260040), (1569, 259936), (1570, 259833), (1571, 259730), (1572, 259626), (1573, 259523), (1574, 259420), (1575, 259316), (1576, 259213),
   (1577, 259110), (1578, 259007), (1579, 258903)]

def rows_galex_FUV_2 : List (Nat × Int) :=
  [(1580, 258800), (1581, 258697), (1582, 258593), (1583, 258490), (1584, 258387), (1585, 258284), (1586, 258180), (1587, 258077), (1588, 257974),
   (1589, 257870), (1590, 257767), (1591, 257664), (1592, 257560), (1593, 257457), (1594, 257353), (1595, 257250), (1596, 257147), (1597, 257043),
   (1598, 256940), (1599, 256836), (1600, 256733), (1601, 256630), (1602, 256526), (1603, 256423), (1604, 256320), (1605, 256217), (1606, 256113),
   (1607, 256010), (1608, 255907), (1609, 255803), (1610, 255700), (1611, 253290), (1612, 250880), (1613, 248470), (1614, 246060), (1615, 243650),
   (1616, 241240), (1617, 238830), (1618, 236420), (1619, 234010), (1620, 231600), (1621, 229190), (1622, 226780), (1623, 224370), (1624, 221960),
   (1625, 219550), (1626, 217140), (1627, 214730), (1628, 212320), (1629, 209910), (1630, 207500), (1631, 205090), (1632, 202680), (1633, 200270),
   (1634, 197860), (1635, 195450), (1636, 193040), (1637, 190630), (1638, 188220), (1639, 185810), (1640, 183400), (1641, 180990), (1642, 178580),
   (1643, 176170), (1644, 173760), (1645, 171350), (1646, 168940), (1647, 166530), (1648, 164120), (1649, 161710), (1650, 159300), (1651, 158554),
   (1652, 157808), (1653, 157062), (1654, 156316), (1655, 155570), (1656, 154824), (1657, 154078), (1658, 153332), (1659, 152586), (1660, 151840),
   (1661, 151094), (1662, 150348), (1663, 149602), (1664, 148856), (1665, 148110), (1666, 147364), (1667, 146618), (1668, 145872), (1669, 145126),
   (1670, 144380), (1671, 143634), (1672, 142888), (1673, 142142), (1674, 141396), (1675, 140650), (1676, 139904), (1677, 139158), (1678, 138412),
   (1679, 137666), (1680, 136920), (1681, 136174), (1682, 135428), (1683, 134682), (1684, 133936), (1685, 133190), (1686, 132444), (1687, 131698),
   (1688, 130952), (1689, 130206), (1690, 129460), (1691, 128714), (1692, 127968), (1693, 127222), (1694, 126476), (1695, 125730), (1696, 124984),
   (1697, 124238), (1698, 123492), (1699, 122746)]

def rows_galex_FUV_3 : List (Nat × Int) :=
  [(1700, 122000), (1701, 121670), (1702, 121340), (1703, 121010), (1704, 120680), (1705, 120350), (1706, 120020), (1707, 119690), (1708, 119360),
   (1709, 119030), (1710, 118700), (1711, 118370), (1712, 118040), (1713, 117710), (1714, 117380), (1715, 117050), (1716, 116720), (1717, 116390),
   (1718, 116060), (1719, 115730), (1720, 115400), (1721, 115070), (1722, 114740), (1723, 114410), (1724, 114080), (1725, 113750), (1726, 113420),
   (1727, 113090), (1728, 112760), (1729, 112430), (1730, 112100), (1731, 111770), (1732, 111440), (1733, 111110), (1734, 110780), (1735, 110450),
   (1736, 110120), (1737, 109790), (1738, 109460), (1739, 109130), (1740, 108800), (1741, 108470), (1742, 108140), (1743, 107810), (1744, 107480),
   (1745, 107150), (1746, 106820), (1747, 106490), (1748, 106160), (1749, 105830), (1750, 105500), (1751, 103596), (1752, 101692), (1753, 99788),
   (1754, 97884), (1755, 95980), (1756, 94076), (1757, 92172), (1758, 90268), (1759, 88364), (1760, 86460), (1761, 84556), (1762, 82652), (1763, 80748),
   (1764, 78844), (1765, 76940), (1766, 75036), (1767, 73132), (1768, 71228), (1769, 69324), (1770, 67420), (1771, 65516), (1772, 63612), (1773, 61708),
   (1774, 59804), (1775, 57900), (1776, 55996), (1777, 54092), (1778, 52188), (1779, 50284), (1780, 48380), (1781, 46476), (1782, 44572), (1783, 42668),
   (1784, 40764), (1785, 38860), (1786, 36956), (1787, 35052), (1788, 33148), (1789, 31244), (1790, 29340), (1791, 27436), (1792, 25532), (1793, 23628),
   (1794, 21724), (1795, 19820), (1796, 17916), (1797, 16012), (1798, 14108), (1799, 12204), (1800, 10300), (1801, 9270), (1802, 8240), (1803, 7210),
   (1804, 6180), (1805, 5150), (1806, 4120), (1807, 3090), (1808, 2060), (1809, 1030), (1810, 0)]

/-- data/responses/galex_FUV.dat -/
def file_galex_FUV : BandFile := ⟨"galex_FUV".toList, 0, 4,
  rows_galex_FUV_0 ++ rows_galex_FUV_1 ++ rows_galex_FUV_2 ++ rows_galex_FUV_3⟩

def rows_galex_NUV_0 : List (Nat × Int) :=
  [(1690, 0), (1691, 2450), (1692, 4900), (1693, 7350), (1694, 9800), (1695, 12250), (1696, 14700), (1697, 17150), (1698, 19600), (1699, 22050),
   (1700, 24500), (1701, 24676), (1702, 24852), (1703, 25028), (1704, 25204), (1705, 25380), (1706, 25556), (1707, 25732), (1708, 25908), (1709, 26084),
   (1710, 26260), (1711, 26436), (1712, 26612), (1713, 26788), (1714, 26964), (1715, 27140), (1716, 27316), (1717, 27492), (1718, 27668), (1719, 27844),
   (1720, 28020), (1721, 28196), (1722, 28372), (1723, 28548), (1724, 28724), (1725, 28900), (1726, 29076), (1727, 29252), (1728, 29428), (1729, 29604),
   (1730, 29780), (1731, 29956), (1732, 30132), (1733, 30308), (1734, 30484), (1735, 30660), (1736, 30836), (1737, 31012), (1738, 31188), (1739, 31364),
   (1740, 31540), (1741, 31716), (1742, 31892), (1743, 32068), (1744, 32244), (1745, 32420), (1746, 32596), (1747, 32772), (1748, 32948), (1749, 33124),
   (1750, 33300), (1751, 34672), (1752, 36044), (1753, 37416), (1754, 38788), (1755, 40160), (1756, 41532), (1757, 42904), (1758, 44276), (1759, 45648),
   (1760, 47020), (1761, 48392), (1762, 49764), (1763, 51136), (1764, 52508), (1765, 53880), (1766, 55252), (1767, 56624), (1768, 57996), (1769, 59368),
   (1770, 60740), (1771, 62112), (1772, 63484), (1773, 64856), (1774, 66228), (1775, 67600), (1776, 68972), (1777, 70344), (1778, 71716), (1779, 73088),
   (1780, 74460), (1781, 75832), (1782, 77204), (1783, 78576), (1784, 79948), (1785, 81320), (1786, 82692), (1787, 84064), (1788, 85436), (1789, 86808),
   (1790, 88180), (1791, 89552), (1792, 90924), (1793, 92296), (1794, 93668), (1795, 95040), (1796, 96412), (1797, 97784), (1798, 99156),
   (1799, 100528), (1800, 101900), (1801, 103380), (1802, 104860), (1803, 106340), (1804, 107820), (1805, 109300), (1806, 110780), (1807, 112260),
   (1808, 113740), (1809, 115220)]

def rows_galex_NUV_1 : List (Nat × Int) :=
  [(1810, 116700), (1811, 118180), (1812, 119660), (1813, 121140), (1814, 122620), (1815, 124100), (1816, 125580), (1817, 127060), (1818, 128540),
   (1819, 130020), (1820, 131500), (1821, 132980), (1822, 134460), (1823, 135940), (1824, 137420), (1825, 138900), (1826, 140380), (1827, 141860),
   (1828, 143340), (1829, 144820), (1830, 146300), (1831, 147780), (1832, 149260), (1833, 150740), (1834, 152220), (1835, 153700), (1836, 155180),
   (1837, 156660), (1838, 158140), (1839, 159620), (1840, 161100), (1841, 162580), (1842, 164060), (1843, 165540), (1844, 167020), (1845, 168500),
   (1846, 169980), (1847, 171460), (1848, 172940), (1849, 174420), (1850, 175900), (1851, 177720), (1852, 179540), (1853, 181360), (1854, 183180),
   (1855, 185000), (1856, 186820), (1857, 188640), (1858, 190460), (1859, 192280), (1860, 194100), (1861, 195920), (1862, 197740), (1863, 199560),
   (1864, 201380), (1865, 203200), (1866, 205020), (1867, 206840), (1868, 208660), (1869, 210480), (1870, 212300), (1871, 214120), (1872, 215940),
   (1873, 217760), (1874, 219580), (1875, 221400), (1876, 223220), (1877, 225040), (1878, 226860), (1879, 228680), (1880, 230500), (1881, 232320),
   (1882, 234140), (1883, 235960), (1884, 237780), (1885, 239600), (1886, 241420), (1887, 243240), (1888, 245060), (1889, 246880), (1890, 248700),
   (1891, 250520), (1892, 252340), (1893, 254160), (1894, 255980), (1895, 257800), (1896, 259620), (1897, 261440), (1898, 263260), (1899, 265080),
   (1900, 266900), (1901, 268236), (1902, 269572), (1903, 270908), (1904, 272244), (1905, 273580), (1906, 274916), (1907, 276252), (1908, 277588),
   (1909, 278924), (1910, 280260), (1911, 281596), (1912, 282932), (1913, 284268), (1914, 285604), (1915, 286940), (1916, 288276), (1917, 289612),
   (1918, 290948), (1919, 292284), (1920, 293620), (1921, 294956), (1922, 296292), (1923, 297628), (1924, 298964), (1925, 300300), (1926, 301636),
   (1927, 302972), (1928, 304308), (1929, 305644)]

def rows_galex_NUV_2 : List (Nat × Int) :=
  [(1930, 306980), (1931, 308316), (1932, 309652), (1933, 310988), (1934, 312324), (1935, 313660), (1936, 314996), (1937, 316332), (1938, 317668),
   (1939, 319004), (1940, 320340), (1941, 321676), (1942, 323012), (1943, 324348), (1944, 325684), (1945, 327020), (1946, 328356), (1947, 329692),
   (1948, 331028), (1949, 332364), (1950, 333700), (1951, 336012), (1952, 338324), (1953, 340636), (1954, 342948), (1955, 345260), (1956, 347572),
   (1957, 349884), (1958, 352196), (1959, 354508), (1960, 356820), (1961, 359132), (1962, 361444), (1963, 363756), (1964, 366068), (1965, 368380),
   (1966, 370692), (1967, 373004), (1968, 375316), (1969, 377628), (1970, 379940), (1971, 382252), (1972, 384564), (1973, 386876), (1974, 389188),
   (1975, 391500), (1976, 393812), (1977, 396124), (1978, 398436), (1979, 400748), (1980, 403060), (1981, 405372), (1982, 407684), (1983, 409996),
   (1984, 412308), (1985, 414620), (1986, 416932), (1987, 419244), (1988, 421556), (1989, 423868), (1990, 426180), (1991, 428492), (1992, 430804),
   (1993, 433116), (1994, 435428), (1995, 437740), (1996, 440052), (1997, 442364), (1998, 444676), (1999, 446988), (2000, 449300), (2001, 449736),
   (2002, 450172), (2003, 450608), (2004, 451044), (2005, 451480), (2006, 451916), (2007, 452352), (2008, 452788), (2009, 453224), (2010, 453660),
   (2011, 454096), (2012, 454532), (2013, 454968), (2014, 455404), (2015, 455840), (2016, 456276), (2017, 456712), (2018, 457148), (2019, 457584),
   (2020, 458020), (2021, 458456), (2022, 458892), (2023, 459328), (2024, 459764), (2025, 460200), (2026, 460636), (2027, 461072), (2028, 461508),
   (2029, 461944), (2030, 462380), (2031, 462816), (2032, 463252), (2033, 463688), (2034, 464124), (2035, 464560), (2036, 464996), (2037, 465432),
   (2038, 465868), (2039, 466304), (2040, 466740), (2041, 467176), (2042, 467612), (2043, 468048), (2044, 468484), (2045, 468920), (2046, 469356),
   (2047, 469792), (2048, 470228), (2049, 470664)]

def rows_galex_NUV_3 : List (Nat × Int) :=
  [(2050, 471100), (2051, 472198), (2052, 473296), (2053, 474394), (2054, 475492), (2055, 476590), (2056, 477688), (2057, 478786), (2058, 479884),
   (2059, 480982), (2060, 482080), (2061, 483178), (2062, 484276), (2063, 485374), (2064, 486472), (2065, 487570), (2066, 488668), (2067, 489766),
   (2068, 490864), (2069, 491962), (2070, 493060), (2071, 494158), (2072, 495256), (2073, 496354), (2074, 497452), (2075, 498550), (2076, 499648),
   (2077, 500746), (2078, 501844), (2079, 502942), (2080, 504040), (2081, 505138), (2082, 506236), (2083, 507334), (2084, 508432), (2085, 509530),
   (2086, 510628), (2087, 511726), (2088, 512824), (2089, 513922), (2090, 515020), (2091, 516118), (2092, 517216), (2093, 518314), (2094, 519412),
   (2095, 520510), (2096, 521608), (2097, 522706), (2098, 523804), (2099, 524902), (2100, 526000), (2101, 527380), (2102, 528760), (2103, 530140),
   (2104, 531520), (2105, 532900), (2106, 534280), (2107, 535660), (2108, 537040), (2109, 538420), (2110, 539800), (2111, 541180), (2112, 542560),
   (2113, 543940), (2114, 545320), (2115, 546700), (2116, 548080), (2117, 549460), (2118, 550840), (2119, 552220), (2120, 553600), (2121, 554980),
   (2122, 556360), (2123, 557740), (2124, 559120), (2125, 560500), (2126, 561880), (2127, 563260), (2128, 564640), (2129, 566020), (2130, 567400),
   (2131, 568780), (2132, 570160), (2133, 571540), (2134, 572920), (2135, 574300), (2136, 575680), (2137, 577060), (2138, 578440), (2139, 579820),
   (2140, 581200), (2141, 582580), (2142, 583960), (2143, 585340), (2144, 586720), (2145, 588100), (2146, 589480), (2147, 590860), (2148, 592240),
   (2149, 593620), (2150, 595000), (2151, 595432), (2152, 595864), (2153, 596296), (2154, 596728), (2155, 597160), (2156, 597592), (2157, 598024),
   (2158, 598456), (2159, 598888), (2160, 599320), (2161, 599752), (2162, 600184), (2163, 600616), (2164, 601048), (2165, 601480), (2166, 601912),
   (2167, 602344), (2168, 602776), (2169, 603208)]

def rows_galex_NUV_4 : List (Nat × Int) :=
  [(2170, 603640), (2171, 604072), (2172, 604504), (2173, 604936), (2174, 605368), (2175, 605800), (2176, 606232), (2177, 606664), (2178, 607096),
   (2179, 607528), (2180, 607960), (2181, 608392), (2182, 608824), (2183, 609256), (2184, 609688), (2185, 610120), (2186, 610552), (2187, 610984),
   (2188, 611416), (2189, 611848), (2190, 612280), (2191, 612712), (2192, 613144), (2193, 613576), (2194, 614008), (2195, 614440), (2196, 614872),
   (2197, 615304), (2198, 615736), (2199, 616168), (2200, 616600), (2201, 615552), (2202, 614504), (2203, 613456), (2204, 612408), (2205, 611360),
   (2206, 610312), (2207, 609264), (2208, 608216), (2209, 607168), (2210, 606120), (2211, 605072), (2212, 604024), (2213, 602976), (2214, 601928),
   (2215, 600880), (2216, 599832), (2217, 598784), (2218, 597736), (2219, 596688), (2220, 595640), (2221, 594592), (2222, 593544), (2223, 592496),
   (2224, 591448), (2225, 590400), (2226, 589352), (2227, 588304), (2228, 587256), (2229, 586208), (2230, 585160), (2231, 584112), (2232, 583064),
   (2233, 582016), (2234, 580968), (2235, 579920), (2236, 578872), (2237, 577824), (2238, 576776), (2239, 575728), (2240, 574680), (2241, 573632),
   (2242, 572584), (2243, 571536), (2244, 570488), (2245, 569440), (2246, 568392), (2247, 567344), (2248, 566296), (2249, 565248), (2250, 564200),
   (2251, 563528), (2252, 562856), (2253, 562184), (2254, 561512), (2255, 560840), (2256, 560168), (2257, 559496), (2258, 558824), (2259, 558152),
   (2260, 557480), (2261, 556808), (2262, 556136), (2263, 555464), (2264, 554792), (2265, 554120), (2266, 553448), (2267, 552776), (2268, 552104),
   (2269, 551432), (2270, 550760), (2271, 550088), (2272, 549416), (2273, 548744), (2274, 548072), (2275, 547400), (2276, 546728), (2277, 546056),
   (2278, 545384), (2279, 544712), (2280, 544040), (2281, 543368), (2282, 542696), (2283, 542024), (2284, 541352), (2285, 540680), (2286, 540008),
   (2287, 539336), (2288, 538664), (2289, 537992)]

def rows_galex_NUV_5 : List (Nat × Int) :=
  [(2290, 537320), (2291, 536648), (2292, 535976), (2293, 535304), (2294, 534632), (2295, 533960), (2296, 533288), (2297, 532616), (2298, 531944),
   (2299, 531272), (2300, 530600), (2301, 529518), (2302, 528436), (2303, 527354), (2304, 526272), (2305, 525190), (2306, 524108), (2307, 523026),
   (2308, 521944), (2309, 520862), (2310, 519780), (2311, 518698), (2312, 517616), (2313, 516534), (2314, 515452), (2315, 514370), (2316, 513288),
   (2317, 512206), (2318, 511124), (2319, 510042), (2320, 508960), (2321, 507878), (2322, 506796), (2323, 505714), (2324, 504632), (2325, 503550),
   (2326, 502468), (2327, 501386), (2328, 500304), (2329, 499222), (2330, 498140), (2331, 497058), (2332, 495976), (2333, 494894), (2334, 493812),
   (2335, 492730), (2336, 491648), (2337, 490566), (2338, 489484), (2339, 488402), (2340, 487320), (2341, 486238), (2342, 485156), (2343, 484074),
   (2344, 482992), (2345, 481910), (2346, 480828), (2347, 479746), (2348, 478664), (2349, 477582), (2350, 476500), (2351, 477116), (2352, 477732),
   (2353, 478348), (2354, 478964), (2355, 479580), (2356, 480196), (2357, 480812), (2358, 481428), (2359, 482044), (2360, 482660), (2361, 483276),
   (2362, 483892), (2363, 484508), (2364, 485124), (2365, 485740), (2366, 486356), (2367, 486972), (2368, 487588), (2369, 488204), (2370, 488820),
   (2371, 489436), (2372, 490052), (2373, 490668), (2374, 491284), (2375, 491900), (2376, 492516), (2377, 493132), (2378, 493748), (2379, 494364),
   (2380, 494980), (2381, 495596), (2382, 496212), (2383, 496828), (2384, 497444), (2385, 498060), (2386, 498676), (2387, 499292), (2388, 499908),
   (2389, 500524), (2390, 501140), (2391, 501756), (2392, 502372), (2393, 502988), (2394, 503604), (2395, 504220), (2396, 504836), (2397, 505452),
   (2398, 506068), (2399, 506684), (2400, 507300), (2401, 507848), (2402, 508396), (2403, 508944), (2404, 509492), (2405, 510040), (2406, 510588),
   (2407, 511136), (2408, 511684), (2409, 512232)]

def rows_galex_NUV_6 : List (Nat × Int) :=
  [(2410, 512780), (2411, 513328), (2412, 513876), (2413, 514424), (2414, 514972), (2415, 515520), (2416, 516068), (2417, 516616), (2418, 517164),
   (2419, 517712), (2420, 518260), (2421, 518808), (2422, 519356), (2423, 519904), (2424, 520452), (2425, 521000), (2426, 521548), (2427, 522096),
   (2428, 522644), (2429, 523192), (2430, 523740), (2431, 524288), (2432, 524836), (2433, 525384), (2434, 525932), (2435, 526480), (2436, 527028),
   (2437, 527576), (2438, 528124), (2439, 528672), (2440, 529220), (2441, 529768), (2442, 530316), (2443, 530864), (2444, 531412), (2445, 531960),
   (2446, 532508), (2447, 533056), (2448, 533604), (2449, 534152), (2450, 534700), (2451, 534508), (2452, 534316), (2453, 534124), (2454, 533932),
   (2455, 533740), (2456, 533548), (2457, 533356), (2458, 533164), (2459, 532972), (2460, 532780), (2461, 532588), (2462, 532396), (2463, 532204),
   (2464, 532012), (2465, 531820), (2466, 531628), (2467, 531436), (2468, 531244), (2469, 531052), (2470, 530860), (2471, 530668), (2472, 530476),
   (2473, 530284), (2474, 530092), (2475, 529900), (2476, 529708), (2477, 529516), (2478, 529324), (2479, 529132), (2480, 528940), (2481, 528748),
   (2482, 528556), (2483, 528364), (2484, 528172), (2485, 527980), (2486, 527788), (2487, 527596), (2488, 527404), (2489, 527212), (2490, 527020),
   (2491, 526828), (2492, 526636), (2493, 526444), (2494, 526252), (2495, 526060), (2496, 525868), (2497, 525676), (2498, 525484), (2499, 525292),
   (2500, 525100), (2501, 524924), (2502, 524748), (2503, 524572), (2504, 524396), (2505, 524220), (2506, 524044), (2507, 523868), (2508, 523692),
   (2509, 523516), (2510, 523340), (2511, 523164), (2512, 522988), (2513, 522812), (2514, 522636), (2515, 522460), (2516, 522284), (2517, 522108),
   (2518, 521932), (2519, 521756), (2520, 521580), (2521, 521404), (2522, 521228), (2523, 521052), (2524, 520876), (2525, 520700), (2526, 520524),
   (2527, 520348), (2528, 520172), (2529, 519996)]

def rows_galex_NUV_7 : List (Nat × Int) :=
  [(2530, 519820), (2531, 519644), (2532, 519468), (2533, 519292), (2534, 519116), (2535, 518940), (2536, 518764), (2537, 518588), (2538, 518412),
   (2539, 518236), (2540, 518060), (2541, 517884), (2542, 517708), (2543, 517532), (2544, 517356), (2545, 517180), (2546, 517004), (2547, 516828),
   (2548, 516652), (2549, 516476), (2550, 516300), (2551, 515988), (2552, 515676), (2553, 515364), (2554, 515052), (2555, 514740), (2556, 514428),
   (2557, 514116), (2558, 513804), (2559, 513492), (2560, 513180), (2561, 512868), (2562, 512556), (2563, 512244), (2564, 511932), (2565, 511620),
   (2566, 511308), (2567, 510996), (2568, 510684), (2569, 510372), (2570, 510060), (2571, 509748), (2572, 509436), (2573, 509124), (2574, 508812),
   (2575, 508500), (2576, 508188), (2577, 507876), (2578, 507564), (2579, 507252), (2580, 506940), (2581, 506628), (2582, 506316), (2583, 506004),
   (2584, 505692), (2585, 505380), (2586, 505068), (2587, 504756), (2588, 504444), (2589, 504132), (2590, 503820), (2591, 503508), (2592, 503196),
   (2593, 502884), (2594, 502572), (2595, 502260), (2596, 501948), (2597, 501636), (2598, 501324), (2599, 501012), (2600, 500700), (2601, 499824),
   (2602, 498948), (2603, 498072), (2604, 497196), (2605, 496320), (2606, 495444), (2607, 494568), (2608, 493692), (2609, 492816), (2610, 491940),
   (2611, 491064), (2612, 490188), (2613, 489312), (2614, 488436), (2615, 487560), (2616, 486684), (2617, 485808), (2618, 484932), (2619, 484056),
   (2620, 483180), (2621, 482304), (2622, 481428), (2623, 480552), (2624, 479676), (2625, 478800), (2626, 477924), (2627, 477048), (2628, 476172),
   (2629, 475296), (2630, 474420), (2631, 473544), (2632, 472668), (2633, 471792), (2634, 470916), (2635, 470040), (2636, 469164), (2637, 468288),
   (2638, 467412), (2639, 466536), (2640, 465660), (2641, 464784), (2642, 463908), (2643, 463032), (2644, 462156), (2645, 461280), (2646, 460404),
   (2647, 459528), (2648, 458652), (2649, 457776)]

def rows_galex_NUV_8 : List (Nat × Int) :=
  [(2650, 456900), (2651, 455280), (2652, 453660), (2653, 452040), (2654, 450420), (2655, 448800), (2656, 447180), (2657, 445560), (2658, 443940),
   (2659, 442320), (2660, 440700), (2661, 439080), (2662, 437460), (2663, 435840), (2664, 434220), (2665, 432600), (2666, 430980), (2667, 429360),
   (2668, 427740), (2669, 426120), (2670, 424500), (2671, 422880), (2672, 421260), (2673, 419640), (2674, 418020), (2675, 416400), (2676, 414780),
   (2677, 413160), (2678, 411540), (2679, 409920), (2680, 408300), (2681, 406680), (2682, 405060), (2683, 403440), (2684, 401820), (2685, 400200),
   (2686, 398580), (2687, 396960), (2688, 395340), (2689, 393720), (2690, 392100), (2691, 390480), (2692, 388860), (2693, 387240), (2694, 385620),
   (2695, 384000), (2696, 382380), (2697, 380760), (2698, 379140), (2699, 377520), (2700, 375900), (2701, 373362), (2702, 370824), (2703, 368286),
   (2704, 365748), (2705, 363210), (2706, 360672), (2707, 358134), (2708, 355596), (2709, 353058), (2710, 350520), (2711, 347982), (2712, 345444),
   (2713, 342906), (2714, 340368), (2715, 337830), (2716, 335292), (2717, 332754), (2718, 330216), (2719, 327678), (2720, 325140), (2721, 322602),
   (2722, 320064), (2723, 317526), (2724, 314988), (2725, 312450), (2726, 309912), (2727, 307374), (2728, 304836), (2729, 302298), (2730, 299760),
   (2731, 297222), (2732, 294684), (2733, 292146), (2734, 289608), (2735, 287070), (2736, 284532), (2737, 281994), (2738, 279456), (2739, 276918),
   (2740, 274380), (2741, 271842), (2742, 269304), (2743, 266766), (2744, 264228), (2745, 261690), (2746, 259152), (2747, 256614), (2748, 254076),
   (2749, 251538), (2750, 249000), (2751, 246186), (2752, 243372), (2753, 240558), (2754, 237744), (2755, 234930), (2756, 232116), (2757, 229302),
   (2758, 226488), (2759, 223674), (2760, 220860), (2761, 218046), (2762, 215232), (2763, 212418), (2764, 209604), (2765, 206790), (2766, 203976),
   (2767, 201162), (2768, 198348), (2769, 195534)]

def rows_galex_NUV_9 : List (Nat × Int) :=
  [(2770, 192720), (2771, 189906), (2772, 187092), (2773, 184278), (2774, 181464), (2775, 178650), (2776, 175836), (2777, 173022), (2778, 170208),
   (2779, 167394), (2780, 164580), (2781, 161766), (2782, 158952), (2783, 156138), (2784, 153324), (2785, 150510), (2786, 147696), (2787, 144882),
   (2788, 142068), (2789, 139254), (2790, 136440), (2791, 133626), (2792, 130812), (2793, 127998), (2794, 125184), (2795, 122370), (2796, 119556),
   (2797, 116742), (2798, 113928), (2799, 111114), (2800, 108300), (2801, 106824), (2802, 105348), (2803, 103872), (2804, 102396), (2805, 100920),
   (2806, 99444), (2807, 97968), (2808, 96492), (2809, 95016), (2810, 93540), (2811, 92064), (2812, 90588), (2813, 89112), (2814, 87636), (2815, 86160),
   (2816, 84684), (2817, 83208), (2818, 81732), (2819, 80256), (2820, 78780), (2821, 77304), (2822, 75828), (2823, 74352), (2824, 72876), (2825, 71400),
   (2826, 69924), (2827, 68448), (2828, 66972), (2829, 65496), (2830, 64020), (2831, 62544), (2832, 61068), (2833, 59592), (2834, 58116), (2835, 56640),
   (2836, 55164), (2837, 53688), (2838, 52212), (2839, 50736), (2840, 49260), (2841, 47784), (2842, 46308), (2843, 44832), (2844, 43356), (2845, 41880),
   (2846, 40404), (2847, 38928), (2848, 37452), (2849, 35976), (2850, 34500), (2851, 34060), (2852, 33620), (2853, 33180), (2854, 32740), (2855, 32300),
   (2856, 31860), (2857, 31420), (2858, 30980), (2859, 30540), (2860, 30100), (2861, 29660), (2862, 29220), (2863, 28780), (2864, 28340), (2865, 27900),
   (2866, 27460), (2867, 27020), (2868, 26580), (2869, 26140), (2870, 25700), (2871, 25260), (2872, 24820), (2873, 24380), (2874, 23940), (2875, 23500),
   (2876, 23060), (2877, 22620), (2878, 22180), (2879, 21740), (2880, 21300), (2881, 20860), (2882, 20420), (2883, 19980), (2884, 19540), (2885, 19100),
   (2886, 18660), (2887, 18220), (2888, 17780), (2889, 17340)]

def rows_galex_NUV_10 : List (Nat × Int) :=
  [(2890, 16900), (2891, 16460), (2892, 16020), (2893, 15580), (2894, 15140), (2895, 14700), (2896, 14260), (2897, 13820), (2898, 13380), (2899, 12940),
   (2900, 12500), (2901, 12522), (2902, 12544), (2903, 12566), (2904, 12588), (2905, 12610), (2906, 12632), (2907, 12654), (2908, 12676), (2909, 12698),
   (2910, 12720), (2911, 12742), (2912, 12764), (2913, 12786), (2914, 12808), (2915, 12830), (2916, 12852), (2917, 12874), (2918, 12896), (2919, 12918),
   (2920, 12940), (2921, 12962), (2922, 12984), (2923, 13006), (2924, 13028), (2925, 13050), (2926, 13072), (2927, 13094), (2928, 13116), (2929, 13138),
   (2930, 13160), (2931, 13182), (2932, 13204), (2933, 13226), (2934, 13248), (2935, 13270), (2936, 13292), (2937, 13314), (2938, 13336), (2939, 13358),
   (2940, 13380), (2941, 13402), (2942, 13424), (2943, 13446), (2944, 13468), (2945, 13490), (2946, 13512), (2947, 13534), (2948, 13556), (2949, 13578),
   (2950, 13600), (2951, 13698), (2952, 13796), (2953, 13894), (2954, 13992), (2955, 14090), (2956, 14188), (2957, 14286), (2958, 14384), (2959, 14482),
   (2960, 14580), (2961, 14678), (2962, 14776), (2963, 14874), (2964, 14972), (2965, 15070), (2966, 15168), (2967, 15266), (2968, 15364), (2969, 15462),
   (2970, 15560), (2971, 15658), (2972, 15756), (2973, 15854), (2974, 15952), (2975, 16050), (2976, 16148), (2977, 16246), (2978, 16344), (2979, 16442),
   (2980, 16540), (2981, 16638), (2982, 16736), (2983, 16834), (2984, 16932), (2985, 17030), (2986, 17128), (2987, 17226), (2988, 17324), (2989, 17422),
   (2990, 17520), (2991, 17618), (2992, 17716), (2993, 17814), (2994, 17912), (2995, 18010), (2996, 18108), (2997, 18206), (2998, 18304), (2999, 18402),
   (3000, 18500), (3001, 16650), (3002, 14800), (3003, 12950), (3004, 11100), (3005, 9250), (3006, 7400), (3007, 5550), (3008, 3700), (3009, 1850)]

def rows_galex_NUV_11 : List (Nat × Int) :=
  [(3010, 0)]

/-- data/responses/galex_NUV.dat -/
def file_galex_NUV : BandFile := ⟨"galex_NUV".toList, 0, 4,
  rows_galex_NUV_0 ++ rows_galex_NUV_1 ++ rows_galex_NUV_2 ++ rows_galex_NUV_3 ++ rows_galex_NUV_4 ++ rows_galex_NUV_5 ++ rows_galex_NUV_6 ++ rows_galex_NUV_7 ++ rows_galex_NUV_8 ++ rows_galex_NUV_9 ++ rows_galex_NUV_10 ++ rows_galex_NUV_11⟩

/-- data/responses/sdss_u0.dat -/
def file_sdss_u0 : BandFile := ⟨"sdss_u0".toList, 0, 4,
  [(2980, 0), (3005, 1), (3030, 5), (3055, 12), (3080, 26), (3105, 51), (3130, 91), (3155, 157), (3180, 235), (3205, 317), (3230, 397), (3255, 476),
   (3280, 550), (3305, 621), (3330, 685), (3355, 741), (3380, 787), (3405, 831), (3430, 865), (3455, 898), (3480, 940), (3505, 981), (3530, 1009),
   (3555, 1024), (3580, 1032), (3605, 1042), (3630, 1053), (3655, 1063), (3680, 1062), (3705, 1043), (3730, 1003), (3755, 946), (3780, 869),
   (3805, 771), (3830, 659), (3855, 538), (3880, 405), (3905, 263), (3930, 142), (3955, 74), (3980, 42), (4005, 22), (4030, 10), (4055, 5), (4080, 4),
   (4105, 2), (4130, 0)]⟩

/-- data/responses/sdss_g0.dat -/
def file_sdss_g0 : BandFile := ⟨"sdss_g0".toList, 0, 4,
  [(3630, 0), (3680, 8), (3730, 18), (3780, 33), (3830, 101), (3880, 320), (3930, 673), (3980, 1101), (4030, 1515), (4080, 1837), (4130, 2073),
   (4180, 2254), (4230, 2398), (4280, 2524), (4330, 2639), (4380, 2746), (4430, 2840), (4480, 2918), (4530, 2992), (4580, 3078), (4630, 3159),
   (4680, 3218), (4730, 3259), (4780, 3295), (4830, 3334), (4880, 3380), (4930, 3426), (4980, 3471), (5030, 3509), (5080, 3536), (5130, 3535),
   (5180, 3508), (5230, 3382), (5280, 2751), (5330, 1802), (5380, 893), (5430, 289), (5480, 110), (5530, 49), (5580, 21), (5630, 12), (5680, 9),
   (5730, 6), (5780, 3), (5830, 0)]⟩

/-- data/responses/sdss_r0.dat -/
def file_sdss_r0 : BandFile := ⟨"sdss_r0".toList, 0, 4,
  [(5230, 0), (5280, 13), (5330, 9), (5380, -13), (5430, 97), (5480, 487), (5530, 1162), (5580, 2050), (5630, 2914), (5680, 3535), (5730, 3929),
   (5780, 4167), (5830, 4307), (5880, 4398), (5930, 4471), (5980, 4542), (6030, 4596), (6080, 4619), (6130, 4634), (6180, 4671), (6230, 4723),
   (6280, 4772), (6330, 4805), (6380, 4813), (6430, 4812), (6480, 4816), (6530, 4803), (6580, 4754), (6630, 4601), (6680, 3929), (6730, 2867),
   (6780, 1681), (6830, 673), (6880, 208), (6930, 97), (6980, 54), (7030, 27), (7080, 15), (7130, 10), (7180, 4), (7230, 0)]⟩

/-- data/responses/sdss_i0.dat -/
def file_sdss_i0 : BandFile := ⟨"sdss_i0".toList, 0, 4,
  [(6430, 0), (6480, 3), (6530, 4), (6580, 3), (6630, 9), (6680, 33), (6730, 101), (6780, 337), (6830, 822), (6880, 1497), (6930, 2359), (6980, 3166),
   (7030, 3683), (7080, 4075), (7130, 4078), (7180, 3686), (7230, 3838), (7280, 3751), (7330, 3806), (7380, 3747), (7430, 3686), (7480, 3610),
   (7530, 3494), (7580, 3409), (7630, 2055), (7680, 3235), (7730, 3147), (7780, 3051), (7830, 2955), (7880, 2882), (7930, 2861), (7980, 2873),
   (8030, 2842), (8080, 2705), (8130, 2379), (8180, 1655), (8230, 883), (8280, 370), (8330, 115), (8380, 47), (8430, 20), (8480, 10), (8530, 9),
   (8580, 5), (8630, 0)]⟩

/-- data/responses/sdss_z0.dat -/
def file_sdss_z0 : BandFile := ⟨"sdss_z0".toList, 0, 4,
  [(7730, 0), (7800, 1), (7870, 2), (7940, 6), (8010, 19), (8080, 56), (8150, 129), (8220, 246), (8290, 399), (8360, 561), (8430, 654), (8500, 718),
   (8570, 756), (8640, 770), (8710, 763), (8780, 735), (8850, 697), (8920, 638), (8990, 523), (9060, 510), (9130, 471), (9200, 471), (9270, 408),
   (9340, 266), (9410, 278), (9480, 247), (9550, 238), (9620, 257), (9690, 272), (9760, 229), (9830, 212), (9900, 182), (9970, 150), (10040, 121),
   (10110, 95), (10180, 73), (10250, 55), (10320, 42), (10390, 31), (10460, 24), (10530, 19), (10600, 16), (10670, 13), (10740, 10), (10810, 8),
   (10880, 6), (10950, 5), (11020, 4), (11090, 3), (11160, 1), (11230, 0)]⟩

/-- data/responses/twomass_J.dat -/
def file_twomass_J : BandFile := ⟨"twomass_J".toList, 0, 15,
  [(10620, 0), (10660, 46904320), (10700, 186915900), (10750, 316279100), (10780, 658627100), (10820, 1460259000), (10840, 2416974000),
   (10870, 3643054000), (10890, 4802571000), (10930, 6084172000), (10960, 6633212000), (11020, 8411978000), (11050, 24760180000), (11070, 30803970000),
   (11090, 32317400000), (11120, 34181650000), (11160, 29632620000), (11170, 21441360000), (11200, 21375000000), (11230, 25227070000),
   (11280, 22890070000), (11290, 22276350000), (11320, 47535340000), (11340, 19682540000), (11380, 47179260000), (11400, 9666667000),
   (11430, 46299210000), (11470, 22833480000), (11540, 27746970000), (11590, 15038830000), (11640, 52147770000), (11670, 52947730000),
   (11700, 57803420000), (11730, 62054560000), (11750, 63531910000), (11790, 70432570000), (11820, 66861250000), (11860, 68263070000),
   (11880, 70446130000), (11920, 70134230000), (11950, 62753140000), (11990, 59049210000), (12020, 58136440000), (12090, 58304380000),
   (12160, 57598680000), (12210, 60016380000), (12270, 57514260000), (12310, 68432170000), (12360, 74587380000), (12400, 76814520000),
   (12440, 77781350000), (12470, 76944670000), (12530, 73639270000), (12550, 71155380000), (12580, 67798090000), (12600, 63674600000),
   (12650, 59296440000), (12700, 53393700000), (12750, 51168630000), (12790, 49945270000), (12860, 49953340000), (12920, 50201240000),
   (12970, 52613720000), (13020, 57826420000), (13050, 59455940000), (13070, 62111710000), (13100, 59312980000), (13130, 54912410000),
   (13160, 72378420000), (13190, 64829420000), (13230, 63597880000), (13260, 75414780000), (13300, 67270680000), (13330, 64133530000),
   (13340, 40322340000), (13360, 20950600000), (13390, 67699780000), (13430, 51325390000), (13460, 41106980000), (13490, 18028170000),
   (13530, 1064302000), (13550, 14760150), (13600, 2948529000), (13630, 330154100), (13700, 21897810), (13730, 2709395000), (13770, 36310820),
   (13830, 0), (13880, 7204611), (13920, 237069000), (13950, 21505380), (13960, 608882500), (13980, 8884120000), (13970, 1732283000), (14000, 7142857),
   (14020, 3716120000), (14040, 740740700), (14060, 3399716000), (14070, 28429280), (14100, 170212800), (14120, 375354100), (14160, 607344600),
   (14210, 49261080), (14260, 21037870), (14420, 27739250), (14590, 20562030), (14940, 0), (15000, 0)]⟩

/-- data/responses/twomass_H.dat -/
def file_twomass_H : BandFile := ⟨"twomass_H".toList, 0, 15,
  [(13000, 0), (13150, 0), (13410, 0), (13680, 0), (13970, 0), (14180, 0), (14400, 34722220), (14620, 191518500), (14780, 548037900),
   (14860, 1931359000), (14930, 5833891000), (15040, 13390960000), (15150, 28924090000), (15280, 44921470000), (15390, 53157890000),
   (15460, 57056920000), (15510, 58787880000), (15560, 59569410000), (15650, 59380190000), (15720, 55515270000), (15770, 54318330000),
   (15830, 55754900000), (15920, 57669600000), (15970, 58027550000), (16020, 56654180000), (16130, 57408560000), (16190, 56856080000),
   (16280, 56769040000), (16330, 56552360000), (16420, 57356880000), (16480, 57591020000), (16570, 59185270000), (16590, 59897530000),
   (16710, 59844400000), (16840, 56775530000), (17010, 54326870000), (17150, 57265310000), (17270, 57417490000), (17390, 56854510000),
   (17460, 56082470000), (17510, 55294120000), (17530, 53451230000), (17560, 52334850000), (17640, 47749430000), (17750, 37583100000),
   (17850, 15092440000), (17900, 25229050000), (17960, 9638085000), (18030, 5973378000), (18100, 3906077000), (18130, 281301700), (18180, 1100110000),
   (18280, 21881840), (18350, 0), (18500, 5405405), (18710, 0), (18930, 0), (19150, 0)]⟩

/-- data/responses/twomass_Ks.dat -/
def file_twomass_Ks : BandFile := ⟨"twomass_Ks".toList, 0, 14,
  [(18970, 0), (19150, 0), (19270, 0), (19340, 1034126), (19390, 2578649), (19480, 27720740), (19570, 60807360), (19620, 100407700), (19690, 214322000),
   (19760, 441801600), (19810, 771327600), (19890, 1247863000), (19900, 955778900), (19980, 1170671000), (20080, 1467131000), (20140, 1977160000),
   (20190, 1667162000), (20280, 3060651000), (20370, 3755523000), (20450, 3649878000), (20610, 3032994000), (20720, 3501448000), (20750, 3322892000),
   (20820, 3784342000), (20890, 3916228000), (20990, 3919962000), (21060, 4099240000), (21130, 4154283000), (21240, 4215160000), (21380, 4297942000),
   (21450, 4320746000), (21550, 4300232000), (21690, 4153527000), (21760, 4240809000), (21850, 3857208000), (21970, 4305416000), (22080, 4440217000),
   (22130, 4464076000), (22180, 4440036000), (22320, 4322133000), (22370, 4388020000), (22480, 4374555000), (22560, 4261082000), (22600, 4332743000),
   (22630, 4418913000), (22650, 4252539000), (22700, 4322467000), (22720, 4261004000), (22760, 4002197000), (22770, 4313131000), (22810, 3900044000),
   (22840, 3904553000), (22860, 4122485000), (22910, 3668267000), (22930, 3507196000), (22960, 3057491000), (22990, 2438886000), (23060, 1924111000),
   (23110, 1506707000), (23160, 993955100), (23200, 700862100), (23250, 584946200), (23280, 395618600), (23350, 267237700), (23390, 184266800),
   (23450, 130916800), (23520, 50170070), (23610, 28801360), (23630, 2962336), (23700, 12658230), (23750, 8842105), (23840, 1677852), (23990, 0),
   (24290, 1646768), (24740, 0)]⟩

/-- the files of the default responses of `KcorrectGST` (which include those of `KcorrectSDSS`) -/
def defaultFiles : List BandFile :=
  [file_galex_FUV, file_galex_NUV, file_sdss_u0, file_sdss_g0, file_sdss_r0, file_sdss_i0, file_sdss_z0, file_twomass_J, file_twomass_H, file_twomass_Ks]

end KC
